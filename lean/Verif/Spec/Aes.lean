import Mathlib.Data.List.Basic

/-!
# Additive stream encryption of byte strings
-/

namespace Verif
namespace StreamSpec

/-- the keystream of an AES-CTR instance `E`: it depends on the first 16 key bytes and the 16 bytes from the beginning of the
IV's storage (its characters, the terminating zero, what is behind) -/
def keystream (E : List (BitVec 8) → List (BitVec 8) → ℕ → BitVec 8) (key ivStr ivAfter : List (BitVec 8)) (i : ℕ) : BitVec 8 :=
  E (key.take 16) ((ivStr ++ 0#8 :: ivAfter).take 16) i

/-- byte `i` of `l` combined with byte `i` of the keystream -/
def combine (ks : ℕ → BitVec 8) (l : List (BitVec 8)) : List (BitVec 8) := l.mapIdx fun i b => b ^^^ ks i

/-- the first `n` bytes in which two keystreams differ, as exclusive or -/
def difference (ks ks' : ℕ → BitVec 8) (n : ℕ) : List (BitVec 8) := (List.range n).map fun i => ks i ^^^ ks' i

end StreamSpec
end Verif
