import Mathlib.Data.Nat.Size
import Mathlib.Data.Int.Notation

/-!
# Byte strings as numbers
-/

namespace Verif
namespace BytesSpec

/-- the number a byte string denotes, most significant byte first: each byte is weighted by `256` to the number of bytes
behind it -/
def val : List (BitVec 8) → ℕ
  | [] => 0
  | b :: l => b.toNat * 256 ^ l.length + val l

/-- how many bytes the magnitude of an integer needs: its number of bits divided by eight, rounded up -/
def byteLen (n : ℤ) : ℕ := (n.natAbs.size + 7) / 8

/-- `l` is the byte string of the non-negative integer `n`: it denotes `n` and has no leading zero -/
structure IsBytes (n : ℤ) (l : List (BitVec 8)) : Prop where
  value : (val l : ℤ) = n
  head : l.head? ≠ some 0#8

end BytesSpec
end Verif
