import Verif.Model.Basic

/-!
# `utils` (`includes/utilities.hpp`, `src/utilities/utilities.cpp`)
-/

namespace Verif

/-- a byte -/
abbrev Byte := BitVec 8

/-- What the code relies on but the C++ standard does not fix: how many bytes of a heap block obtained for `n` bytes
can be used without damage (the standard guarantees no more than `n`), the address of the block obtained for `n` bytes,
and which branch of `#if BYTE_ORDER == BIG_ENDIAN` is compiled (on a little-endian machine the first one is taken if no
header defines the two macros). -/
structure Platform where
  usable : Nat → Nat
  addr : Nat → Nat
  bytewise : Bool

namespace Utils

/-- base-256 digits of a natural number, most significant first; none for zero.  Trusted GMP semantics of
`mpz_export(NULL, &len, 1, 1, 1, 0, n)`, with fuel. -/
def digitsAux : Nat → Nat → List Byte → List Byte
  | 0, _, acc => acc
  | fuel + 1, n, acc => if n = 0 then acc else digitsAux fuel (n / 256) (BitVec.ofNat 8 n :: acc)

/-- `getRawMpz(&arr, n)` (`src/utilities/utilities.cpp:15-20`): the bytes of the new block; its length is the return
value.  The sign is dropped.  For `n = 0` the block is absent (`*arr` is `NULL`) and the length is 0. -/
def getRawMpz (n : Int) : List Byte := digitsAux n.natAbs n.natAbs []

/-- `setRawMpz(arr, len)` (`src/utilities/utilities.cpp:21-26`) for the `len` bytes at `arr`.  Trusted GMP semantics
of `mpz_import(r, len, 1, 1, 1, 0, arr)`. -/
def setRawMpz (bytes : List Byte) : Int := bytes.foldl (fun (r : Int) (b : Byte) => r * 256 + b.toNat) 0

/-- `setRawMpz(arr, len)` reading `len` bytes of a block with the given bytes -/
def setRawMpzLen (bytes : List Byte) (len : Nat) : R Int :=
  if len ≤ bytes.length then .ok (setRawMpz (bytes.take len)) else .error .oobRead

/-- `getRandom(bits)` (`src/utilities/utilities.cpp:10-13`): the coin is the value drawn, any integer in
`[0, 2^bits)`. -/
def getRandom (_bits : Nat) (coin : Int) : Int := coin

end Utils
end Verif
