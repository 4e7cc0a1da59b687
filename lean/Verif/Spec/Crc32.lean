import Mathlib.Data.Nat.Basic
import Mathlib.Logic.Function.Iterate

/-!
# CRC-32, bit by bit

The polynomial `X^32+X^26+X^23+X^22+X^16+X^12+X^11+X^10+X^8+X^7+X^5+X^4+X^2+X+1`, highest term in the lowest bit.  No tables.
-/

namespace Verif
namespace Crc32Spec

/-- the exponents of the polynomial below 32 -/
def exponents : List ℕ := [26, 23, 22, 16, 12, 11, 10, 8, 7, 5, 4, 2, 1, 0]

/-- the polynomial without its highest term: `X^e` is bit `31 - e` -/
def poly : BitVec 32 := (exponents.map fun e => 1#32 <<< (31 - e)).foldl (· ||| ·) 0#32

/-- one division step -/
def stepBit (r : BitVec 32) : BitVec 32 := if r.getLsbD 0 then (r >>> 1) ^^^ poly else r >>> 1

/-- the checksum: all ones in front, and inverted at the end -/
def crc (msg : List (BitVec 8)) : BitVec 32 :=
  ~~~ msg.foldl (fun r b => stepBit^[8] (r ^^^ b.setWidth 32)) 0xffffffff#32

end Crc32Spec
end Verif
