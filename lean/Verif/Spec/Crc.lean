import Mathlib.Data.Nat.Basic
import Mathlib.Logic.Function.Iterate

/-!
# CRC-32C, bit by bit

Polynomial division over GF(2) in reflected bit order: the register is shifted right by one bit and, if the bit
shifted out is 1, the reflected polynomial `0x82F63B78` is added.  A message byte is added to the low byte of the register
before its eight shifts.  No tables.
-/

namespace Verif
namespace CrcSpec

/-- the reflected Castagnoli polynomial -/
def poly : BitVec 32 := 0x82F63B78#32

/-- one division step -/
def stepBit (r : BitVec 32) : BitVec 32 := if r.getLsbD 0 then (r >>> 1) ^^^ poly else r >>> 1

/-- the register after one more message byte -/
def stepByte (r : BitVec 32) (b : BitVec 8) : BitVec 32 := stepBit^[8] (r ^^^ b.setWidth 32)

/-- the register after a message -/
def crc (r : BitVec 32) (msg : List (BitVec 8)) : BitVec 32 := msg.foldl stepByte r

/-- the four bytes of the checksum of a message, least significant first -/
def tail (msg : List (BitVec 8)) : List (BitVec 8) :=
  let c := crc 0#32 msg
  [c.setWidth 8, (c >>> 8).setWidth 8, (c >>> 16).setWidth 8, (c >>> 24).setWidth 8]

end CrcSpec
end Verif
