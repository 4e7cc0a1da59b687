import Verif.Model.CrcTables
import Verif.Model.Utilities

/-!
# CRC-32C (`includes/crc.hpp`)

A buffer is the list of its bytes; reading past its end is the fault `oobRead`.  The byte shifts
`*(res+k) << 24` promote to `int`; the shift into the sign bit and the conversion to `uint32_t` are those of C++14
and later (modulo `2^32`).
-/

namespace Verif
namespace Crc

/-- `table[i]` -/
def lookup (t : Table) (i : BitVec 32) : R (BitVec 32) :=
  match t[i.toNat]? with
  | some x => .ok x
  | none => .error .oobRead

/-- a byte converted to `uint32_t` -/
def w (b : Byte) : BitVec 32 := b.setWidth 32

/-- `while (size--) crc = table[(crc ^ *p++) & 0xff] ^ (crc >> 8);` returning the register and the rest of the
buffer (`includes/crc.hpp:216-217, 696-698, 733-735`). -/
def byteLoop (t : Table) : Nat → BitVec 32 → List Byte → R (BitVec 32 × List Byte)
  | 0, crc, buf => .ok (crc, buf)
  | _ + 1, _, [] => .error .oobRead
  | n + 1, crc, b :: buf => do
    let x ← lookup t ((crc ^^^ w b) &&& 0xff#32)
    byteLoop t n (x ^^^ (crc >>> 8)) buf

/-- `singletable_crc32c(crc, buf, size)` (`includes/crc.hpp:210-220`). -/
def singletable (crc : BitVec 32) (buf : List Byte) (size : Nat) : R (BitVec 32) := do
  let (r, _) ← byteLoop crc32Table size crc buf
  .ok r

/-- `*(const uint32_t *) p_buf` on a little-endian machine; `addr` is the value of `p_buf` -/
def load32 (addr : Nat) : List Byte → R (BitVec 32)
  | b0 :: b1 :: b2 :: b3 :: _ =>
    if addr % 4 = 0 then .ok (w b0 ||| w b1 <<< 8 ||| w b2 <<< 16 ||| w b3 <<< 24) else .error .misaligned
  | _ => .error .oobRead

/-- `*p_buf++` -/
def next : List Byte → R (Byte × List Byte)
  | b :: buf => .ok (b, buf)
  | [] => .error .oobRead

/-- one iteration of the main loop of `crc32c_sb8_64_bit`, preprocessor branch for little-endian machines
(`includes/crc.hpp:705-716, 721-730`) -/
def step8LE (addr : Nat) (crc : BitVec 32) (buf : List Byte) : R (BitVec 32 × List Byte) := do
  let d ← load32 addr buf
  let crc := crc ^^^ d
  let buf := buf.drop 4
  let t88 ← lookup o88 (crc &&& 0xff#32)
  let t80 ← lookup o80 ((crc >>> 8) &&& 0xff#32)
  let term1 := t88 ^^^ t80
  let term2 := crc >>> 16
  let t72 ← lookup o72 (term2 &&& 0xff#32)
  let t64 ← lookup o64 ((term2 >>> 8) &&& 0xff#32)
  let crc := term1 ^^^ t72 ^^^ t64
  let d ← load32 (addr + 4) buf
  let t56 ← lookup o56 (d &&& 0xff#32)
  let t48 ← lookup o48 ((d >>> 8) &&& 0xff#32)
  let term1 := t56 ^^^ t48
  let term2 := d >>> 16
  let t40 ← lookup o40 (term2 &&& 0xff#32)
  let t32 ← lookup o32 ((term2 >>> 8) &&& 0xff#32)
  .ok (crc ^^^ term1 ^^^ t40 ^^^ t32, buf.drop 4)

/-- the same, preprocessor branch for big-endian machines, also taken when the macros are undefined
(`includes/crc.hpp:700-704, 709-720`) -/
def step8BE (crc : BitVec 32) (buf : List Byte) : R (BitVec 32 × List Byte) := do
  let (b, buf) ← next buf
  let crc := crc ^^^ w b
  let (b, buf) ← next buf
  let crc := crc ^^^ w b <<< 8
  let (b, buf) ← next buf
  let crc := crc ^^^ w b <<< 16
  let (b, buf) ← next buf
  let crc := crc ^^^ w b <<< 24
  let t88 ← lookup o88 (crc &&& 0xff#32)
  let t80 ← lookup o80 ((crc >>> 8) &&& 0xff#32)
  let term1 := t88 ^^^ t80
  let term2 := crc >>> 16
  let t72 ← lookup o72 (term2 &&& 0xff#32)
  let t64 ← lookup o64 ((term2 >>> 8) &&& 0xff#32)
  let crc := term1 ^^^ t72 ^^^ t64
  let (b, buf) ← next buf
  let x ← lookup o56 (w b)
  let crc := crc ^^^ x
  let (b, buf) ← next buf
  let x ← lookup o48 (w b)
  let crc := crc ^^^ x
  let (b, buf) ← next buf
  let x ← lookup o40 (w b)
  let crc := crc ^^^ x
  let (b, buf) ← next buf
  let x ← lookup o32 (w b)
  .ok (crc ^^^ x, buf)

/-- the main loop, `n` iterations (`includes/crc.hpp:699-732`); `be` tells which preprocessor branch is compiled,
`addr` is the value of `p_buf` -/
def mainLoop (be : Bool) : Nat → Nat → BitVec 32 → List Byte → R (BitVec 32 × List Byte)
  | 0, _, crc, buf => .ok (crc, buf)
  | n + 1, addr, crc, buf => do
    let (crc', buf') ← if be then step8BE crc buf else step8LE addr crc buf
    mainLoop be n (addr + 8) crc' buf'

/-- subtraction of `uint32_t` -/
def sub32 (a b : Nat) : Nat := (a + (2 ^ 32 - b)) % 2 ^ 32

/-- `crc32c_sb8_64_bit(crc, p_buf, length, init_bytes)` (`includes/crc.hpp:682-737`). -/
def sb8 (be : Bool) (addr : Nat) (crc : BitVec 32) (buf : List Byte) (length init : Nat) : R (BitVec 32) := do
  let running := (sub32 length init / 8) * 8
  let endBytes := sub32 (sub32 length init) running
  let (crc, buf) ← byteLoop o32 init crc buf
  let (crc, buf) ← mainLoop be (running / 8) (addr + init) crc buf
  let (crc, _) ← byteLoop o32 endBytes crc buf
  .ok crc

/-- `multitable_crc32c(crc32c, buffer, length)` (`includes/crc.hpp:739-751`); `addr` is the address of the buffer. -/
def multitable (be : Bool) (addr : Nat) (crc : BitVec 32) (buf : List Byte) (length : Nat) : R (BitVec 32) :=
  if length = 0 then .ok crc
  else sb8 be addr crc buf length (4 - addr % 4)

/-- `calculate_crc32c(crc32c, buffer, length)` (`includes/crc.hpp:753-763`); the parameter `length` is an
`unsigned int`, so callers' lengths are reduced modulo `2^32` first. -/
def calculate (be : Bool) (addr : Nat) (crc : BitVec 32) (buf : List Byte) (length : Nat) : R (BitVec 32) :=
  let length := length % 2 ^ 32
  if length < 4 then singletable crc buf length
  else multitable be addr crc buf length

/-- the four bytes of a `uint32_t` in memory, little-endian, as copied by `memcpy` -/
def bytesLE (x : BitVec 32) : List Byte :=
  [x.setWidth 8, (x >>> 8).setWidth 8, (x >>> 16).setWidth 8, (x >>> 24).setWidth 8]

/-- `size_t` subtraction -/
def sub64 (a b : Nat) : Nat := (a + (2 ^ 64 - b)) % 2 ^ 64

/-- `appendCRC(n)` (`includes/crc.hpp:766-778`).  The `memcpy` writes four bytes behind the block of `len` bytes. -/
def appendCRC (pf : Platform) (n : Int) : R Int := do
  let res := Utils.getRawMpz n
  let len := res.length
  let crc ← calculate pf.bytewise (pf.addr len) 0 res len
  if len = 0 then .error .nullDeref
  else if pf.usable len < len + 4 then .error .heapOverflow
  else .ok (Utils.setRawMpz (res ++ bytesLE crc))

/-- `*(res + i)` where `i` was computed in `size_t` arithmetic -/
def readAt (res : List Byte) (i : Nat) : R Byte :=
  match res[i]? with
  | some b => .ok b
  | none => .error .oobRead

/-- `validateCRC(n)` (`includes/crc.hpp:780-795`). -/
def validateCRC (pf : Platform) (n : Int) : R Bool := do
  let res := Utils.getRawMpz n
  let len := res.length
  let b0 ← readAt res (sub64 len 4)
  let b1 ← readAt res (sub64 len 3)
  let b2 ← readAt res (sub64 len 2)
  let b3 ← readAt res (sub64 len 1)
  let value := w b0 ||| w b1 <<< 8 ||| w b2 <<< 16 ||| w b3 <<< 24
  let crc ← calculate pf.bytewise (pf.addr len) 0 res (sub64 len 4)
  .ok (crc == value)

/-- `removeCRC(n)` (`includes/crc.hpp:797-805`). -/
def removeCRC (n : Int) : R Int :=
  let res := Utils.getRawMpz n
  Utils.setRawMpzLen res (sub64 res.length 4)

end Crc
end Verif
