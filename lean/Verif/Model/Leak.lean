import Verif.Model.Opprf

/-!
# The blocks that `mpz_export` allocates

`utils::getRawMpz` (`src/utilities/utilities.cpp:15-20`) passes a null pointer to `mpz_export`, which allocates a block of exactly
the bytes it writes, and none for the number 0.  The functions of `includes/crc.hpp`, `src/utilities/aes.cpp` and
`src/opprf/opprf.cpp` that call it, directly or not, appear here once more, together with the blocks that are allocated and not
released: the statements are those of `Verif.Model.Crc`, `Verif.Model.Aes` and `Verif.Model.Opprf`, only `getRawMpz` changes the
heap.  None of them contains a call of `free` or `mp_get_memory_functions`, the pointers are local variables, and
`EVP_CIPHER_CTX_free` releases the context only.

Simplifications: the heap is the list of the contents of the blocks allocated by `getRawMpz`, without addresses, the latest first;
the four bytes that `appendCRC` writes behind its block are not part of it.  Only calls that return give a heap.  The limbs of
`mpz_class` values are not in it (GMP releases them, without clearing them).
-/

namespace Verif

/-- the blocks allocated by `getRawMpz` and not released, with their bytes -/
abbrev Blocks := List (List Byte)

/-- code that may allocate: the blocks before, and the value and the blocks after -/
abbrev HR := StateT Blocks R

namespace Utils

/-- `getRawMpz(&arr, n)` (`src/utilities/utilities.cpp:15-20`) -/
def getRawMpzH (n : Int) : HR (List Byte) := fun h =>
  let res := getRawMpz n
  .ok (res, if res.isEmpty then h else res :: h)

end Utils

namespace Crc

/-- `appendCRC(n)` (`includes/crc.hpp:766-778`) -/
def appendCRCH (pf : Platform) (n : Int) : HR Int := do
  let res ← Utils.getRawMpzH n
  let len := res.length
  let crc ← calculate pf.bytewise (pf.addr len) 0 res len
  if len = 0 then throw .nullDeref
  else if pf.usable len < len + 4 then throw .heapOverflow
  else pure (Utils.setRawMpz (res ++ bytesLE crc))

/-- `validateCRC(n)` (`includes/crc.hpp:780-795`) -/
def validateCRCH (pf : Platform) (n : Int) : HR Bool := do
  let res ← Utils.getRawMpzH n
  let len := res.length
  let b0 ← readAt res (sub64 len 4)
  let b1 ← readAt res (sub64 len 3)
  let b2 ← readAt res (sub64 len 2)
  let b3 ← readAt res (sub64 len 1)
  let value := w b0 ||| w b1 <<< 8 ||| w b2 <<< 16 ||| w b3 <<< 24
  let crc ← calculate pf.bytewise (pf.addr len) 0 res (sub64 len 4)
  pure (crc == value)

/-- `removeCRC(n)` (`includes/crc.hpp:797-805`) -/
def removeCRCH (n : Int) : HR Int := do
  let res ← Utils.getRawMpzH n
  Utils.setRawMpzLen res (sub64 res.length 4)

end Crc

namespace Aes

/-- `AES::encrypt(plaintext, key)` (`src/utilities/aes.cpp:40-89`) -/
def encryptH (E : Cipher) (s : Iv) (plaintext key : Int) : HR Int := do
  let pt ← Utils.getRawMpzH plaintext
  let _ ← Utils.getRawMpzH key
  let k ← keyBytes key
  let iv ← ivBytes s
  let ct ← update (E k iv) pt pt.length
  pure (Utils.setRawMpz ct)

/-- `AES::decrypt(cipher, key)` (`src/utilities/aes.cpp:91-143`) -/
def decryptH (E : Cipher) (s : Iv) (cipher key : Int) : HR Int := do
  let ct ← Utils.getRawMpzH cipher
  let _ ← Utils.getRawMpzH key
  let k ← keyBytes key
  let iv ← ivBytes s
  let pt ← update (E k iv) ct ct.length
  pure (Utils.setRawMpz pt)

/-- `AES::encryptCRC(key, plaintext)` (`src/utilities/aes.cpp:145-149`) -/
def encryptCRCH (pf : Platform) (E : Cipher) (s : Iv) (key plaintext : Int) : HR Int := do
  let msg ← Crc.appendCRCH pf plaintext
  encryptH E s msg key

/-- `AES::decryptCRC(key, cipher)` (`src/utilities/aes.cpp:151-162`) -/
def decryptCRCH (pf : Platform) (E : Cipher) (s : Iv) (key cipher : Int) : HR Int := do
  let m ← decryptH E s cipher key
  let v ← Crc.validateCRCH pf m
  if v then Crc.removeCRCH m else pure 0

end Aes

namespace Opprf

open Dme Ot Aes

/-- `aes.encryptCRC` in a given world -/
def World.sealH (W : World) (key m : Int) : HR Int := encryptCRCH W.pf W.E W.iv key m

/-- `aes.decryptCRC` in a given world -/
def World.unsealH (W : World) (key c : Int) : HR Int := decryptCRCH W.pf W.E W.iv key c

/-- the two entries written for index `i + 1` by the second loop of `prepareKeysAndInputs` (`src/opprf/opprf.cpp:65-89`) -/
def entriesH (W : World) (s : Server) (i : Nat) : HR (InputI × InputI) := do
  let lt ← at' s.k_lt (i + 1)
  let eq ← at' s.k_eq (i + 1)
  let gt ← at' s.k_gt (i + 1)
  let lt' ← at' s.k_lt i
  let eq' ← at' s.k_eq i
  let gt' ← at' s.k_gt i
  let o ← at' s.ok i
  if s.theta.toNat.testBit i = false then do
    let a ← W.sealH lt lt'
    let b ← W.sealH eq eq'
    let c ← W.sealH gt gt'
    let prf0 ← s.r.smul W.env CC o
    let a' ← W.sealH lt lt'
    let b' ← W.sealH eq gt'
    let c' ← W.sealH gt gt'
    let g ← s.ga.smulZ W.env CC (2 ^ i)
    let ro ← s.r.smul W.env CC o
    let prf1 ← g.add W.env CC ro
    pure (⟨a, b, c, prf0⟩, ⟨a', b', c', prf1⟩)
  else do
    let a ← W.sealH lt lt'
    let b ← W.sealH eq lt'
    let c ← W.sealH gt gt'
    let prf0 ← s.r.smul W.env CC o
    let a' ← W.sealH lt lt'
    let b' ← W.sealH eq eq'
    let c' ← W.sealH gt gt'
    let g ← s.ga.smulZ W.env CC (2 ^ i)
    let ro ← s.r.smul W.env CC o
    let prf1 ← g.add W.env CC ro
    pure (⟨a, b, c, prf0⟩, ⟨a', b', c', prf1⟩)

/-- the second loop of `prepareKeysAndInputs` (`src/opprf/opprf.cpp:63-91`), from index `i` down to 1 -/
def tableLoopH (W : World) : Nat → Server → HR Server
  | 0, s => pure s
  | i + 1, s => do
    let (x0, x1) ← entriesH W s i
    let si0 ← put s.Si0 (i + 1) x0
    let si1 ← put s.Si1 (i + 1) x1
    tableLoopH W i { s with Si0 := si0, Si1 := si1 }

/-- `prepareKeysAndInputs()` (`src/opprf/opprf.cpp:33-92`) -/
def Server.prepareH (W : World) (s : Server) (k : PrepCoins) : HR Server := do
  let kopprf ← Curve.getRandomPoint W.env CC s.curve k.kopprf
  let r ← Curve.getRandomPoint W.env CC s.curve k.r
  let s ← pushKeys W.env { s with kopprf := kopprf, r := r } k.bits
  let s ← prepareTop W.env s
  tableLoopH W 15 s

/-- `sendEncryptedMasks()` (`src/opprf/opprf.cpp:116-135`) -/
def Server.sendEncryptedMasksH (W : World) (s : Server) (k : MaskCoins) : HR (Arr3 Int) := do
  let o ← at' s.ok 0
  let sum ← okSum W.env s.ok 15 1 o
  let neg ← sum.neg CC.fn
  let rs ← s.r.smul W.env CC neg
  let mask ← s.kopprf.add W.env CC rs
  let lt ← at' s.k_lt 0
  let e0 ← mask.getEncodedX W.env CC
  let c0 ← W.sealH lt e0
  let eq ← at' s.k_eq 0
  let e1 ← mask.getEncodedX W.env CC
  let c1 ← W.sealH eq e1
  let gt ← at' s.k_gt 0
  let rnd ← Curve.getRandomPoint W.env CC s.curve k.rnd
  let e2 ← rnd.getEncodedX W.env CC
  let c2 ← W.sealH gt e2
  pure (Arr3.shuffle ⟨c0, c1, c2⟩ k.sh1 k.sh2)

/-- `OPPRFserver::clean()` (`src/opprf/opprf.cpp:137-152`): calls nothing that allocates or releases such blocks -/
def Server.cleanH (W : World) (s : Server) (coin : Int) : HR Server := s.clean W.env coin

/-- the search loop of `runOTRound_end` (`src/opprf/opprf.cpp:181-192`) -/
def searchKeyH (W : World) (c : Client) : List (List Ctxt) → HR (Option Int)
  | [] => pure none
  | v :: vs => do
    let tmp ← decryptMsgDecode W.env c.otr v
    let tmp ← W.unsealH c.key tmp
    if tmp ≠ 0 then pure (some tmp) else searchKeyH W c vs

/-- `runOTRound_end(round, c)` (`src/opprf/opprf.cpp:172-202`) -/
def Client.finishH (W : World) (c : Client) (round : Int) (m : OtCtxts) : HR Client := do
  let key ← if round = 16 then (liftM (decryptMsgDecode W.env c.otr m.ctxt.e0) : HR Int)
    else do
      let f ← searchKeyH W c m.ctxt.toList
      cassert W.env (.ok f.isSome)
      match f with
      | none => throw .exception
      | some k => pure k
  let p ← decryptMsg W.env c.otr m.cprf
  let result ← c.result.add W.env CC p
  pure { c with key := key, result := result }

/-- the search loop of `unmaskResult` (`src/opprf/opprf.cpp:209-218`) -/
def searchMaskH (W : World) (key : Int) : List Int → HR (Option Int)
  | [] => pure none
  | m :: ms => do
    let tmp ← W.unsealH key m
    if tmp ≠ 0 then pure (some tmp) else searchMaskH W key ms

/-- `unmaskResult(masks)` (`src/opprf/opprf.cpp:204-227`) -/
def Client.unmaskResultH (W : World) (c : Client) (masks : Arr3 Int) (coin : Int) : HR Client := do
  let f ← searchMaskH W c.key masks.toList
  cassert W.env (.ok f.isSome)
  match f with
  | none => throw .exception
  | some x => do
    let mask ← Curve.getRandomPoint W.env CC c.curve coin
    let mask ← mask.setEncodedX W.env CC x
    let result ← c.result.add W.env CC mask
    pure { c with result := result }

/-- `OPPRFclient::clean()` (`src/opprf/opprf.cpp:230-235`): calls nothing that allocates or releases such blocks -/
def Client.cleanH (c : Client) : HR Client := pure c.clean

end Opprf
end Verif
