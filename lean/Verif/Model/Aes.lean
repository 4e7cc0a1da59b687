import Verif.Model.Crc

/-!
# The AES wrapper (`includes/aes.hpp`, `src/utilities/aes.cpp`)

OpenSSL's AES-128-CTR is trusted to combine byte `i` of the input with byte `i` of a keystream by exclusive or; the keystream
is an arbitrary function of the 16 key bytes and the 16 IV bytes.  `EVP_EncryptFinal_ex` and
`EVP_DecryptFinal_ex` write nothing in this mode.  OpenSSL allocation failures are not modelled.
-/

namespace Verif
namespace Aes

/-- keystream: key bytes, IV bytes, position -/
abbrev Cipher := List Byte → List Byte → Nat → Byte

/-- The static member `AES::iv` (`src/utilities/aes.cpp:14`): its characters, and the bytes behind its terminating NUL
that happen to belong to the string's storage (the standard promises none, libstdc++ has at least 15 minus the length). -/
structure Iv where
  str : List Byte
  after : List Byte
  deriving DecidableEq, Repr

/-- namespace-scope constant `aes::iv` (`includes/aes.hpp:19`): constructed from a pointer to a literal that starts with
NUL, hence empty. -/
def defaultStr : List Byte := []

/-- `string AES::iv;` (`src/utilities/aes.cpp:14`): empty at program start. -/
def ivStart (after : List Byte) : Iv := ⟨[], after⟩

/-- `AES::init(iv)` (`src/utilities/aes.cpp:30-33`).  `after` is what the assignment leaves behind the terminator. -/
def init1 (_ : Iv) (iv : List Byte) (after : List Byte) : Iv := ⟨iv, after⟩

/-- `AES::init()` (`src/utilities/aes.cpp:35-38`).  Inside the member function `iv` names the member `AES::iv`, not
the constant of the enclosing namespace, so this is `AES::iv = AES::iv`. -/
def init0 (s : Iv) : Iv := s

/-- the 16 bytes OpenSSL reads at `AES::iv.c_str()` -/
def ivBytes (s : Iv) : R (List Byte) :=
  let mem := s.str ++ 0#8 :: s.after
  if 16 ≤ mem.length then .ok (mem.take 16) else .error .oobRead

/-- the 16 bytes OpenSSL reads at `keyarr`; for key 0 the pointer is null and OpenSSL uses a context without key -/
def keyBytes (key : Int) : R (List Byte) :=
  let mem := Utils.getRawMpz key
  if mem.length = 0 then .error .uninitRead
  else if mem.length < 16 then .error .oobRead
  else .ok (mem.take 16)

/-- a `size_t` passed as `int` -/
def toInt32 (n : Nat) : Int := if n % 2 ^ 32 < 2 ^ 31 then (n % 2 ^ 32 : Nat) else (n % 2 ^ 32 : Nat) - 2 ^ 32

/-- `EVP_EncryptUpdate`/`EVP_DecryptUpdate` in CTR mode, writing to a buffer of 128 bytes.  A negative length makes
the call fail, whereupon `handleErrors` aborts. -/
def update (ks : Nat → Byte) (buf : List Byte) (len : Nat) : R (List Byte) :=
  let inl := toInt32 len
  if inl < 0 then .error .exception
  else if inl > 128 then .error .stackOverflow
  else .ok ((buf.take inl.toNat).mapIdx fun i b => b ^^^ ks i)

/-- `AES::encrypt(plaintext, key)` as defined (`src/utilities/aes.cpp:40-89`). -/
def encrypt (E : Cipher) (s : Iv) (plaintext key : Int) : R Int := do
  let pt := Utils.getRawMpz plaintext
  let k ← keyBytes key
  let iv ← ivBytes s
  let ct ← update (E k iv) pt pt.length
  .ok (Utils.setRawMpz ct)

/-- `AES::decrypt(cipher, key)` as defined (`src/utilities/aes.cpp:91-143`). -/
def decrypt (E : Cipher) (s : Iv) (cipher key : Int) : R Int := do
  let ct := Utils.getRawMpz cipher
  let k ← keyBytes key
  let iv ← ivBytes s
  let pt ← update (E k iv) ct ct.length
  .ok (Utils.setRawMpz pt)

/-- what a call `encrypt(key, plaintext)` written after the declaration (`includes/aes.hpp:35`) runs: arguments are
positional -/
def encryptHeader (E : Cipher) (s : Iv) (key plaintext : Int) : R Int := encrypt E s key plaintext

/-- what a call `decrypt(key, cipher)` written after the declaration (`includes/aes.hpp:38`) runs -/
def decryptHeader (E : Cipher) (s : Iv) (key cipher : Int) : R Int := decrypt E s key cipher

/-- `AES::encryptCRC(key, plaintext)` (`src/utilities/aes.cpp:145-149`). -/
def encryptCRC (pf : Platform) (E : Cipher) (s : Iv) (key plaintext : Int) : R Int := do
  let msg ← Crc.appendCRC pf plaintext
  encrypt E s msg key

/-- `AES::decryptCRC(key, cipher)` (`src/utilities/aes.cpp:151-162`). -/
def decryptCRC (pf : Platform) (E : Cipher) (s : Iv) (key cipher : Int) : R Int := do
  let m ← decrypt E s cipher key
  let v ← Crc.validateCRC pf m
  if v then Crc.removeCRC m else .ok 0

end Aes
end Verif
