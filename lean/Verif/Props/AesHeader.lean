import Verif.Props.AesTotal

/-!
# C48, C50: exactly what `encrypt` and `decrypt` return, and what a round trip in the order of the header gives
-/

namespace Verif

open BytesSpec Utils Aes StreamSpec

/-- **C48**, encryption, for every key and every message of less than 2 GB, also negative ones: `encrypt` returns exactly if the key
has 16 bytes, the IV can be read and the message at most 128 bytes; the result is the message (without sign) combined with the
keystream. -/
theorem C48_encrypt_exact (E : Cipher) (s : Iv) (key m c : ℤ) (kb mb : List (BitVec 8)) (hk : IsBytes |key| kb)
    (hm : IsBytes |m| mb) (hl : mb.length < 2 ^ 31) :
    encrypt E s m key = .ok c ↔
      (16 ≤ kb.length ∧ IvReadable s ∧ mb.length ≤ 128) ∧ c = val (combine (keystream E kb s.str s.after) mb) := by
  have form (h1 : 16 ≤ kb.length) (h2 : IvReadable s) (h3 : mb.length ≤ 128) :
      encrypt E s m key = .ok (val (combine (keystream E kb s.str s.after) mb) : ℤ) := by
    rw [← encrypt_abs, encrypt_ok E s _ _ kb mb hk h1 hm h3 h2, setRawMpz_val]
    rfl
  constructor
  · intro h
    obtain ⟨a1, a2, a3⟩ := (C60_encrypt_partial E s m key (by rw [← byteLen_abs, IsBytes.byteLen hm]; exact hl)).1 ⟨c, h, trivial⟩
    rw [← byteLen_abs, IsBytes.byteLen hk] at a1
    rw [← byteLen_abs, IsBytes.byteLen hm] at a3
    rw [form a1 a2 a3] at h
    exact ⟨⟨a1, a2, a3⟩, (Except.ok.inj h).symm⟩
  · rintro ⟨⟨a1, a2, a3⟩, rfl⟩
    exact form a1 a2 a3

/-- **C48**, decryption: the same. -/
theorem C48_decrypt_exact (E : Cipher) (s : Iv) (key c m : ℤ) (kb cb : List (BitVec 8)) (hk : IsBytes |key| kb)
    (hc : IsBytes |c| cb) (hl : cb.length < 2 ^ 31) :
    decrypt E s c key = .ok m ↔
      (16 ≤ kb.length ∧ IvReadable s ∧ cb.length ≤ 128) ∧ m = val (combine (keystream E kb s.str s.after) cb) := by
  have form (h1 : 16 ≤ kb.length) (h2 : IvReadable s) (h3 : cb.length ≤ 128) :
      decrypt E s c key = .ok (val (combine (keystream E kb s.str s.after) cb) : ℤ) := by
    rw [← decrypt_abs, decrypt_ok E s _ _ kb cb hk h1 hc h3 h2, setRawMpz_val]
    rfl
  constructor
  · intro h
    obtain ⟨a1, a2, a3⟩ := (C60_decrypt_partial E s c key (by rw [← byteLen_abs, IsBytes.byteLen hc]; exact hl)).1 ⟨m, h, trivial⟩
    rw [← byteLen_abs, IsBytes.byteLen hk] at a1
    rw [← byteLen_abs, IsBytes.byteLen hc] at a3
    rw [form a1 a2 a3] at h
    exact ⟨⟨a1, a2, a3⟩, (Except.ok.inj h).symm⟩
  · rintro ⟨⟨a1, a2, a3⟩, rfl⟩
    exact form a1 a2 a3

/-- **C50**, exactly: for every key and message, the calls in the order of the header give the message back if and only if the
message has at least 16 and the key at most 128 bytes, the IV can be read, the key combined with the keystream of the message denotes a
number `c` of at least 16 bytes, and the key combined with the keystream of `c` happens to be the message.  The message is only ever
used as a key. -/
theorem C50_exact (E : Cipher) (s : Iv) (key m : ℤ) (kb mb cb : List (BitVec 8)) (hk : IsBytes |key| kb) (hm : IsBytes |m| mb)
    (hl : kb.length < 2 ^ 31) (hc : IsBytes (val (combine (keystream E mb s.str s.after) kb)) cb) :
    (Ends (encryptHeader E s key m) fun c => decryptHeader E s key c = .ok m) ↔
      (16 ≤ mb.length ∧ IvReadable s ∧ kb.length ≤ 128 ∧ 16 ≤ cb.length) ∧
      m = val (combine (keystream E cb s.str s.after) kb) := by
  have hc' : IsBytes |(val (combine (keystream E mb s.str s.after) kb) : ℤ)| cb := by rwa [abs_of_nonneg (by positivity)]
  constructor
  · rintro ⟨c, h1, h2⟩
    obtain ⟨⟨a1, a2, a3⟩, rfl⟩ := (C48_encrypt_exact E s m key c mb kb hm hk hl).1 h1
    obtain ⟨⟨b1, -, -⟩, b2⟩ := (C48_decrypt_exact E s _ key m cb kb hc' hk hl).1 h2
    exact ⟨⟨a1, a2, a3, b1⟩, b2⟩
  · rintro ⟨⟨a1, a2, a3, a4⟩, h⟩
    exact ⟨_, (C48_encrypt_exact E s m key _ mb kb hm hk hl).2 ⟨⟨a1, a2, a3⟩, rfl⟩,
      (C48_decrypt_exact E s _ key m cb kb hc' hk hl).2 ⟨⟨a4, a2, a3⟩, h⟩⟩

/-- for every cipher, key and message there are such bytes `cb` -/
example (E : Cipher) (s : Iv) (kb mb : List (BitVec 8)) :
    ∃ cb, IsBytes (val (combine (keystream E mb s.str s.after) kb)) cb := ⟨_, isBytes_dropWhile _⟩

/-- the hypotheses, with a negative message -/
example : IsBytes |tkey| tkb ∧ IsBytes |(-0x4142 : ℤ)| [0x41#8, 0x42#8] ∧ tkb.length < 2 ^ 31 :=
  ⟨by rw [abs_of_nonneg (by decide +kernel)]; exact tkey_bytes, ⟨by decide, by decide⟩, by decide +kernel⟩

end Verif
