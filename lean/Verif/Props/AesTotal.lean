import Verif.Props.AesExact

/-!
# C43, C48, C49, C72: exactly when the checksum and AES functions return, and what, for every integer
-/

namespace Verif

open BytesSpec Utils Aes StreamSpec

theorem getRawMpz_abs (n : ℤ) : getRawMpz |n| = getRawMpz n := by rw [getRawMpz_eq, getRawMpz_eq, Int.natAbs_abs]

theorem byteLen_abs (n : ℤ) : byteLen |n| = byteLen n := by rw [← length_getRawMpz, getRawMpz_abs, length_getRawMpz]

theorem exists_abs_bytes (n : ℤ) : ∃ l, IsBytes |n| l := ⟨_, exists_bytes |n| (abs_nonneg n)⟩

theorem encrypt_abs (E : Cipher) (s : Iv) (m key : ℤ) : encrypt E s |m| |key| = encrypt E s m key := by
  simp only [encrypt, keyBytes, getRawMpz_abs]

theorem decrypt_abs (E : Cipher) (s : Iv) (c key : ℤ) : decrypt E s |c| |key| = decrypt E s c key := by
  simp only [decrypt, keyBytes, getRawMpz_abs]

theorem append_abs (pf : Platform) (m : ℤ) : Crc.appendCRC pf |m| = Crc.appendCRC pf m := by
  simp only [Crc.appendCRC, getRawMpz_abs]

theorem encryptCRC_abs (pf : Platform) (E : Cipher) (s : Iv) (key m : ℤ) :
    encryptCRC pf E s |key| |m| = encryptCRC pf E s key m := by
  simp only [encryptCRC, append_abs, encrypt, keyBytes, getRawMpz_abs]

theorem decryptCRC_abs (pf : Platform) (E : Cipher) (s : Iv) (key c : ℤ) :
    decryptCRC pf E s |key| |c| = decryptCRC pf E s key c := by
  simp only [decryptCRC, decrypt_abs]

/-- **C43**, exactly: for every positive integer, the round trip works if and only if the heap block of its bytes has four
spare bytes. -/
theorem C43_exact (pf pf' : Platform) (n : ℤ) (hn : 0 < n) (hb : byteLen n + 4 < 2 ^ 64) :
    (∃ m, Crc.appendCRC pf n = .ok m ∧ Crc.validateCRC pf' m = .ok true ∧ Crc.removeCRC m = .ok n) ↔
      byteLen n + 4 ≤ pf.usable (byteLen n) := by
  constructor
  · rintro ⟨m, h, -⟩
    exact ((C44_append_partial pf n).1 ⟨m, h, trivial⟩).2
  · exact C43_round_trip_partial pf pf' n hn hb

/-- **C72**, encryption, for every key and every message of less than 2 GB, also negative ones: `encryptCRC` returns exactly if the
key has 16 bytes, the IV can be read, the message has between 1 and 124 bytes and its heap block four spare ones; the result is the
message (without sign) followed by its checksum, combined with the keystream. -/
theorem C72_encrypt_exact (pf : Platform) (E : Cipher) (s : Iv) (key m c : ℤ) (kb mb : List (BitVec 8))
    (hk : IsBytes |key| kb) (hm : IsBytes |m| mb) (hl : mb.length + 4 < 2 ^ 31) :
    encryptCRC pf E s key m = .ok c ↔
      (16 ≤ kb.length ∧ IvReadable s ∧ 1 ≤ mb.length ∧ mb.length ≤ 124 ∧ mb.length + 4 ≤ pf.usable mb.length) ∧
      c = val (combine (keystream E kb s.str s.after) (mb ++ CrcSpec.tail mb)) := by
  rw [← encryptCRC_abs]
  have h0 : |m| ≠ 0 ↔ 1 ≤ mb.length := by
    rw [← IsBytes.byteLen hm]
    constructor
    · exact fun h => byteLen_pos _ h
    · intro h h0
      rw [h0] at h
      simp [byteLen] at h
  constructor
  · intro h
    unfold encryptCRC at h
    obtain ⟨M, h1, h2⟩ := R.bind_eq_ok.1 h
    obtain ⟨a1, a2⟩ := (C44_append_partial pf _).1 ⟨M, h1, trivial⟩
    rw [IsBytes.byteLen hm] at a2
    obtain ⟨M', b1, b2⟩ := append_bytes pf _ mb hm a1 (by omega) a2
    obtain rfl := Except.ok.inj (h1.symm.trans b1)
    have hML : byteLen M = mb.length + 4 := by rw [IsBytes.byteLen b2, List.length_append]; rfl
    obtain ⟨d1, d2, d3⟩ := (C60_encrypt_partial E s M |key| (by rw [hML]; exact hl)).1 ⟨c, h2, trivial⟩
    rw [IsBytes.byteLen hk] at d1
    rw [hML] at d3
    refine ⟨⟨d1, d2, h0.1 a1, by omega, a2⟩, ?_⟩
    have := C72_encrypt_partial pf E s _ _ kb mb hk d1 hm a1 (by omega) d2 a2
    unfold encryptCRC at this
    rw [this] at h
    exact (Except.ok.inj h).symm
  · rintro ⟨⟨h1, h2, h3, h4, h5⟩, rfl⟩
    exact C72_encrypt_partial pf E s _ _ kb mb hk h1 hm (h0.2 h3) h4 h2 h5

/-- **C72**, decryption, for every key and every ciphertext of less than 2 GB, also negative ones: `decryptCRC` returns exactly if the
key has 16 bytes, the IV can be read, the ciphertext has at most 128 bytes and the number denoted by its combination with the keystream
at least four; the result is what is before the last four bytes if these are its checksum, and 0 if not. -/
theorem C72_decrypt_exact (pf : Platform) (E : Cipher) (s : Iv) (key c v : ℤ) (kb cb : List (BitVec 8))
    (hk : IsBytes |key| kb) (hc : IsBytes |c| cb) (hl : cb.length < 2 ^ 31) :
    decryptCRC pf E s key c = .ok v ↔
      (16 ≤ kb.length ∧ IvReadable s ∧ cb.length ≤ 128 ∧ 2 ^ 24 ≤ val (combine (keystream E kb s.str s.after) cb)) ∧
      ∃ p t : List (BitVec 8), t.length = 4 ∧ combine (keystream E kb s.str s.after) cb = p ++ t ∧
        v = if t = CrcSpec.tail p then (val p : ℤ) else 0 := by
  rw [← decryptCRC_abs]
  constructor
  · intro h
    have h' := h
    unfold decryptCRC at h
    obtain ⟨M, h1, -⟩ := R.bind_eq_ok.1 h
    obtain ⟨d1, d2, d3⟩ := (C60_decrypt_partial E s |c| |key| (by rw [IsBytes.byteLen hc]; exact hl)).1 ⟨M, h1, trivial⟩
    rw [IsBytes.byteLen hk] at d1
    rw [IsBytes.byteLen hc] at d3
    obtain ⟨f1, f2⟩ := C72_decrypt_partial pf E s _ _ kb cb hk d1 hc d3 d2
    rcases lt_or_ge (val (combine (keystream E kb s.str s.after) cb)) (2 ^ 24) with hlt | hge
    · rw [f1 hlt] at h'
      cases h'
    · obtain ⟨p, t, g1, g2, g3⟩ := f2 hge
      rw [g3] at h'
      exact ⟨⟨d1, d2, d3, hge⟩, p, t, g1, g2, (Except.ok.inj h').symm⟩
  · rintro ⟨⟨h1, h2, h3, h4⟩, p, t, g1, g2, rfl⟩
    obtain ⟨p', t', g1', g2', g3⟩ := (C72_decrypt_partial pf E s _ _ kb cb hk h1 hc h3 h2).2 h4
    obtain ⟨rfl, rfl⟩ := List.append_inj' (g2.symm.trans g2') (by rw [g1, g1'])
    exact g3

/-- **C49**, exactly: for every key and every message of less than 2 GB, encrypting and decrypting gives the message back if and only
if it is positive, has at most 124 bytes, its heap block four spare ones, the key 16 bytes, the IV can be read and the message does not
start with the first keystream byte. -/
theorem C49_exact (pf pf' : Platform) (E : Cipher) (s : Iv) (key m : ℤ) (kb mb : List (BitVec 8))
    (hk : IsBytes |key| kb) (hm : IsBytes |m| mb) (hl : mb.length + 4 < 2 ^ 31) :
    (Ends (encryptCRC pf E s key m) fun c => decryptCRC pf' E s key c = .ok m) ↔
      (16 ≤ kb.length ∧ IvReadable s ∧ 0 < m ∧ mb.length ≤ 124 ∧ mb.length + 4 ≤ pf.usable mb.length) ∧
      mb.head? ≠ some (keystream E kb s.str s.after 0) := by
  constructor
  · rintro ⟨c, h1, h2⟩
    obtain ⟨⟨a1, a2, a3, a4, a5⟩, hc⟩ := (C72_encrypt_exact pf E s key m c kb mb hk hm hl).1 h1
    have hpos : 0 < m := by
      have h0 : 0 ≤ m := by
        obtain ⟨cb, hcb⟩ := exists_abs_bytes c
        have hcl : cb.length < 2 ^ 31 := by
          rw [← IsBytes.byteLen hcb, byteLen_abs, hc]
          refine lt_of_le_of_lt ((byteLen_lt_iff _ 128).2 ?_) (by norm_num : 128 < 2 ^ 31)
          refine (val_lt _).trans_le (Nat.pow_le_pow_right (by norm_num) ?_)
          rw [combine_eq_mask, mask_length, List.length_append, show (CrcSpec.tail mb).length = 4 from rfl]
          omega
        obtain ⟨-, p, t, -, -, e⟩ := (C72_decrypt_exact pf' E s key c m kb cb hk hcb hcl).1 h2
        rw [e]
        split_ifs <;> positivity
      rcases h0.lt_or_eq with h | h
      · exact h
      · subst h
        have := IsBytes.byteLen hm
        simp [byteLen] at this
        omega
    rw [abs_of_pos hpos] at hm
    refine ⟨⟨a1, a2, hpos, a4, a5⟩, ?_⟩
    cases mb with
    | nil => simp at a3
    | cons b mb =>
      obtain ⟨c', h3, h4⟩ := C49_round_trip_partial pf pf' E s |key| m kb mb b hk a1 hm a4 a2 a5
      rw [← abs_of_pos hpos, encryptCRC_abs] at h3
      obtain rfl := Except.ok.inj (h1.symm.trans h3)
      have hd : decryptCRC pf' E s |key| c = .ok m := by
        rw [← decryptCRC_abs] at h2 ⊢
        rwa [abs_abs]
      intro he
      exact h4.1 hd (Option.some.inj he)
  · rintro ⟨⟨a1, a2, hpos, a4, a5⟩, hne⟩
    rw [abs_of_pos hpos] at hm
    cases mb with
    | nil =>
      have := hm.value
      simp [val] at this
      omega
    | cons b mb =>
      obtain ⟨c, h3, h4⟩ := C49_round_trip_partial pf pf' E s |key| m kb mb b hk a1 hm a4 a2 a5
      refine ⟨c, by rw [← encryptCRC_abs, abs_of_pos hpos]; exact h3, ?_⟩
      have := h4.2 fun h => hne (congrArg some h)
      rw [← decryptCRC_abs, abs_abs] at this
      dsimp only
      rw [← decryptCRC_abs]
      exact this

/-- **C48**, exactly: for every key and every message of less than 2 GB, `decrypt` gives back what was given to `encrypt` if and only
if the message is not negative, has at most 128 bytes, the key has 16 bytes, the IV can be read and the message does not start with the
first keystream byte. -/
theorem C48_exact (E : Cipher) (s : Iv) (key m : ℤ) (kb mb : List (BitVec 8)) (hk : IsBytes |key| kb) (hm : IsBytes |m| mb)
    (hl : mb.length < 2 ^ 31) :
    (Ends (encrypt E s m key) fun c => decrypt E s c key = .ok m) ↔
      (16 ≤ kb.length ∧ IvReadable s ∧ 0 ≤ m ∧ mb.length ≤ 128) ∧ mb.head? ≠ some (keystream E kb s.str s.after 0) := by
  constructor
  · rintro ⟨c, h1, h2⟩
    obtain ⟨a1, a2, a3⟩ := (C60_encrypt_partial E s m key (by rw [← byteLen_abs, IsBytes.byteLen hm]; exact hl)).1 ⟨c, h1, trivial⟩
    rw [← byteLen_abs, IsBytes.byteLen hk] at a1
    rw [← byteLen_abs, IsBytes.byteLen hm] at a3
    have h0 : 0 ≤ m := (decrypt_range E s c key m h2).1
    rw [abs_of_nonneg h0] at hm
    refine ⟨⟨a1, a2, h0, a3⟩, ?_⟩
    cases mb with
    | nil => simp
    | cons b mb =>
      obtain ⟨c', m', h3, h4, h5⟩ := C48_exact_partial E s |key| m kb mb b hk a1 hm a3 a2
      rw [← abs_of_nonneg h0, encrypt_abs] at h3
      obtain rfl := Except.ok.inj (h1.symm.trans h3)
      rw [← decrypt_abs, abs_abs, decrypt_abs, h2] at h4
      intro he
      exact h5.1 (Except.ok.inj h4).symm (Option.some.inj he)
  · rintro ⟨⟨a1, a2, h0, a3⟩, hne⟩
    rw [abs_of_nonneg h0] at hm
    cases mb with
    | nil =>
      obtain rfl : m = 0 := by rw [← hm.value]; rfl
      obtain ⟨h1, h2⟩ := C48_zero_partial E s |key| kb hk a1 a2
      refine ⟨0, ?_, ?_⟩
      · rw [← encrypt_abs, abs_zero]; exact h1
      · change decrypt E s 0 key = .ok 0
        rw [← decrypt_abs, abs_zero]; exact h2
    | cons b mb =>
      obtain ⟨c, m', h3, h4, h5⟩ := C48_exact_partial E s |key| m kb mb b hk a1 hm a3 a2
      refine ⟨c, by rw [← encrypt_abs, abs_of_nonneg h0]; exact h3, ?_⟩
      obtain rfl := h5.2 fun h => hne (congrArg some h)
      rw [← decrypt_abs, abs_abs] at h4
      rw [← decrypt_abs]
      exact h4

/-- the hypotheses, with a negative key and message -/
example : IsBytes |-tkey| tkb ∧ IsBytes |(-0x4142 : ℤ)| [0x41#8, 0x42#8] ∧ [0x41#8, 0x42#8].length + 4 < 2 ^ 31 ∧
    byteLen 0x4142 + 4 < 2 ^ 64 :=
  ⟨by rw [abs_neg, abs_of_nonneg (by decide +kernel)]; exact tkey_bytes, ⟨by decide, by decide⟩, by decide, by decide +kernel⟩

end Verif
