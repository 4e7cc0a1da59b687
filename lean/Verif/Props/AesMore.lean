import Verif.Props.Aes
import Verif.Props.CrcMore

/-!
# C60-C62: bounds and security of the AES wrapper
-/

namespace Verif

open BytesSpec Utils Aes

/-! ## C60 -/

theorem isBytes_abs (m : ℤ) : IsBytes |m| (getRawMpz m) ∧ byteLen |m| = byteLen m := by
  have h := exists_bytes |m| (abs_nonneg m)
  have e : getRawMpz |m| = getRawMpz m := by rw [getRawMpz_eq, getRawMpz_eq, Int.natAbs_abs]
  rw [e] at h
  exact ⟨h, by unfold byteLen; rw [Int.natAbs_abs]⟩

theorem update_ends (ks : ℕ → Byte) (l : List Byte) (h : l.length < 2 ^ 31) :
    Ends (update ks l l.length) (fun _ => True) ↔ l.length ≤ 128 := by
  constructor
  · rintro ⟨o, ho, -⟩
    have hi : toInt32 l.length = (l.length : ℤ) := by
      unfold toInt32
      rw [Nat.mod_eq_of_lt (by omega), if_pos (by omega)]
    unfold update at ho
    simp only [hi] at ho
    by_contra hc
    rw [if_neg (by omega), if_pos (by omega)] at ho
    cases ho
  · intro hl
    exact ⟨_, update_ok ks l hl, trivial⟩

theorem keyBytes_ends (key : ℤ) : Ends (keyBytes key) (fun _ => True) ↔ 16 ≤ byteLen key := by
  rw [← length_getRawMpz]
  unfold keyBytes
  simp only
  constructor
  · rintro ⟨o, ho, -⟩
    by_contra hc
    rw [if_pos (show (getRawMpz key).length < 16 by omega)] at ho
    split at ho <;> cases ho
  · intro h
    rw [if_neg (by omega), if_neg (by omega)]
    exact ⟨_, rfl, trivial⟩

theorem ivBytes_ends (s : Iv) : Ends (ivBytes s) (fun _ => True) ↔ IvReadable s := by
  unfold ivBytes IvReadable
  simp only
  constructor
  · rintro ⟨o, ho, -⟩
    by_contra hc
    rw [if_neg hc] at ho
    cases ho
  · intro h
    rw [if_pos h]
    exact ⟨_, rfl, trivial⟩

/-- **C60**, exactly when `encrypt` stays within its buffers: the key has at least 16 bytes, the IV can be read, the message
has at most 128 bytes. -/
theorem C60_encrypt_partial (E : Cipher) (s : Iv) (m key : ℤ) (hm : byteLen m < 2 ^ 31) :
    Ends (encrypt E s m key) (fun _ => True) ↔ 16 ≤ byteLen key ∧ IvReadable s ∧ byteLen m ≤ 128 := by
  have hu := fun ks => update_ends ks (getRawMpz m) (by rw [length_getRawMpz]; exact hm)
  rw [← keyBytes_ends, ← ivBytes_ends, ← length_getRawMpz m]
  unfold encrypt
  constructor
  · rintro ⟨o, ho, -⟩
    obtain ⟨k, hk, ho⟩ := R.bind_eq_ok.1 ho
    obtain ⟨iv, hi, ho⟩ := R.bind_eq_ok.1 ho
    obtain ⟨c, hc, ho⟩ := R.bind_eq_ok.1 ho
    exact ⟨⟨k, hk, trivial⟩, ⟨iv, hi, trivial⟩, (hu _).1 ⟨c, hc, trivial⟩⟩
  · rintro ⟨⟨k, hk, -⟩, ⟨iv, hi, -⟩, hl⟩
    obtain ⟨c, hc, -⟩ := (hu (E k iv)).2 hl
    exact ⟨_, by simp only [hk, hi, hc, R.ok_bind]; rfl, trivial⟩

/-- **C60**, the same for `decrypt`. -/
theorem C60_decrypt_partial (E : Cipher) (s : Iv) (c key : ℤ) (hm : byteLen c < 2 ^ 31) :
    Ends (decrypt E s c key) (fun _ => True) ↔ 16 ≤ byteLen key ∧ IvReadable s ∧ byteLen c ≤ 128 := by
  have hu := fun ks => update_ends ks (getRawMpz c) (by rw [length_getRawMpz]; exact hm)
  rw [← keyBytes_ends, ← ivBytes_ends, ← length_getRawMpz c]
  unfold decrypt
  constructor
  · rintro ⟨o, ho, -⟩
    obtain ⟨k, hk, ho⟩ := R.bind_eq_ok.1 ho
    obtain ⟨iv, hi, ho⟩ := R.bind_eq_ok.1 ho
    obtain ⟨c, hc, ho⟩ := R.bind_eq_ok.1 ho
    exact ⟨⟨k, hk, trivial⟩, ⟨iv, hi, trivial⟩, (hu _).1 ⟨c, hc, trivial⟩⟩
  · rintro ⟨⟨k, hk, -⟩, ⟨iv, hi, -⟩, hl⟩
    obtain ⟨c, hc, -⟩ := (hu (E k iv)).2 hl
    exact ⟨_, by simp only [hk, hi, hc, R.ok_bind]; rfl, trivial⟩

/-- **C60** is false: a message of 129 bytes overflows the buffer on the stack, a 128-bit key whose first byte is zero makes
OpenSSL read outside the heap block. -/
theorem C60_counterexample :
    encrypt tE tiv (2 ^ 1024) tkey = .error .stackOverflow ∧ encrypt tE tiv 1 (2 ^ 119) = .error .oobRead := by
  refine ⟨?_, ?_⟩ <;> decide +kernel

/-! ## C61 and C62 -/

theorem decrypt_raw (E : Cipher) (s : Iv) (c key M : ℤ) (hc : byteLen c ≤ 128) (h : decrypt E s c key = .ok M) :
    ∃ k iv, keyBytes key = .ok k ∧ ivBytes s = .ok iv ∧ M = setRawMpz (mask (E k iv) (getRawMpz c)) := by
  unfold decrypt at h
  obtain ⟨k, hk, h⟩ := R.bind_eq_ok.1 h
  obtain ⟨iv, hi, h⟩ := R.bind_eq_ok.1 h
  obtain ⟨o, ho, h⟩ := R.bind_eq_ok.1 h
  rw [update_ok _ _ (by rw [length_getRawMpz]; exact hc)] at ho
  injection h with h
  injection ho with ho
  exact ⟨k, iv, hk, hi, by rw [← h, ← ho]⟩

/-- changing a ciphertext without changing its length changes the plaintext in the same bits -/
theorem decrypt_xor (E : Cipher) (s : Iv) (key : ℤ) (c d M : ℕ) (hc : byteLen c ≤ 128)
    (hl : byteLen (c ^^^ d : ℕ) = byteLen c) (h : decrypt E s c key = .ok (M : ℤ)) :
    decrypt E s (c ^^^ d : ℕ) key = .ok ((M ^^^ d : ℕ) : ℤ) := by
  obtain ⟨k, iv, hk, hi, hM⟩ := decrypt_raw E s c key M hc h
  have hcb := exists_bytes (c : ℤ) (by positivity)
  obtain ⟨hd, hb⟩ := bytes_xor c d _ hcb hl
  have hp : (pad (getRawMpz (c : ℤ)).length d).length = (getRawMpz (c : ℤ)).length :=
    pad_length _ _ (by rw [length_digits]; exact hd)
  have hlen : (xorB (getRawMpz (c : ℤ)) (pad (getRawMpz (c : ℤ)).length d)).length ≤ 128 := by
    rw [xorB_length _ _ hp.symm, length_getRawMpz]; exact hc
  unfold decrypt
  simp only [IsBytes.raw hb, hk, hi, R.ok_bind, update_ok _ _ hlen]
  rw [mask_xorB, setRawMpz_val, val_xorB _ _ (by rw [mask_length, hp]), val_pad]
  rw [setRawMpz_val] at hM
  have : M = val (mask (E k iv) (getRawMpz (c : ℤ))) := by exact_mod_cast hM
  rw [← this]

/-- acceptance by `decryptCRC`: what it means for the decrypted integer -/
theorem accepted (pf : Platform) (E : Cipher) (s : Iv) (key c v : ℤ) (hv : v ≠ 0) (h : decryptCRC pf E s key c = .ok v) :
    ∃ M : ℕ, decrypt E s c key = .ok (M : ℤ) ∧ byteLen M ≤ 128 ∧ 4 ≤ byteLen M ∧ Crc.validateCRC pf M = .ok true ∧
      Crc.residue M = 0#32 ∧ v = (M / 2 ^ 32 : ℕ) := by
  unfold decryptCRC at h
  obtain ⟨M, hM, h⟩ := R.bind_eq_ok.1 h
  obtain ⟨b, hb, h⟩ := R.bind_eq_ok.1 h
  obtain ⟨h0, h128⟩ := decrypt_range E s c key M hM
  obtain ⟨M, rfl⟩ := Int.eq_ofNat_of_zero_le h0
  cases b
  · simp at h; exact absurd h.symm hv
  · have h4 : 4 ≤ byteLen (M : ℤ) := by
      by_contra hc
      rw [Crc.validate_short pf _ (by omega)] at hb; cases hb
    simp only [if_true] at h
    rw [removeCRC_val _ h4 (by omega)] at h
    injection h with h
    exact ⟨M, hM, h128, h4, hb, valid_residue pf M (by omega) hb, h.symm⟩

/-- **C61** (that an altered ciphertext is rejected) is false in general: adding the checksummed integer of any difference `d` to an accepted
ciphertext, which needs no key, gives an accepted ciphertext of the message with `d` added, as long as the length of the
ciphertext does not change. -/
theorem C61_forgery_counterexample (pf pf' : Platform) (E : Cipher) (s : Iv) (key : ℤ) (c m d D : ℕ) (hc : byteLen c ≤ 128)
    (hm0 : m ≠ 0) (hmd : m ≠ d) (hdl : byteLen d ≤ 128) (hacc : decryptCRC pf E s key c = .ok (m : ℤ))
    (hD : Crc.appendCRC pf' d = .ok (D : ℤ)) (hl : byteLen (c ^^^ D : ℕ) = byteLen c) :
    decryptCRC pf E s key (c ^^^ D : ℕ) = .ok ((m ^^^ d : ℕ) : ℤ) := by
  obtain ⟨M, hM, h128, h4, hval, hres, hmM⟩ := accepted pf E s key c m (by exact_mod_cast hm0) hacc
  have hmM' : m = M / 2 ^ 32 := by exact_mod_cast hmM
  -- the difference is itself checksummed
  have hd0 : (d : ℤ) ≠ 0 := by
    intro h
    rw [appendCRC_eq, h] at hD
    simp [byteLen] at hD
  have hdb := exists_bytes (d : ℤ) (by positivity)
  have hus : byteLen (d : ℤ) + 4 ≤ pf'.usable (byteLen d) := by
    by_contra hcon
    rw [appendCRC_eq, if_neg (byteLen_pos _ hd0).ne', if_pos (by omega)] at hD
    cases hD
  obtain ⟨D', hD', hDb⟩ := append_bytes pf' d _ hdb hd0 (by rw [length_getRawMpz]; omega)
    (by rw [length_getRawMpz]; exact hus)
  obtain ⟨D'', hD'', hvD, hrD⟩ := C43_round_trip_partial pf' pf d (by omega) (by omega) hus
  have e1 : D' = D := Except.ok.inj (hD'.symm.trans hD)
  have e2 : D'' = D := Except.ok.inj (hD''.symm.trans hD)
  subst e1
  subst e2
  have hDlen : byteLen (D : ℤ) = byteLen (d : ℤ) + 4 := by
    rw [IsBytes.byteLen hDb, List.length_append, length_getRawMpz]; rfl
  have hDres := valid_residue pf D (by omega) hvD
  rw [removeCRC_val _ (by omega) (by omega)] at hrD
  have hdD : D / 2 ^ 32 = d := by
    have := Except.ok.inj hrD
    rw [Int.natAbs_natCast] at this
    exact_mod_cast this
  have hdiv : (M ^^^ D) / 2 ^ 32 = m ^^^ d := by
    rw [hmM', ← hdD, ← Nat.shiftRight_eq_div_pow, ← Nat.shiftRight_eq_div_pow, ← Nat.shiftRight_eq_div_pow]
    exact Nat.shiftRight_xor_distrib
  have hne : m ^^^ d ≠ 0 := fun h => hmd (by simpa [Nat.xor_assoc] using congrArg (· ^^^ d) h)
  have hge : 4 ≤ byteLen (M ^^^ D : ℕ) := by
    by_contra hcon
    have h3 : byteLen (M ^^^ D : ℕ) ≤ 3 := by omega
    rw [byteLen_lt_iff] at h3
    have h0 : (M ^^^ D) / 2 ^ 32 = 0 := Nat.div_eq_of_lt (by omega)
    omega
  have hle : byteLen (M ^^^ D : ℕ) ≤ 132 := byteLen_xor_le M D 132 (by omega) (by omega)
  have hx : Crc.residue (M ^^^ D) = 0#32 := by rw [Crc.residue_xor, hres, hDres]; decide
  unfold decryptCRC
  rw [decrypt_xor E s key c D M hc hl hM, R.ok_bind, Crc.validate_residue pf _ hge (by omega), Int.natAbs_natCast, hx,
    R.ok_bind, if_pos (beq_self_eq_true _), removeCRC_val _ hge (by omega), Int.natAbs_natCast, hdiv]

/-- 0x4142 turned into 0x4143 without the key -/
example : decryptCRC pfStrict tE tiv tkey (212494483255625 : ℕ) = .ok ((0x4142 : ℕ) : ℤ) ∧
    Crc.appendCRC pfSlack (1 : ℕ) = .ok ((4353911794 : ℕ) : ℤ) ∧ byteLen (212494483255625 : ℕ) ≤ 128 ∧
    byteLen (212494483255625 ^^^ 4353911794 : ℕ) = byteLen (212494483255625 : ℕ) ∧
    decryptCRC pfStrict tE tiv tkey (212494483255625 ^^^ 4353911794 : ℕ) = .ok 0x4143 := by
  refine ⟨?_, ?_, ?_, ?_, ?_⟩ <;> decide +kernel

/-- **C61**, what holds: an accepted ciphertext altered in at most five bits, or (below) within four consecutive bytes, with its length
unchanged, is not accepted. -/
theorem C61_few_flips_partial (pf pf' : Platform) (E : Cipher) (s : Iv) (key : ℤ) (c c' : ℕ) (m v : ℤ) (hc : byteLen c ≤ 128)
    (hm0 : m ≠ 0) (hacc : decryptCRC pf E s key c = .ok m) (hl : byteLen c' = byteLen c) (hne : c ≠ c')
    (hfew : (Nat.digits 2 (c ^^^ c')).sum ≤ 5) (hv : decryptCRC pf' E s key c' = .ok v) : v = 0 := by
  by_contra hv0
  obtain ⟨M, hM, h128, h4, hval, hres, -⟩ := accepted pf E s key c m hm0 hacc
  obtain ⟨M', hM', h128', h4', hval', hres', -⟩ := accepted pf' E s key c' v hv0 hv
  have hcc : c ^^^ (c ^^^ c') = c' := by rw [← Nat.xor_assoc, Nat.xor_self, Nat.zero_xor]
  have hx := decrypt_xor E s key c (c ^^^ c') M hc (by rw [hcc]; exact hl) hM
  rw [hcc, hM'] at hx
  have hMM : M' = M ^^^ (c ^^^ c') := by exact_mod_cast Except.ok.inj hx
  have hxM : M ^^^ M' = c ^^^ c' := by rw [hMM, ← Nat.xor_assoc, Nat.xor_self, Nat.zero_xor]
  refine (C104_five_flips pf pf' M M' ?_ (by omega) (by omega) hval (by rw [hxM]; exact hfew)).1 hval'
  intro h
  rw [← h, Nat.xor_self] at hxM
  exact hne (by simpa [Nat.xor_assoc] using (congrArg (· ^^^ c') hxM).symm)

/-- **C61**, bursts. -/
theorem C61_burst_partial (pf pf' : Platform) (E : Cipher) (s : Iv) (key : ℤ) (c e k : ℕ) (m v : ℤ) (hc : byteLen c ≤ 128)
    (hm0 : m ≠ 0) (hacc : decryptCRC pf E s key c = .ok m) (hl : byteLen (c ^^^ e <<< (8 * k) : ℕ) = byteLen c)
    (he : 0 < e) (he' : e < 2 ^ 32) (hv : decryptCRC pf' E s key (c ^^^ e <<< (8 * k) : ℕ) = .ok v) : v = 0 := by
  by_contra hv0
  obtain ⟨M, hM, h128, h4, hval, hres, -⟩ := accepted pf E s key c m hm0 hacc
  obtain ⟨M', hM', h128', h4', hval', hres', -⟩ := accepted pf' E s key _ v hv0 hv
  have hx := decrypt_xor E s key c _ M hc hl hM
  rw [hM'] at hx
  have hMM : M' = M ^^^ e <<< (8 * k) := by exact_mod_cast Except.ok.inj hx
  rw [hMM] at hval' h128'
  exact (C45_burst_partial pf pf' M e k he he' (by omega) (by omega) hval).1 hval'

/-! ## C62 -/

/-- **C62** (that ciphertexts under one key hide how their messages are related) is false: every encryption under one key and one IV uses the
same keystream, so the exclusive or of two ciphertexts is that of the messages. -/
theorem C62_reuse_counterexample (E : Cipher) (s : Iv) (key : ℤ) (m m' c c' : ℕ) (hm : byteLen m ≤ 128)
    (hl : byteLen m' = byteLen m) (h : encrypt E s m key = .ok (c : ℤ)) (h' : encrypt E s m' key = .ok (c' : ℤ)) :
    c ^^^ c' = m ^^^ m' := by
  have hed : ∀ x : ℤ, encrypt E s x key = decrypt E s x key := fun _ => rfl
  rw [hed] at h h'
  have hcc : m ^^^ (m ^^^ m') = m' := by rw [← Nat.xor_assoc, Nat.xor_self, Nat.zero_xor]
  have hx := decrypt_xor E s key m (m ^^^ m') c hm (by rw [hcc]; exact hl) h
  rw [hcc, h'] at hx
  have : c' = c ^^^ (m ^^^ m') := by exact_mod_cast Except.ok.inj hx
  rw [this, ← Nat.xor_assoc, Nat.xor_self, Nat.zero_xor]

example : byteLen (0x4142 : ℕ) ≤ 128 ∧ byteLen (0x4143 : ℕ) = byteLen (0x4142 : ℕ) ∧
    encrypt tE tiv (0x4142 : ℕ) tkey = .ok ((49475 : ℕ) : ℤ) ∧ encrypt tE tiv (0x4143 : ℕ) tkey = .ok ((49474 : ℕ) : ℤ) := by
  refine ⟨?_, ?_, ?_, ?_⟩ <;> decide +kernel

end Verif
