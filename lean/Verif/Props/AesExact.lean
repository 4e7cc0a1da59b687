import Verif.Props.AesMore
import Verif.Spec.Aes

/-!
# C72, C73: what `encryptCRC` and `decryptCRC` compute, and what a wrong key does
-/

namespace Verif

open BytesSpec Utils Aes StreamSpec

theorem combine_eq_mask (ks : ℕ → Byte) (l : List Byte) : combine ks l = mask ks l := rfl

theorem keystream_eq (E : Cipher) (s : Iv) (kb : List Byte) : keystream E kb s.str s.after = stream E s kb := rfl

/-! ## C72 -/

/-- **C72**, encryption: on a machine with four spare bytes behind the message's heap block, `encryptCRC` of a positive message
is the message followed by its four checksum bytes, combined with the keystream, read as a number.
Missing: messages without spare bytes or longer than 124 bytes, short keys, unreadable IVs (C44, C60). -/
theorem C72_encrypt_partial (pf : Platform) (E : Cipher) (s : Iv) (key m : ℤ) (kb mb : List (BitVec 8))
    (hk : IsBytes key kb) (hkl : 16 ≤ kb.length) (hm : IsBytes m mb) (h0 : m ≠ 0) (hml : mb.length ≤ 124)
    (hiv : IvReadable s) (hs : mb.length + 4 ≤ pf.usable mb.length) :
    encryptCRC pf E s key m = .ok (val (combine (keystream E kb s.str s.after) (mb ++ CrcSpec.tail mb))) := by
  obtain ⟨M, h1, h2⟩ := append_bytes pf m mb hm h0 (by omega) hs
  have h4 : (CrcSpec.tail mb).length = 4 := rfl
  unfold encryptCRC
  rw [h1, R.ok_bind, encrypt_ok E s key M kb _ hk hkl h2 (by rw [List.length_append, h4]; omega) hiv, setRawMpz_val]
  rfl

theorem crc_dropWhile (l : List Byte) : CrcSpec.crc 0#32 (l.dropWhile (· == 0#8)) = CrcSpec.crc 0#32 l := by
  induction l with
  | nil => rfl
  | cons b l ih =>
    by_cases h : b = 0#8
    · subst h
      rw [List.dropWhile_cons_of_pos (by simp), ih]
      rfl
    · rw [List.dropWhile_cons_of_neg (by simpa using h)]

theorem residue_val (l : List Byte) : Crc.residue (val l) = CrcSpec.crc 0#32 l := by
  unfold Crc.residue
  rw [digits_val]
  exact crc_dropWhile l

theorem crc_tail_iff (p : List Byte) (b0 b1 b2 b3 : Byte) :
    CrcSpec.crc 0#32 (p ++ [b0, b1, b2, b3]) = 0#32 ↔ [b0, b1, b2, b3] = CrcSpec.tail p := by
  rw [Crc.residue_word]
  constructor
  · intro h
    exact (tail_word _ _ _ _ _ h).symm
  · intro h
    have : CrcSpec.tail p = Crc.bytesLE (CrcSpec.crc 0#32 p) := rfl
    rw [this, bytesLE_eq] at h
    simp only [List.cons.injEq, and_true] at h
    obtain ⟨e0, e1, e2, e3⟩ := h
    rw [e0, e1, e2, e3, Crc.word_bytes]

/-- **C72**, decryption: for every ciphertext of at most 128 bytes, combine its bytes with the keystream; if the number so
denoted has less than four bytes `decryptCRC` reads before its buffer, otherwise it returns what is before the last four bytes if
these are its checksum, and 0 if not.
Missing: longer ciphertexts, short keys, unreadable IVs (C60). -/
theorem C72_decrypt_partial (pf : Platform) (E : Cipher) (s : Iv) (key c : ℤ) (kb cb : List (BitVec 8))
    (hk : IsBytes key kb) (hkl : 16 ≤ kb.length) (hc : IsBytes c cb) (hcl : cb.length ≤ 128) (hiv : IvReadable s) :
    (val (combine (keystream E kb s.str s.after) cb) < 2 ^ 24 → decryptCRC pf E s key c = .error .oobRead) ∧
    (2 ^ 24 ≤ val (combine (keystream E kb s.str s.after) cb) → ∃ p t : List (BitVec 8), t.length = 4 ∧
      combine (keystream E kb s.str s.after) cb = p ++ t ∧
      decryptCRC pf E s key c = .ok (if t = CrcSpec.tail p then (val p : ℤ) else 0)) := by
  rw [keystream_eq]
  set pb := combine (stream E s kb) cb with hpb
  have hd : decrypt E s c key = .ok (val pb : ℤ) := by
    rw [decrypt_ok E s key c kb cb hk hkl hc hcl hiv, setRawMpz_val]
    rfl
  have hl : pb.length ≤ 128 := by rw [hpb, combine_eq_mask, mask_length]; exact hcl
  have hb3 : ∀ n : ℕ, byteLen n < 4 ↔ n < 2 ^ 24 := fun n => by
    rw [show (2 : ℕ) ^ 24 = 256 ^ 3 by norm_num, ← byteLen_lt_iff]; omega
  have hble : byteLen (val pb : ℤ) ≤ 128 := by
    rw [byteLen_lt_iff]
    exact (val_lt pb).trans_le (Nat.pow_le_pow_right (by norm_num) hl)
  unfold decryptCRC
  rw [hd, R.ok_bind]
  constructor
  · intro h
    rw [Crc.validate_short pf _ ((hb3 _).2 h), R.error_bind]
  · intro h
    have h4 : 4 ≤ byteLen (val pb : ℤ) := by
      by_contra hcon
      exact absurd ((hb3 (val pb)).1 (by omega)) (by omega)
    have hpl : 4 ≤ pb.length := by
      by_contra hcon
      have := (val_lt pb).trans_le (Nat.pow_le_pow_right (show 0 < 256 by norm_num) (show pb.length ≤ 3 by omega))
      omega
    obtain ⟨p, b0, b1, b2, b3, e, -⟩ := Crc.split4 pb hpl
    refine ⟨p, [b0, b1, b2, b3], rfl, e, ?_⟩
    rw [Crc.validate_residue pf _ h4 (by omega), Int.natAbs_natCast, residue_val, R.ok_bind, e]
    have hv : val (p ++ [b0, b1, b2, b3]) / 2 ^ 32 = val p := by
      have ht := val_lt [b0, b1, b2, b3]
      rw [val_append]
      simp only [List.length_cons, List.length_nil] at ht ⊢
      omega
    by_cases hcrc : CrcSpec.crc 0#32 (p ++ [b0, b1, b2, b3]) = 0#32
    · rw [if_pos (by rw [hcrc]; rfl), if_pos ((crc_tail_iff ..).1 hcrc), ← e, removeCRC_val _ h4 (by omega),
        Int.natAbs_natCast, e, hv]
    · rw [if_neg (by simpa using hcrc), if_neg (fun h => hcrc ((crc_tail_iff ..).2 h))]

example : IsBytes tkey tkb ∧ 16 ≤ tkb.length ∧ IsBytes 0x4142 [0x41#8, 0x42#8] ∧ IvReadable tiv ∧
    [0x41#8, 0x42#8].length + 4 ≤ pfSlack.usable [0x41#8, 0x42#8].length ∧
    2 ^ 24 ≤ val (combine (keystream tE tkb tiv.str tiv.after) [0x41#8, 0x42#8, 1#8, 2#8, 3#8]) ∧
    val (combine (keystream tE tkb tiv.str tiv.after) [0x80#8, 0x42#8]) < 2 ^ 24 :=
  ⟨tkey_bytes, by decide, ⟨by decide, by decide⟩, by unfold IvReadable; decide, by decide, by decide +kernel, by decide +kernel⟩

/-! ## C73 -/

theorem combine_combine (ks ks' : ℕ → Byte) (l : List Byte) :
    combine ks (combine ks' l) = xorB l (difference ks ks' l.length) := by
  apply List.ext_getElem
  · simp [combine, xorB, difference]
  · intro i h1 h2
    simp only [combine, xorB, difference, List.getElem_mapIdx, List.getElem_zipWith, List.getElem_map, List.getElem_range]
    rw [BitVec.xor_assoc, BitVec.xor_comm (ks' i)]

theorem xorB_append (a b c d : List Byte) (h : a.length = c.length) : xorB (a ++ b) (c ++ d) = xorB a c ++ xorB b d := by
  unfold xorB
  exact List.zipWith_append h

theorem tail_xorB (a b : List Byte) (h : a.length = b.length) :
    CrcSpec.tail (xorB a b) = xorB (CrcSpec.tail a) (CrcSpec.tail b) := by
  have hx : CrcSpec.crc 0#32 (xorB a b) = CrcSpec.crc 0#32 a ^^^ CrcSpec.crc 0#32 b := by
    have := crc_xor 0#32 0#32 a b h
    rwa [BitVec.xor_self] at this
  unfold CrcSpec.tail
  simp only [hx]
  simp [xorB, BitVec.ushiftRight_xor_distrib, BitVec.setWidth_xor]

theorem xorB_cancel (a b c : List Byte) (h : a.length = b.length) (h' : a.length = c.length) : xorB a b = xorB a c ↔ b = c := by
  induction a generalizing b c with
  | nil =>
    rw [List.length_nil] at h h'
    rw [List.eq_nil_of_length_eq_zero h.symm, List.eq_nil_of_length_eq_zero h'.symm]
    exact ⟨fun _ => rfl, fun _ => rfl⟩
  | cons x a ih =>
    cases b with
    | nil => simp at h
    | cons y b =>
      cases c with
      | nil => simp at h'
      | cons z c =>
        simp only [List.length_cons, Nat.add_right_cancel_iff] at h h'
        have := ih b c h h'
        simp only [xorB] at this ⊢
        rw [List.zipWith_cons_cons, List.zipWith_cons_cons, List.cons.injEq, List.cons.injEq, this, BitVec.xor_right_inj]

theorem val_xorB_pos (a b : List Byte) (h : a.length = b.length) (hne : a ≠ b) : 0 < val (xorB a b) := by
  rw [val_xorB a b h, Nat.pos_iff_ne_zero]
  intro h0
  exact hne (val_inj a b h (by simpa [Nat.xor_assoc] using congrArg (· ^^^ val b) h0))

/-- **C73**: what `decryptCRC` with one key makes of the ciphertext that `encryptCRC` made with another.  Let `d` and `t` be the
exclusive or of the two keystreams, over the message and over the checksum.  If the message's first byte is not the first keystream
byte and the message is not `d`, the ciphertext is accepted exactly when `t` is the checksum of `d`, whatever the message; what is
returned then is the message with `d` added.  If the message is `d` nothing is accepted.
Messages that start with the first keystream byte: `C73_every_message_partial`.  Missing: the limits of C72. -/
theorem C73_wrong_key_partial (pf pf' : Platform) (E : Cipher) (s : Iv) (key key' m : ℤ) (kb kb' mb : List (BitVec 8)) (b : BitVec 8)
    (hk : IsBytes key kb) (hkl : 16 ≤ kb.length) (hk' : IsBytes key' kb') (hkl' : 16 ≤ kb'.length)
    (hm : IsBytes m (b :: mb)) (hml : (b :: mb).length ≤ 124) (hiv : IvReadable s)
    (hs : (b :: mb).length + 4 ≤ pf.usable (b :: mb).length) (hb : b ≠ keystream E kb' s.str s.after 0)
    (d t : List (BitVec 8)) (hd : d.length = (b :: mb).length)
    (hdt : difference (keystream E kb s.str s.after) (keystream E kb' s.str s.after) ((b :: mb).length + 4) = d ++ t) :
    ∃ c, encryptCRC pf E s key' m = .ok c ∧
      (b :: mb ≠ d → decryptCRC pf' E s key c =
        .ok (if t = CrcSpec.tail d then (val (List.zipWith (· ^^^ ·) (b :: mb) d) : ℤ) else 0)) ∧
      (b :: mb = d → ¬ Ends (decryptCRC pf' E s key c) (· ≠ 0)) := by
  have hb0 : b ≠ 0#8 := by simpa using hm.head
  have hm0 : m ≠ 0 := by
    rw [← hm.value]
    have h1 := val_ge b mb hb0
    have : 0 < 256 ^ mb.length := by positivity
    exact_mod_cast (this.trans_le h1).ne'
  have h4 : ∀ l, (CrcSpec.tail l).length = 4 := fun _ => rfl
  refine ⟨_, C72_encrypt_partial pf E s key' m kb' _ hk' hkl' hm hm0 hml hiv hs, ?_⟩
  set ks := keystream E kb s.str s.after
  set ks' := keystream E kb' s.str s.after
  have hcb : IsBytes (val (combine ks' (b :: mb ++ CrcSpec.tail (b :: mb))) : ℤ) (combine ks' (b :: mb ++ CrcSpec.tail (b :: mb))) := by
    refine ⟨rfl, ?_⟩
    rw [List.cons_append, combine_eq_mask, mask_cons]
    simpa using fun h => hb (BitVec.xor_eq_zero_iff.1 h)
  have hlen : (combine ks' (b :: mb ++ CrcSpec.tail (b :: mb))).length = (b :: mb).length + 4 := by
    rw [combine_eq_mask, mask_length, List.length_append, h4]
  have htl : t.length = 4 := by
    have := congrArg List.length hdt
    rw [List.length_append, hd] at this
    simp only [difference, List.length_map, List.length_range] at this
    omega
  have hpb : combine ks (combine ks' (b :: mb ++ CrcSpec.tail (b :: mb))) =
      xorB (b :: mb) d ++ xorB (CrcSpec.tail (b :: mb)) t := by
    rw [combine_combine, List.length_append, h4, hdt, xorB_append _ _ _ _ hd.symm]
  have hxl : (xorB (CrcSpec.tail (b :: mb)) t).length = 4 := by rw [xorB_length _ _ (by rw [h4, htl]), h4]
  obtain ⟨f1, f2⟩ := C72_decrypt_partial pf' E s key _ kb _ hk hkl hcb (by rw [hlen]; omega) hiv
  rw [hpb] at f1 f2
  constructor
  · intro hne
    have hpos := val_xorB_pos _ _ hd.symm hne
    obtain ⟨p, u, hu, e, f3⟩ := f2 (by rw [val_append, hxl]; omega)
    obtain ⟨rfl, rfl⟩ := List.append_inj' e (by rw [hxl, hu])
    rw [f3, tail_xorB _ _ hd.symm]
    congr 1
    simp only [xorB_cancel (CrcSpec.tail (b :: mb)) t (CrcSpec.tail d) (by rw [h4, htl]) (by rw [h4, h4])]
    rfl
  · rintro heq ⟨v, hv, hv0⟩
    rcases lt_or_ge (val (xorB (b :: mb) d ++ xorB (CrcSpec.tail (b :: mb)) t)) (2 ^ 24) with hlt | hge
    · rw [f1 hlt] at hv
      cases hv
    · obtain ⟨p, u, hu, e, f3⟩ := f2 hge
      obtain ⟨rfl, rfl⟩ := List.append_inj' e (by rw [hxl, hu])
      rw [f3] at hv
      have hz : val (xorB (b :: mb) d) = 0 := by rw [val_xorB _ _ hd.symm, heq, Nat.xor_self]
      rw [hz] at hv
      simp at hv
      exact hv0 hv.symm

/-- a key whose keystream under `tE` differs from that of `tkey` by the checksummed byte 1 -/
def tkey2 : ℤ := val [0x81#8, 1#8, 0x7f#8, 0x65#8, 0xf2#8, 0, 0, 0, 0, 0, 0, 0, 0, 0, 0, 5#8]

/-- **C73** (that a ciphertext is rejected with another key) is false: for this cipher, every message of one byte that does not
start with the first keystream byte and is not 1 is accepted with the other key, as another message. -/
theorem C73_counterexample (pf pf' : Platform) (hs : 5 ≤ pf.usable 1) (b : BitVec 8) (h0 : b ≠ 0#8) (h1 : b ≠ 1#8) (hb : b ≠ 0x81#8) :
    ∃ c, encryptCRC pf tE tiv tkey2 b.toNat = .ok c ∧ decryptCRC pf' tE tiv tkey c = .ok ((b ^^^ 1#8).toNat : ℤ) := by
  have hk2 : IsBytes tkey2 [0x81#8, 1#8, 0x7f#8, 0x65#8, 0xf2#8, 0, 0, 0, 0, 0, 0, 0, 0, 0, 0, 5#8] := ⟨rfl, by decide⟩
  obtain ⟨c, c1, c2, -⟩ := C73_wrong_key_partial pf pf' tE tiv tkey tkey2 b.toNat tkb _ [] b tkey_bytes (by decide) hk2 (by decide)
    ⟨by simp [val], by simpa using h0⟩ (show 1 ≤ 124 by decide) (by unfold IvReadable; decide) hs (by rw [show keystream tE _ tiv.str tiv.after 0 = 0x81#8 by decide +kernel]; exact hb)
    [1#8] [3#8, 0x83#8, 0x6b#8, 0xf2#8] rfl (by rw [show [b].length + 4 = 5 from rfl]; decide +kernel)
  refine ⟨c, c1, ?_⟩
  rw [c2 (by simpa using h1), if_pos (by decide +kernel)]
  simp [val]

/-- the hypotheses of `C73_wrong_key_partial` with a checksum that does not fit -/
example : IsBytes (2 ^ 127 + 2 ^ 121 : ℤ) (0x82#8 :: List.replicate 15 0#8) ∧ IsBytes 0x4142 [0x41#8, 0x42#8] ∧
    (0x41#8 : BitVec 8) ≠ keystream tE tkb tiv.str tiv.after 0 ∧
    difference (keystream tE (0x82#8 :: List.replicate 15 0#8) tiv.str tiv.after) (keystream tE tkb tiv.str tiv.after) 6 =
      [2#8, 0#8] ++ [0#8, 0#8, 0#8, 0#8] ∧ [0#8, 0#8, 0#8, 0#8] ≠ CrcSpec.tail [2#8, 0#8] :=
  ⟨⟨by decide +kernel, by decide⟩, ⟨by decide, by decide⟩, by decide +kernel, by decide +kernel, by decide +kernel⟩

theorem isBytes_dropWhile (l : List Byte) : IsBytes (val l : ℤ) (l.dropWhile (· == 0#8)) := by
  constructor
  · have h : val (l.dropWhile (· == 0#8)) = val l := by
      induction l with
      | nil => rfl
      | cons b l ih =>
        by_cases h : b = 0#8
        · subst h
          rw [List.dropWhile_cons_of_pos (by simp), ih, val]
          simp
        · rw [List.dropWhile_cons_of_neg (by simpa using h)]
    exact_mod_cast h
  · intro h
    have := List.head?_dropWhile_not (· == 0#8) l
    rw [h] at this
    simp at this

/-- **C73**: every message, also one that starts with bytes of the keystream: the sender's zero bytes in front are lost, the receiver
combines what is left with the keystream from its start, and accepts what is before the last four bytes exactly when these are its
checksum.  The keys may also be equal.
Missing: the limits of C72. -/
theorem C73_every_message_partial (pf pf' : Platform) (E : Cipher) (s : Iv) (key key' m : ℤ) (kb kb' mb : List (BitVec 8))
    (hk : IsBytes key kb) (hkl : 16 ≤ kb.length) (hk' : IsBytes key' kb') (hkl' : 16 ≤ kb'.length)
    (hm : IsBytes m mb) (h0 : m ≠ 0) (hml : mb.length ≤ 124) (hiv : IvReadable s)
    (hs : mb.length + 4 ≤ pf.usable mb.length) (got : List (BitVec 8))
    (hgot : got = combine (keystream E kb s.str s.after)
      ((combine (keystream E kb' s.str s.after) (mb ++ CrcSpec.tail mb)).dropWhile (· == 0#8))) :
    ∃ c, encryptCRC pf E s key' m = .ok c ∧
      (val got < 2 ^ 24 → decryptCRC pf' E s key c = .error .oobRead) ∧
      (2 ^ 24 ≤ val got → ∃ p t : List (BitVec 8), t.length = 4 ∧ got = p ++ t ∧
        decryptCRC pf' E s key c = .ok (if t = CrcSpec.tail p then (val p : ℤ) else 0)) := by
  refine ⟨_, C72_encrypt_partial pf E s key' m kb' _ hk' hkl' hm h0 hml hiv hs, ?_⟩
  have hl : ((combine (keystream E kb' s.str s.after) (mb ++ CrcSpec.tail mb)).dropWhile (· == 0#8)).length ≤ 128 := by
    refine ((List.dropWhile_suffix _).length_le).trans ?_
    rw [combine_eq_mask, mask_length, List.length_append, show (CrcSpec.tail mb).length = 4 from rfl]
    omega
  subst hgot
  exact C72_decrypt_partial pf' E s key _ kb _ hk hkl (isBytes_dropWhile _) hl hiv

/-- a message that starts with the keystream's first byte -/
example : IsBytes tkey tkb ∧ 16 ≤ tkb.length ∧ IsBytes 0x8042 [0x80#8, 0x42#8] ∧ IvReadable tiv ∧
    keystream tE tkb tiv.str tiv.after 0 = 0x80#8 ∧ [0x80#8, 0x42#8].length + 4 ≤ pfSlack.usable [0x80#8, 0x42#8].length :=
  ⟨tkey_bytes, by decide, ⟨by decide, by decide⟩, by unfold IvReadable; decide, by decide +kernel, by decide⟩

end Verif
