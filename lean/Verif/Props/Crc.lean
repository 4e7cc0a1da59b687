import Verif.Spec.Basic
import Verif.Lemmas.CrcErrors

/-!
# C42-C46, C58, C59: CRC-32C
-/

namespace Verif

open BytesSpec Crc

/-- a machine whose heap blocks have eight spare bytes -/
def pfSlack : Platform := ⟨fun n => n + 8, fun _ => 1, false⟩

/-- a machine whose heap blocks have exactly the size asked for, as the standard guarantees -/
def pfStrict : Platform := ⟨id, fun _ => 0, true⟩

/-- the definition of CRC-32C on the customary test vector -/
example : CrcSpec.crc 0xFFFFFFFF#32 [0x31#8, 0x32#8, 0x33#8, 0x34#8, 0x35#8, 0x36#8, 0x37#8, 0x38#8, 0x39#8]
    ^^^ 0xFFFFFFFF#32 = 0xE3069283#32 := by decide +kernel

/-! ## C42 -/

/-- **C42**: for every address, preprocessor branch, initial value and buffer below `2^32` bytes, `calculate_crc32c`
returns the register of the bit-serial division; it reads nothing outside the buffer and no misaligned word. -/
theorem C42_crc32c (be : Bool) (addr : ℕ) (r : BitVec 32) (buf : List Byte) (h : buf.length < 2 ^ 32) :
    calculate be addr r buf buf.length = .ok (CrcSpec.crc r buf) := by
  rw [calculate_spec _ _ _ _ _ (Nat.mod_le _ _), Nat.mod_eq_of_lt h, List.take_length]

/-- **C42**, beyond `2^32` bytes: the length parameter is an `unsigned int`, so only the first `length mod 2^32` bytes
are covered. -/
theorem C42_truncates (be : Bool) (addr : ℕ) (r : BitVec 32) (buf : List Byte) :
    calculate be addr r buf buf.length = .ok (CrcSpec.crc r (buf.take (buf.length % 2 ^ 32))) :=
  calculate_spec _ _ _ _ _ (Nat.mod_le _ _)

example : ([1#8, 2#8, 3#8] : List Byte).length < 2 ^ 32 := by decide

/-! ## C46 -/

/-- **C46**: checksums compose, whatever the addresses of the whole and of the parts. -/
theorem C46_concat (be be₁ be₂ : Bool) (addr addr₁ addr₂ : ℕ) (r : BitVec 32) (a b : List Byte)
    (h : (a ++ b).length < 2 ^ 32) :
    ∃ x y, calculate be₁ addr₁ r a a.length = .ok x ∧ calculate be₂ addr₂ x b b.length = .ok y ∧
      calculate be addr r (a ++ b) (a ++ b).length = .ok y := by
  have h' : a.length + b.length < 2 ^ 32 := by simpa using h
  exact ⟨_, _, C42_crc32c _ _ _ _ (by omega), C42_crc32c _ _ _ _ (by omega),
    by rw [C42_crc32c _ _ _ _ h, crc_append]⟩

theorem crc_xor (r s : BitVec 32) (a b : List Byte) (h : a.length = b.length) :
    CrcSpec.crc (r ^^^ s) (List.zipWith (· ^^^ ·) a b) = CrcSpec.crc r a ^^^ CrcSpec.crc s b := by
  induction a generalizing b r s with
  | nil =>
    have : b = [] := List.eq_nil_of_length_eq_zero h.symm
    subst this; rfl
  | cons x a ih =>
    cases b with
    | nil => simp at h
    | cons y b =>
      have hs : CrcSpec.stepByte (r ^^^ s) (x ^^^ y) = CrcSpec.stepByte r x ^^^ CrcSpec.stepByte s y := by
        rw [stepByte_eq, stepByte_eq, stepByte_eq, ← T_xor, w_xor]
        congr 1
        simp only [BitVec.xor_assoc]
        congr 1
        rw [← BitVec.xor_assoc, BitVec.xor_comm s, BitVec.xor_assoc]
      change CrcSpec.crc (CrcSpec.stepByte (r ^^^ s) (x ^^^ y)) (List.zipWith (· ^^^ ·) a b) = _
      rw [hs, ih _ _ _ (by simpa using h)]
      rfl

/-- **C46**: checksums are linear in initial value and content together. -/
theorem C46_linear (be be₁ be₂ : Bool) (addr addr₁ addr₂ : ℕ) (r s : BitVec 32) (a b : List Byte)
    (hl : a.length = b.length) (h : a.length < 2 ^ 32) :
    ∃ x y, calculate be₁ addr₁ r a a.length = .ok x ∧ calculate be₂ addr₂ s b b.length = .ok y ∧
      calculate be addr (r ^^^ s) (List.zipWith (· ^^^ ·) a b) a.length = .ok (x ^^^ y) := by
  refine ⟨_, _, C42_crc32c _ _ _ _ h, C42_crc32c _ _ _ _ (hl ▸ h), ?_⟩
  have hz : a.length = (List.zipWith (fun x1 x2 : Byte => x1 ^^^ x2) a b).length := by simp [hl]
  conv_lhs => rw [hz]
  rw [C42_crc32c _ _ _ _ (hz ▸ h), crc_xor _ _ _ _ hl]

/-- **C46**: leading zero bytes do not change a checksum started from 0. -/
theorem C46_leading_zeros (be be' : Bool) (addr addr' k : ℕ) (a : List Byte) (h : k + a.length < 2 ^ 32) :
    calculate be addr 0#32 (List.replicate k 0#8 ++ a) (k + a.length) = calculate be' addr' 0#32 a a.length := by
  have hl : k + a.length = (List.replicate k 0#8 ++ a).length := by simp
  have hz : ∀ k, CrcSpec.crc 0#32 (List.replicate k 0#8) = 0#32 := by
    intro k
    induction k with
    | zero => rfl
    | succ k ih => exact ih
  conv_lhs => rw [hl]
  rw [C42_crc32c _ _ _ _ (hl ▸ h), C42_crc32c _ _ _ _ (by omega), crc_append, hz]

/-! ## C43 and C44 -/

theorem bytesLE_eq (x : BitVec 32) : bytesLE x = [byte 0 x, byte 1 x, byte 2 x, byte 3 x] := by
  unfold bytesLE byte; simp

theorem appendCRC_eq (pf : Platform) (n : ℤ) :
    appendCRC pf n = if byteLen n = 0 then .error .nullDeref
      else if pf.usable (byteLen n) < byteLen n + 4 then .error .heapOverflow
      else .ok (Utils.setRawMpz (Utils.getRawMpz n ++ bytesLE (CrcSpec.crc 0
        ((Utils.getRawMpz n).take (byteLen n % 2 ^ 32))))) := by
  unfold appendCRC
  simp only [Utils.length_getRawMpz]
  rw [calculate_spec _ _ _ _ _ (by rw [Utils.length_getRawMpz]; exact Nat.mod_le _ _)]
  rfl

theorem byteLen_pos (n : ℤ) (h : n ≠ 0) : 0 < byteLen n := by
  have : 0 < n.natAbs.size := Nat.size_pos.2 (by omega)
  unfold byteLen; omega

theorem getRaw_append (n : ℤ) (h : n ≠ 0) (l : List Byte) :
    Utils.getRawMpz (Utils.setRawMpz (Utils.getRawMpz n ++ l)) = Utils.getRawMpz n ++ l := by
  obtain ⟨b, t, e, hb⟩ := Utils.digits_head n.natAbs (by omega)
  rw [Utils.getRawMpz_eq n, e, Utils.setRawMpz_val, Utils.getRawMpz_eq, Int.natAbs_natCast, List.cons_append,
    Utils.digits_val_of_head b _ hb]

/-- **C43**, on a machine whose heap blocks have four spare bytes: for every positive integer whose bytes can be indexed, the
checksummed integer validates on every machine and stripping it gives the integer back.

Missing for the full statement: on a machine without the spare bytes `appendCRC` has no defined behaviour
(`C44_append_counterexample`). -/
theorem C43_round_trip_partial (pf pf' : Platform) (n : ℤ) (hn : 0 < n) (hb : byteLen n + 4 < 2 ^ 64)
    (hs : byteLen n + 4 ≤ pf.usable (byteLen n)) :
    ∃ m, appendCRC pf n = .ok m ∧ validateCRC pf' m = .ok true ∧ removeCRC m = .ok n := by
  have h0 : n ≠ 0 := by omega
  refine ⟨_, by rw [appendCRC_eq, if_neg (byteLen_pos n h0).ne', if_neg (by omega)], ?_, ?_⟩
  · have hg := getRaw_append n h0 (bytesLE (CrcSpec.crc 0 ((Utils.getRawMpz n).take (byteLen n % 2 ^ 32))))
    rw [bytesLE_eq] at hg ⊢
    rw [validate_split pf' _ _ _ _ _ _ hg (by rw [Utils.length_getRawMpz]; exact hb), word_bytes,
      Utils.length_getRawMpz]
    congr 1
    exact beq_self_eq_true _
  · unfold removeCRC
    simp only [getRaw_append n h0]
    have hl : (Utils.getRawMpz n ++ bytesLE (CrcSpec.crc 0 ((Utils.getRawMpz n).take (byteLen n % 2 ^ 32)))).length
        = byteLen n + 4 := by rw [List.length_append, Utils.length_getRawMpz]; rfl
    rw [hl, sub64_eq _ 4 (by omega) hb]
    unfold Utils.setRawMpzLen
    rw [if_pos (by rw [hl]; omega), Nat.add_sub_cancel, ← Utils.length_getRawMpz, List.take_left,
      Utils.setRaw_getRaw, abs_of_pos hn]

/-- **C43**, the format: on such a machine and below `2^32` bytes the checksummed integer is the integer moved up by 32 bits plus the
four bytes of the CRC-32C of its big-endian byte string `l`, least significant byte first. -/
theorem C43_format_partial (pf : Platform) (n : ℤ) (hn : 0 < n) (hb : byteLen n < 2 ^ 32)
    (hs : byteLen n + 4 ≤ pf.usable (byteLen n)) (l : List (BitVec 8)) (hl : l.head? ≠ some 0#8) (hv : (val l : ℤ) = n) :
    appendCRC pf n = .ok (n * 2 ^ 32 + val (CrcSpec.tail l)) := by
  have h0 : n ≠ 0 := by omega
  have hg : Utils.getRawMpz n = l := by
    rw [Utils.getRawMpz_eq, ← hv, Int.natAbs_natCast]
    cases l with
    | nil => rfl
    | cons b l => exact Utils.digits_val_of_head b l (by simpa using hl)
  rw [appendCRC_eq, if_neg (byteLen_pos n h0).ne', if_neg (by omega), Utils.setRawMpz_val, Utils.val_append,
    Nat.mod_eq_of_lt hb, ← Utils.length_getRawMpz n, List.take_length, hg]
  have h4 : (bytesLE (CrcSpec.crc 0 l)).length = 4 := rfl
  rw [h4]
  push_cast
  rw [hv]
  rfl

example : ([1#8, 2#8] : List (BitVec 8)).head? ≠ some 0#8 ∧ (val [1#8, 2#8] : ℤ) = 258 := by decide

example : appendCRC pfSlack 1 = .ok 4353911794 ∧ validateCRC pfStrict 4353911794 = .ok true ∧
    removeCRC 4353911794 = .ok 1 := ⟨rfl, rfl, rfl⟩

/-- **C44**, exactly when `appendCRC` is defined: the integer is not zero and the allocator happened to provide four
bytes more than asked for. -/
theorem C44_append_partial (pf : Platform) (n : ℤ) :
    Ends (appendCRC pf n) (fun _ => True) ↔ n ≠ 0 ∧ byteLen n + 4 ≤ pf.usable (byteLen n) := by
  rw [appendCRC_eq]
  constructor
  · rintro ⟨x, hx, -⟩
    refine ⟨?_, ?_⟩
    · rintro rfl; simp [byteLen] at hx
    · by_contra hc
      rw [if_pos (by omega : pf.usable (byteLen n) < byteLen n + 4)] at hx
      split at hx <;> cases hx
  · rintro ⟨h0, hs⟩
    rw [if_neg (byteLen_pos n h0).ne', if_neg (by omega)]
    exact ⟨_, rfl, trivial⟩

/-- **C44** is false of `appendCRC`: on a machine that provides exactly the memory asked for, every call writes
past its heap block or through a null pointer. -/
theorem C44_append_counterexample (pf : Platform) (hs : ∀ k, pf.usable k = k) (n : ℤ) : Faults (appendCRC pf n) := by
  rw [appendCRC_eq, hs]
  split
  · exact ⟨_, rfl⟩
  · rw [if_pos (by omega)]; exact ⟨_, rfl⟩

example : ∀ k, pfStrict.usable k = k := fun _ => rfl

/-- **C44**, exactly when `validateCRC` and `removeCRC` are defined: the integer has at least four bytes. -/
theorem C44_validate_remove_partial (pf : Platform) (n : ℤ) (hb : byteLen n < 2 ^ 64) :
    (Ends (validateCRC pf n) (fun _ => True) ↔ 4 ≤ byteLen n) ∧
      (Ends (removeCRC n) (fun _ => True) ↔ 4 ≤ byteLen n) := by
  refine ⟨⟨?_, ?_⟩, ⟨?_, ?_⟩⟩
  · rintro ⟨x, hx, -⟩
    by_contra hc
    rw [validate_short pf n (by omega)] at hx
    cases hx
  · intro h4
    rw [← Utils.length_getRawMpz] at h4 hb
    obtain ⟨B, b0, b1, b2, b3, h, -⟩ := split4 _ h4
    have hL : B.length + 4 = (Utils.getRawMpz n).length := by rw [h]; simp
    exact ⟨_, validate_split pf n B b0 b1 b2 b3 h (by omega), trivial⟩
  · rintro ⟨x, hx, -⟩
    by_contra hc
    unfold removeCRC Utils.setRawMpzLen at hx
    simp only [Utils.length_getRawMpz] at hx
    rw [if_neg (by unfold sub64; omega)] at hx
    cases hx
  · intro h4
    unfold removeCRC Utils.setRawMpzLen
    simp only [Utils.length_getRawMpz]
    rw [sub64_eq _ 4 h4 hb, if_pos (by omega)]
    exact ⟨_, rfl, trivial⟩

/-- **C44** is false of `validateCRC` and `removeCRC`: integers below `2^24` make them read outside the block. -/
theorem C44_short_counterexample (pf : Platform) :
    validateCRC pf 0xABCDEF = .error .oobRead ∧ removeCRC 0xABCDEF = .error .oobRead := by
  refine ⟨validate_short pf _ (by decide +kernel), by decide +kernel⟩

/-! ## C45, C58, C59: error detection -/

theorem byteLen_nat (m : ℕ) : byteLen (m : ℤ) = (m.size + 7) / 8 := rfl

theorem valid_residue (pf : Platform) (m : ℕ) (hl : byteLen m < 2 ^ 32 + 4) (h : validateCRC pf m = .ok true) :
    residue m = 0#32 := by
  by_cases h4 : 4 ≤ byteLen (m : ℤ)
  · rw [validate_residue pf m h4 hl, Int.natAbs_natCast] at h
    simpa using h
  · rw [validate_short pf m (by omega)] at h; cases h

theorem invalid_of_residue (pf : Platform) (m : ℕ) (hl : byteLen m < 2 ^ 32 + 4) (h : residue m ≠ 0#32) :
    validateCRC pf m ≠ .ok true ∧ (4 ≤ byteLen m → validateCRC pf m = .ok false) := by
  refine ⟨fun hv => h (valid_residue pf m hl hv), fun h4 => ?_⟩
  rw [validate_residue pf m h4 hl, Int.natAbs_natCast]
  simpa using h

/-- **C45**, below `2^32` bytes of payload: a change confined to four consecutive bytes, anywhere in the integer or above
it, is never accepted; it is rejected whenever at least four bytes remain (otherwise `validateCRC` reads out of
bounds, C44).

Missing for the full statement: longer integers, where it is false (`C45_long_counterexample`), and the out-of-bounds case. -/
theorem C45_burst_partial (pf pf' : Platform) (m e k : ℕ) (he : 0 < e) (he' : e < 2 ^ 32)
    (hm : byteLen m < 2 ^ 32 + 4) (hm' : byteLen (m ^^^ e <<< (8 * k) : ℕ) < 2 ^ 32 + 4)
    (hv : validateCRC pf m = .ok true) :
    validateCRC pf' (m ^^^ e <<< (8 * k) : ℕ) ≠ .ok true ∧
      (4 ≤ byteLen (m ^^^ e <<< (8 * k) : ℕ) → validateCRC pf' (m ^^^ e <<< (8 * k) : ℕ) = .ok false) := by
  apply invalid_of_residue pf' _ hm'
  rw [residue_xor, valid_residue pf m hm hv, BitVec.zero_xor, residue_shl]
  intro h
  have := residue_small e he' (T_iter_eq_zero k _ h)
  omega

example : validateCRC pfSlack (4353911794 : ℕ) = .ok true ∧ byteLen (4353911794 : ℕ) < 2 ^ 32 + 4 ∧
    byteLen (4353911794 ^^^ 0xDEADBEEF <<< (8 * 1) : ℕ) < 2 ^ 32 + 4 := ⟨rfl, by decide +kernel, by decide +kernel⟩

/-- any integer of `2^32` bytes followed by four zero bytes validates: no byte of it is covered -/
theorem C45_uncovered (pf : Platform) (a : ℕ) (ha : byteLen a = 2 ^ 32) : validateCRC pf (a * 2 ^ 32 : ℕ) = .ok true := by
  have h0 : a ≠ 0 := by rintro rfl; simp [byteLen] at ha
  have hl := Utils.length_getRawMpz (a : ℤ)
  have hv : ((a * 2 ^ 32 : ℕ) : ℤ) = Utils.setRawMpz (Utils.getRawMpz a ++ [0#8, 0#8, 0#8, 0#8]) := by
    rw [Utils.setRawMpz_val, Utils.val_append, Utils.getRawMpz_eq, Utils.val_digits]
    simp [val]
  rw [hv]
  have hg := getRaw_append (a : ℤ) (by exact_mod_cast h0) [0#8, 0#8, 0#8, 0#8]
  rw [validate_split pf _ _ _ _ _ _ hg (by rw [hl, ha]; norm_num), hl, ha]
  rfl

/-- **C45** is false of integers with `2^32` bytes of payload: some such integer validates, and still does after one of
its bytes is changed. -/
theorem C45_long_counterexample (pf : Platform) :
    ∃ m e k : ℕ, 0 < e ∧ e < 256 ∧ validateCRC pf m = .ok true ∧ validateCRC pf (m ^^^ e <<< (8 * k) : ℕ) = .ok true := by
  obtain ⟨K, hK⟩ : ∃ K, K + 1 = 2 ^ 32 := ⟨2 ^ 32 - 1, rfl⟩
  have hsz : ∀ a : ℕ, 256 ^ K ≤ a → a < 256 ^ (K + 1) → byteLen a = 2 ^ 32 := by
    intro a h1 h2
    have p1 : a.size ≤ 8 * (K + 1) := by rw [Nat.size_le, pow_mul]; simpa using h2
    have p2 : 8 * K < a.size := by rw [Nat.lt_size, pow_mul]; simpa using h1
    rw [byteLen_nat]; omega
  have hK1 : 1 < 256 ^ K := Nat.one_lt_pow (by omega) (by norm_num)
  have hKs : 256 ^ (K + 1) = 256 ^ K * 256 := pow_succ _ _
  refine ⟨256 ^ K * 2 ^ 32, 1, 4, by norm_num, by norm_num, C45_uncovered pf _ (hsz _ le_rfl (by omega)), ?_⟩
  have hx : 256 ^ K * 2 ^ 32 ^^^ 1 <<< (8 * 4) = (256 ^ K + 1) * 2 ^ 32 := by
    have h1 : 256 ^ K * 2 ^ 32 = (256 ^ K) <<< 32 := by rw [Nat.shiftLeft_eq]
    have h2 : (256 ^ K + 1) * 2 ^ 32 = (256 ^ K + 1) <<< 32 := by rw [Nat.shiftLeft_eq]
    rw [h1, h2, ← Nat.shiftLeft_xor_distrib]
    congr 1
    have h3 : 256 ^ K = 2 * (128 * 256 ^ (K - 1)) := by
      obtain ⟨K', rfl⟩ : ∃ K', K = K' + 1 := ⟨K - 1, by omega⟩
      rw [pow_succ]; simp; ring
    rw [h3]
    apply Nat.eq_of_testBit_eq
    intro k
    cases k with
    | zero => simp
    | succ k => simp [Nat.testBit_succ, Nat.xor_div_two]; congr 1; omega
  rw [hx]
  exact C45_uncovered pf _ (hsz _ (by omega) (by omega))

/-- **C58**: a change that flips an odd number of bits is never accepted. -/
theorem C58_odd_flips (pf pf' : Platform) (m m' : ℕ) (hm : byteLen m < 2 ^ 32 + 4) (hm' : byteLen m' < 2 ^ 32 + 4)
    (hv : validateCRC pf m = .ok true) (hodd : (Nat.digits 2 (m ^^^ m')).sum % 2 = 1) :
    validateCRC pf' m' ≠ .ok true ∧ (4 ≤ byteLen m' → validateCRC pf' m' = .ok false) := by
  apply invalid_of_residue pf' _ hm'
  intro h0
  have hx : residue (m ^^^ m') = 0#32 := by rw [residue_xor, h0, valid_residue pf m hm hv]; decide
  have hp := par_residue (m ^^^ m')
  rw [hx] at hp
  have hodd' : ones (m ^^^ m') % 2 = 1 := hodd
  rw [hodd'] at hp
  exact absurd hp (by decide)

/-- **C59**: checksummed integers of less than `2^28` bytes differ from each other in at least four bits, so one, two or three
flipped bits are never accepted. -/
theorem C59_distance (pf pf' : Platform) (m m' : ℕ) (hne : m ≠ m') (hm : byteLen m < 2 ^ 28) (hm' : byteLen m' < 2 ^ 28)
    (hv : validateCRC pf m = .ok true) (hfew : (Nat.digits 2 (m ^^^ m')).sum ≤ 3) :
    validateCRC pf' m' ≠ .ok true ∧ (4 ≤ byteLen m' → validateCRC pf' m' = .ok false) := by
  apply invalid_of_residue pf' _ (by omega)
  intro h0
  have hx : residue (m ^^^ m') = 0#32 := by rw [residue_xor, h0, valid_residue pf m (by omega) hv]; decide
  have hd0 : m ^^^ m' ≠ 0 := fun h => hne (by simpa [Nat.xor_assoc] using congrArg (· ^^^ m') h)
  have hlt : ∀ a : ℕ, byteLen a < 2 ^ 28 → a < 2 ^ (2 ^ 31 - 8) := by
    intro a ha
    rw [byteLen_nat] at ha
    rw [← Nat.size_le]; omega
  have hd : m ^^^ m' < 2 ^ (2 ^ 31 - 8) := Nat.xor_lt_two_pow (hlt _ hm) (hlt _ hm')
  have hp := par_residue (m ^^^ m')
  rw [hx] at hp
  have hfew' : ones (m ^^^ m') ≤ 3 := hfew
  have heven : ones (m ^^^ m') % 2 = 0 := by
    rcases Nat.mod_two_eq_zero_or_one (ones (m ^^^ m')) with h | h
    · exact h
    · rw [h] at hp; exact absurd hp (by decide)
  rcases (by omega : ones (m ^^^ m') = 0 ∨ ones (m ^^^ m') = 2) with h | h
  · exact hd0 (ones_zero _ h)
  · obtain ⟨i, j, hij, e⟩ := ones_two _ h
    have hbit : ∀ k, (m ^^^ m').testBit k = true → k < 2 ^ 31 - 8 := by
      intro k hk
      by_contra hc
      have : (m ^^^ m') < 2 ^ k := lt_of_lt_of_le hd (Nat.pow_le_pow_right (by norm_num) (by omega))
      rw [Nat.testBit_lt_two_pow this] at hk
      cases hk
    refine two_bits i j hij (hbit i ?_) (hbit j ?_) (e ▸ hx)
    · rw [e, Nat.testBit_xor, Nat.testBit_two_pow_self, Nat.testBit_two_pow_of_ne (Ne.symm hij)]; rfl
    · rw [e, Nat.testBit_xor, Nat.testBit_two_pow_self, Nat.testBit_two_pow_of_ne hij]; rfl

example : (4353911794 : ℕ) ≠ 4353911795 ∧ byteLen (4353911794 : ℕ) < 2 ^ 28 ∧ byteLen (4353911795 : ℕ) < 2 ^ 28 ∧
    (Nat.digits 2 (4353911794 ^^^ 4353911795)).sum % 2 = 1 ∧ (Nat.digits 2 (4353911794 ^^^ 4353911795)).sum ≤ 3 := by
  refine ⟨by decide, by decide +kernel, by decide +kernel, by decide +kernel, by decide +kernel⟩

theorem far_flips (pf pf' : Platform) (m N : ℕ) (hN : N = 2 ^ 31 - 8) (hm : byteLen m < 2 ^ 32 + 4)
    (hm' : byteLen (m ^^^ (2 ^ 7 ^^^ 2 ^ N) : ℕ) < 2 ^ 32 + 4)
    (h4 : 4 ≤ byteLen (m ^^^ (2 ^ 7 ^^^ 2 ^ N) : ℕ)) (hv : validateCRC pf m = .ok true) :
    validateCRC pf' (m ^^^ (2 ^ 7 ^^^ 2 ^ N) : ℕ) = .ok true := by
  rw [validate_residue pf' _ h4 hm', Int.natAbs_natCast, residue_xor, valid_residue pf m hm hv, residue_xor,
    residue_bit, residue_bit]
  have h1 : depth 7 = 1 := rfl
  have h2 : depth N = 1 + (2 ^ 31 - 1) := by unfold depth; omega
  rw [h1, h2, Function.iterate_add_apply, step_period]
  decide

/-- The bound of **C59** is sharp: from `2^28` bytes on two flipped bits that are `2^31 - 1` division steps apart go unnoticed. -/
theorem C59_bound_sharp (pf : Platform) :
    ∃ m i j : ℕ, i ≠ j ∧ byteLen m ≤ 2 ^ 28 ∧ byteLen (m ^^^ (2 ^ i ^^^ 2 ^ j) : ℕ) ≤ 2 ^ 28 ∧
      validateCRC pf m = .ok true ∧ validateCRC pf (m ^^^ (2 ^ i ^^^ 2 ^ j) : ℕ) = .ok true := by
  obtain ⟨N, hN⟩ : ∃ N : ℕ, N = 2 ^ 31 - 8 := ⟨_, rfl⟩
  have hx : (4353911794 ^^^ (2 ^ 7 ^^^ 2 ^ N) : ℕ) = 4353911794 ^^^ 2 ^ 7 ^^^ 2 ^ N := (Nat.xor_assoc _ _ _).symm
  have hs : (4353911794 ^^^ (2 ^ 7 ^^^ 2 ^ N) : ℕ).size = N + 1 := by
    rw [hx]
    generalize ha : (4353911794 ^^^ 2 ^ 7 : ℕ) = a
    have hlt : a < 2 ^ N := by
      have h1 : a < 2 ^ 33 := by rw [← ha]; decide
      exact h1.trans_le (Nat.pow_le_pow_right (by norm_num) (by omega))
    apply le_antisymm
    · rw [Nat.size_le]
      exact Nat.xor_lt_two_pow (hlt.trans (Nat.pow_lt_pow_right (by norm_num) (by omega)))
        (Nat.pow_lt_pow_right (by norm_num) (by omega))
    · rw [Nat.succ_le_iff, Nat.lt_size]
      apply Nat.ge_two_pow_of_testBit
      rw [Nat.testBit_xor, Nat.testBit_two_pow_self, Nat.testBit_lt_two_pow hlt]; rfl
  have hb : byteLen ((4353911794 ^^^ (2 ^ 7 ^^^ 2 ^ N) : ℕ) : ℤ) = 2 ^ 28 := by rw [byteLen_nat, hs]; omega
  have hv : validateCRC pf (4353911794 : ℕ) = .ok true := by
    rw [validate_residue pf _ (by decide +kernel) (by decide +kernel)]
    decide +kernel
  have hl : byteLen ((4353911794 : ℕ) : ℤ) = 5 := by decide +kernel
  exact ⟨4353911794, 7, N, by omega, by rw [hl]; norm_num, by rw [hb], hv,
    far_flips pf pf _ N hN (by rw [hl]; norm_num) (by rw [hb]; norm_num) (by rw [hb]; norm_num) hv⟩

end Verif
