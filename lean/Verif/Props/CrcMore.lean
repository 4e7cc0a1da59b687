import Verif.Props.Crc
import Verif.Lemmas.CrcFour
import Mathlib.Data.List.Sort

/-!
# C104: five flipped bits
-/

namespace Verif

open Crc Utils CrcSpec BytesSpec

/-! ## The bits of a number -/

theorem foldr_double (l : List ℕ) :
    (l.map (· + 1)).foldr (fun i x => 2 ^ i ^^^ x) 0 = 2 * l.foldr (fun i x => 2 ^ i ^^^ x) 0 := by
  induction l with
  | nil => rfl
  | cons a l ih =>
    rw [List.map_cons, List.foldr_cons, ih, List.foldr_cons]
    have h : ∀ x : ℕ, 2 * x = x <<< 1 := fun x => by rw [Nat.shiftLeft_eq, pow_one, Nat.mul_comm]
    rw [h, h, Nat.shiftLeft_xor_distrib, Nat.shiftLeft_eq (2 ^ a), pow_one, ← pow_succ]

theorem bits_of (d : ℕ) : ∃ l : List ℕ, l.Nodup ∧ l.length = ones d ∧ (∀ i ∈ l, d.testBit i = true) ∧
    d = l.foldr (fun i x => 2 ^ i ^^^ x) 0 := by
  induction d using Nat.strong_induction_on with
  | _ d ih =>
    by_cases h0 : d = 0
    · subst h0
      exact ⟨[], List.nodup_nil, by simp [ones], by simp, rfl⟩
    obtain ⟨l, h1, h2, h3, h4⟩ := ih (d / 2) (by omega)
    have n1 : (l.map (· + 1)).Nodup := h1.map fun a b h => by simpa using h
    have n2 : ∀ i ∈ l.map (· + 1), d.testBit i = true := by
      intro i hi
      obtain ⟨j, hj, rfl⟩ := List.mem_map.1 hi
      rw [Nat.testBit_succ]
      exact h3 j hj
    rw [ones_eq]
    rcases Nat.mod_two_eq_zero_or_one d with hb | hb
    · refine ⟨l.map (· + 1), n1, by rw [List.length_map, h2, hb, Nat.zero_add], n2, ?_⟩
      rw [foldr_double, ← h4]; omega
    · refine ⟨0 :: l.map (· + 1), List.nodup_cons.2 ⟨by simp, n1⟩, by rw [List.length_cons, List.length_map, h2, hb]; omega, ?_, ?_⟩
      · intro i hi
        rcases List.mem_cons.1 hi with rfl | hi
        · simp [hb]
        · exact n2 i hi
      · rw [List.foldr_cons, foldr_double, ← h4]
        apply Nat.eq_of_testBit_eq
        intro k
        cases k with
        | zero => simp [hb]
        | succ k =>
          rw [Nat.testBit_xor, Nat.testBit_two_pow_of_ne (by omega), Nat.testBit_succ, Nat.testBit_succ]
          simp

/-- the register after the bits at the given depths -/
def steps (l : List ℕ) : BitVec 32 := l.foldr (fun a x => stepBit^[a] 1#32 ^^^ x) 0#32

theorem residue_steps (l : List ℕ) : residue (l.foldr (fun i x => 2 ^ i ^^^ x) 0) = steps (l.map depth) := by
  induction l with
  | nil => decide
  | cons a l ih => rw [List.foldr_cons, residue_xor, ih, residue_bit]; rfl

theorem steps_perm {l l' : List ℕ} (h : l.Perm l') : steps l = steps l' := by
  unfold steps
  refine h.foldr_eq' (fun a _ b _ x => ?_) _
  ac_rfl

theorem four_bits {l : List ℕ} (hn : l.Nodup) (h4 : l.length = 4) (hl : ∀ a ∈ l, 0 < a ∧ a ≤ 5272) : steps l ≠ 0#32 := by
  have hp := List.perm_insertionSort (· ≤ ·) l
  have hs := List.pairwise_insertionSort (· ≤ ·) l
  have hn' := hp.nodup_iff.2 hn
  have hl' : ∀ a ∈ l.insertionSort (· ≤ ·), 0 < a ∧ a ≤ 5272 := fun a ha => hl a (hp.subset ha)
  have h4' := hp.length_eq
  rw [← steps_perm hp]
  generalize l.insertionSort (· ≤ ·) = L at *
  rw [h4] at h4'
  match L, h4' with
  | [d, c, b, a], _ =>
    simp only [List.pairwise_cons, List.nodup_cons, List.mem_cons, List.not_mem_nil, or_false, forall_eq_or_imp,
      forall_eq, not_or] at hs hn' hl'
    intro h
    have e : stepBit^[d] (stepBit^[a - d] 1#32 ^^^ stepBit^[b - d] 1#32 ^^^ stepBit^[c - d] 1#32 ^^^ 1#32) = 0#32 := by
      rw [stepBit_iter_xor, stepBit_iter_xor, stepBit_iter_xor, ← Function.iterate_add_apply, ← Function.iterate_add_apply,
        ← Function.iterate_add_apply, show d + (a - d) = a by omega, show d + (b - d) = b by omega,
        show d + (c - d) = c by omega, ← h]
      simp only [steps, List.foldr_cons, List.foldr_nil, BitVec.xor_zero]
      ac_rfl
    have z : stepBit^[d] 0#32 = 0#32 := Function.iterate_fixed stepBit_zero d
    exact four_steps (a := a - d) (b := b - d) (c := c - d) (by omega) (by omega) (by omega) (by omega)
      (stepBit_inj.iterate d (e.trans z.symm))

theorem size_of_byteLen {a N : ℕ} (h : byteLen a ≤ N) : a < 2 ^ (8 * N) := by
  rw [byteLen_nat] at h
  rw [← Nat.size_le]; omega

/-- **C104**: checksummed integers of up to 659 bytes differ from each other in at least six bits: up to five flipped bits are
never accepted. -/
theorem C104_five_flips (pf pf' : Platform) (m m' : ℕ) (hne : m ≠ m') (hm : byteLen m ≤ 659) (hm' : byteLen m' ≤ 659)
    (hv : validateCRC pf m = .ok true) (hfew : (Nat.digits 2 (m ^^^ m')).sum ≤ 5) :
    validateCRC pf' m' ≠ .ok true ∧ (4 ≤ byteLen m' → validateCRC pf' m' = .ok false) := by
  by_cases h3 : (Nat.digits 2 (m ^^^ m')).sum ≤ 3
  · exact C59_distance pf pf' m m' hne (by omega) (by omega) hv h3
  by_cases h5 : (Nat.digits 2 (m ^^^ m')).sum % 2 = 1
  · exact C58_odd_flips pf pf' m m' (by omega) (by omega) hv h5
  have h4 : ones (m ^^^ m') = 4 := by
    have : ones (m ^^^ m') = (Nat.digits 2 (m ^^^ m')).sum := rfl
    omega
  apply invalid_of_residue pf' _ (by omega)
  intro h0
  have hx : residue (m ^^^ m') = 0#32 := by rw [residue_xor, h0, valid_residue pf m (by omega) hv]; decide
  have hd : m ^^^ m' < 2 ^ (8 * 659) := Nat.xor_lt_two_pow (size_of_byteLen hm) (size_of_byteLen hm')
  obtain ⟨l, l1, l2, l3, l4⟩ := bits_of (m ^^^ m')
  have hbit : ∀ k ∈ l, k < 8 * 659 := by
    intro k hk
    by_contra hc
    have : (m ^^^ m') < 2 ^ k := lt_of_lt_of_le hd (Nat.pow_le_pow_right (by norm_num) (by omega))
    have := l3 k hk
    rw [Nat.testBit_lt_two_pow ‹_›] at this
    cases this
  rw [l4, residue_steps] at hx
  refine four_bits (l1.map fun i j h => depth_inj i j h) (by rw [List.length_map, l2, h4]) ?_ hx
  intro a ha
  obtain ⟨i, hi, rfl⟩ := List.mem_map.1 ha
  have := hbit i hi
  unfold depth
  omega

example : validateCRC pfSlack (4353911789 : ℕ) = .ok false :=
  (C104_five_flips pfSlack pfSlack 4353911794 4353911789 (by decide) (by decide +kernel) (by decide +kernel) (by decide +kernel)
    (by decide +kernel)).2 (by decide +kernel)

/-- a change that the checksum does not see -/
theorem unseen (pf pf' : Platform) (m e : ℕ) (he : residue e = 0#32) (hm : byteLen m < 2 ^ 32 + 4)
    (hm' : byteLen (m ^^^ e : ℕ) < 2 ^ 32 + 4) (h4 : 4 ≤ byteLen (m ^^^ e : ℕ)) (hv : validateCRC pf m = .ok true) :
    validateCRC pf' (m ^^^ e : ℕ) = .ok true := by
  rw [validate_residue pf' _ h4 hm', Int.natAbs_natCast, residue_xor, valid_residue pf m hm hv, he]
  decide

theorem step_at {k : ℕ} {v : BitVec 32} (ms : List ℕ) (hk : val 0 ms = k) (h : powS rows0 ms (const 1 1#32) = const 1 v) :
    stepBit^[k] 1#32 = v := by
  have h1 := powS_lane ms 0 rows0_rows (const_lane (n := 1) Nat.one_pos 1#32)
  rw [pow_zero, one_mul, h, hk] at h1
  exact lane_unique h1 (const_lane Nat.one_pos v)

/-- four bits that cancel -/
theorem unseen_four : residue (2 ^ 7 ^^^ 2 ^ 2744 ^^^ 2 ^ 4507 ^^^ 2 ^ 5276) = 0#32 := by
  rw [residue_xor, residue_xor, residue_xor, residue_bit, residue_bit, residue_bit, residue_bit,
    step_at (k := depth 7) (v := 2197175160#32) [1, 0, 0, 0, 0, 0, 0, 0, 0, 0, 0, 0, 0] (by decide) (by decide +kernel),
    step_at (k := depth 2744) (v := 3464444404#32) [0, 0, 0, 0, 0, 0, 1, 1, 0, 1, 0, 1, 0] (by decide) (by decide +kernel),
    step_at (k := depth 4507) (v := 595258901#32) [1, 0, 1, 1, 1, 0, 0, 1, 1, 0, 0, 0, 1] (by decide) (by decide +kernel),
    step_at (k := depth 5276) (v := 1878256793#32) [0, 0, 1, 1, 1, 0, 0, 1, 0, 0, 1, 0, 1] (by decide) (by decide +kernel)]
  decide

/-- The number of bytes in **C104** is sharp: in integers of 660 bytes four flipped bits can go unnoticed; the same four in all of
them. -/
theorem C104_bytes_sharp (pf pf' : Platform) (m : ℕ) (hm : byteLen m ≤ 660)
    (h4 : 4 ≤ byteLen (m ^^^ (2 ^ 7 ^^^ 2 ^ 2744 ^^^ 2 ^ 4507 ^^^ 2 ^ 5276) : ℕ)) (hv : validateCRC pf m = .ok true) :
    byteLen (m ^^^ (2 ^ 7 ^^^ 2 ^ 2744 ^^^ 2 ^ 4507 ^^^ 2 ^ 5276) : ℕ) ≤ 660 ∧
      validateCRC pf' (m ^^^ (2 ^ 7 ^^^ 2 ^ 2744 ^^^ 2 ^ 4507 ^^^ 2 ^ 5276) : ℕ) = .ok true := by
  have h : byteLen (m ^^^ (2 ^ 7 ^^^ 2 ^ 2744 ^^^ 2 ^ 4507 ^^^ 2 ^ 5276) : ℕ) ≤ 660 := by
    have hx : m ^^^ (2 ^ 7 ^^^ 2 ^ 2744 ^^^ 2 ^ 4507 ^^^ 2 ^ 5276) < 2 ^ (8 * 660) :=
      Nat.xor_lt_two_pow (size_of_byteLen hm) (by decide +kernel)
    rw [byteLen_nat]
    have := Nat.size_le.2 hx
    omega
  exact ⟨h, unseen pf pf' m _ unseen_four (by omega) (by omega) h4 hv⟩

example : validateCRC pfSlack (4353911794 ^^^ (2 ^ 7 ^^^ 2 ^ 2744 ^^^ 2 ^ 4507 ^^^ 2 ^ 5276) : ℕ) = .ok true :=
  (C104_bytes_sharp pfSlack pfSlack 4353911794 (by decide +kernel) (by decide +kernel) (by decide +kernel)).2

/-- The number of flips in **C104** is sharp: in integers of 27 bytes or more six flipped bits can go unnoticed. -/
theorem C104_flips_sharp (pf pf' : Platform) (m : ℕ) (hm : byteLen m < 2 ^ 32 + 4)
    (hm' : byteLen (m ^^^ (2 ^ 7 ^^^ 2 ^ 9 ^^^ 2 ^ 32 ^^^ 2 ^ 49 ^^^ 2 ^ 151 ^^^ 2 ^ 214) : ℕ) = byteLen m) (h4 : 27 ≤ byteLen m)
    (hv : validateCRC pf m = .ok true) :
    validateCRC pf' (m ^^^ (2 ^ 7 ^^^ 2 ^ 9 ^^^ 2 ^ 32 ^^^ 2 ^ 49 ^^^ 2 ^ 151 ^^^ 2 ^ 214) : ℕ) = .ok true :=
  unseen pf pf' m _ (by decide +kernel) hm (by omega) (by omega) hv

example : validateCRC pfSlack (78984218751417890026293016148164744001287893489311386669273254062 : ℕ) = .ok true :=
  C104_flips_sharp pfSlack pfSlack 52656145834278593348959013841835216159447547700274555628681628206
    (by decide +kernel) (by decide +kernel) (by decide +kernel) (by decide +kernel)

end Verif
