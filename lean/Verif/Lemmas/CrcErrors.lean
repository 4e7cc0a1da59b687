import Mathlib.Dynamics.PeriodicPts.Defs
import Mathlib.Data.Nat.Digits.Defs
import Mathlib.Algebra.Ring.Parity
import Verif.Lemmas.Crc
import Verif.Lemmas.Utilities
import Verif.Lemmas.Primes

/-!
# What the checksum of an integer detects
-/

namespace Verif
namespace Crc

open CrcSpec BytesSpec Utils

theorem stepBit_zero : stepBit 0#32 = 0#32 := by decide
theorem T_zero : T 0#32 = 0#32 := by decide

theorem stepBit_eq_zero (r : BitVec 32) (h : stepBit r = 0#32) : r = 0#32 := by
  unfold stepBit at h
  split at h
  · exfalso
    have h31 := congrArg (fun x => BitVec.getLsbD x 31) h
    simp [BitVec.getLsbD_ushiftRight] at h31
    exact absurd h31 (by decide)
  · rename_i h0
    apply BitVec.eq_of_getLsbD_eq
    intro i hi
    rw [BitVec.getLsbD_zero]
    cases i with
    | zero => simpa using h0
    | succ i =>
      have hi := congrArg (fun x => BitVec.getLsbD x i) h
      simpa [BitVec.getLsbD_ushiftRight, Nat.add_comm] using hi

theorem xor_eq_zero {a b : BitVec 32} (h : a ^^^ b = 0#32) : a = b := by
  have : a ^^^ b ^^^ b = 0#32 ^^^ b := by rw [h]
  rwa [BitVec.xor_assoc, BitVec.xor_self, BitVec.xor_zero, BitVec.zero_xor] at this

theorem stepBit_inj : Function.Injective stepBit := by
  intro a b h
  apply xor_eq_zero
  apply stepBit_eq_zero
  rw [stepBit_xor, h, BitVec.xor_self]

theorem T_inj : Function.Injective T := stepBit_inj.iterate 8

/-- checksum register after all bytes of a natural number -/
def residue (m : ℕ) : BitVec 32 := crc 0#32 (digits m)

theorem w_zero : w 0#8 = 0#32 := by decide

theorem residue_eq (m : ℕ) : residue m = T (residue (m / 256) ^^^ w (BitVec.ofNat 8 m)) := by
  by_cases h : m = 0
  · subst h; decide
  · unfold residue
    rw [digits_eq m h, crc_append]
    rfl

theorem w_xor (a b : Byte) : w (a ^^^ b) = w a ^^^ w b := by
  unfold w; exact BitVec.setWidth_xor

theorem residue_xor (a b : ℕ) : residue (a ^^^ b) = residue a ^^^ residue b := by
  induction a using Nat.strong_induction_on generalizing b with
  | _ a ih =>
    by_cases ha : a = 0
    · subst ha; simp [residue, digits_zero, crc]
    · rw [residue_eq a, residue_eq b, residue_eq (a ^^^ b)]
      have hd : (a ^^^ b) / 256 = a / 256 ^^^ b / 256 := by
        have := @Nat.shiftRight_xor_distrib 8 a b
        simpa [Nat.shiftRight_eq_div_pow] using this
      rw [hd, ih (a / 256) (by omega), BitVec.ofNat_xor, w_xor, ← T_xor]
      congr 1
      simp only [BitVec.xor_assoc]
      congr 1
      rw [← BitVec.xor_assoc, BitVec.xor_comm (residue (b / 256)), BitVec.xor_assoc]

theorem residue_shl (e k : ℕ) : residue (e <<< (8 * k)) = T^[k] (residue e) := by
  induction k with
  | zero => simp
  | succ k ih =>
    rw [residue_eq, Function.iterate_succ_apply', ← ih]
    have h1 : e <<< (8 * (k + 1)) = 256 * (e <<< (8 * k)) := by
      rw [Nat.shiftLeft_eq, Nat.shiftLeft_eq, Nat.mul_add, pow_add]; ring
    have h2 : BitVec.ofNat 8 (256 * (e <<< (8 * k))) = 0#8 := by
      apply BitVec.eq_of_toNat_eq; simp
    rw [h1, h2, w_zero, BitVec.xor_zero, Nat.mul_div_cancel_left _ (by norm_num)]

theorem word_eq_zero (b0 b1 b2 b3 : Byte) (h : word b0 b1 b2 b3 = 0#32) : b0 = 0#8 ∧ b1 = 0#8 ∧ b2 = 0#8 ∧ b3 = 0#8 := by
  refine ⟨?_, ?_, ?_, ?_⟩
  · rw [← byte_word0 b0 b1 b2 b3, h]; rfl
  · rw [← byte_word1 b0 b1 b2 b3, h]; rfl
  · rw [← byte_word2 b0 b1 b2 b3, h]; rfl
  · rw [← byte_word3 b0 b1 b2 b3, h]; rfl

theorem T_iter_eq_zero (k : ℕ) (x : BitVec 32) (h : T^[k] x = 0#32) : x = 0#32 := by
  have hz : T^[k] 0#32 = 0#32 := by
    induction k with
    | zero => rfl
    | succ k _ => rw [Function.iterate_fixed T_zero]
  exact T_inj.iterate k (h.trans hz.symm)

theorem residue_small (e : ℕ) (he : e < 2 ^ 32) (h : residue e = 0#32) : e = 0 := by
  have h4 : residue e = stepByte (stepByte (stepByte (stepByte 0#32 (BitVec.ofNat 8 (e / 256 / 256 / 256)))
      (BitVec.ofNat 8 (e / 256 / 256))) (BitVec.ofNat 8 (e / 256))) (BitVec.ofNat 8 e) := by
    rw [residue_eq e, residue_eq (e / 256), residue_eq (e / 256 / 256), residue_eq (e / 256 / 256 / 256)]
    have : e / 256 / 256 / 256 / 256 = 0 := by omega
    rw [this]; rfl
  rw [h4, four_bytes, BitVec.zero_xor] at h
  obtain ⟨h0, h1, h2, h3⟩ := word_eq_zero _ _ _ _ (T_iter_eq_zero 4 _ h)
  have g : ∀ n : ℕ, BitVec.ofNat 8 n = 0#8 → n % 256 = 0 := by
    intro n hn; have := congrArg BitVec.toNat hn; simpa using this
  have := g _ h0; have := g _ h1; have := g _ h2; have := g _ h3
  omega

/-! ## validation -/

theorem readAt_append (B : List Byte) (l : List Byte) (b : Byte) (i : ℕ) (h : l[i]? = some b) :
    readAt (B ++ l) (B.length + i) = .ok b := by
  unfold readAt
  rw [List.getElem?_append_right (by omega), Nat.add_sub_cancel_left, h]

theorem split4 (l : List Byte) (h : 4 ≤ l.length) :
    ∃ B b0 b1 b2 b3, l = B ++ [b0, b1, b2, b3] ∧ B = l.take (l.length - 4) := by
  have hd : (l.drop (l.length - 4)).length = 4 := by rw [List.length_drop]; omega
  match hm : l.drop (l.length - 4), hd with
  | [b0, b1, b2, b3], _ =>
    exact ⟨l.take (l.length - 4), b0, b1, b2, b3, by rw [← hm, List.take_append_drop], rfl⟩

theorem validate_split (pf : Platform) (n : ℤ) (B : List Byte) (b0 b1 b2 b3 : Byte)
    (h : getRawMpz n = B ++ [b0, b1, b2, b3]) (hl : B.length + 4 < 2 ^ 64) :
    validateCRC pf n = .ok (crc 0#32 (B.take (B.length % 2 ^ 32)) == word b0 b1 b2 b3) := by
  unfold validateCRC
  have hL : (B ++ [b0, b1, b2, b3]).length = B.length + 4 := by simp
  simp only [h, hL]
  rw [sub64_eq _ 4 (by omega) hl, sub64_eq _ 3 (by omega) hl, sub64_eq _ 2 (by omega) hl,
    sub64_eq _ 1 (by omega) hl, show B.length + 4 - 4 = B.length + 0 by omega,
    show B.length + 4 - 3 = B.length + 1 by omega, show B.length + 4 - 2 = B.length + 2 by omega,
    show B.length + 4 - 1 = B.length + 3 by omega,
    readAt_append B _ b0 0 rfl, readAt_append B _ b1 1 rfl, readAt_append B _ b2 2 rfl, readAt_append B _ b3 3 rfl]
  simp only [R.ok_bind, word_or, Nat.add_zero]
  have hm : B.length % 2 ^ 32 ≤ B.length := Nat.mod_le _ _
  rw [calculate_spec _ _ _ _ _ (hm.trans (by rw [hL]; exact Nat.le_add_right _ _)), R.ok_bind, List.take_append_of_le_length hm]
  rfl

theorem residue_word (B : List Byte) (b0 b1 b2 b3 : Byte) :
    (crc 0#32 (B ++ [b0, b1, b2, b3]) = 0#32) ↔ crc 0#32 B = word b0 b1 b2 b3 := by
  rw [crc_append]
  have : crc (crc 0#32 B) [b0, b1, b2, b3] = T^[4] (crc 0#32 B ^^^ word b0 b1 b2 b3) := four_bytes _ _ _ _ _
  rw [this]
  constructor
  · intro h; exact xor_eq_zero (T_iter_eq_zero 4 _ h)
  · intro h; rw [h, BitVec.xor_self]; exact Function.iterate_fixed T_zero 4

/-- validation decides whether the checksum of all bytes, the appended ones included, is zero -/
theorem validate_residue (pf : Platform) (n : ℤ) (h4 : 4 ≤ byteLen n) (hl : byteLen n < 2 ^ 32 + 4) :
    validateCRC pf n = .ok (residue n.natAbs == 0#32) := by
  rw [← length_getRawMpz] at h4 hl
  obtain ⟨B, b0, b1, b2, b3, h, -⟩ := split4 _ h4
  have hL : B.length + 4 = (getRawMpz n).length := by rw [h]; simp
  rw [validate_split pf n B b0 b1 b2 b3 h (by omega), Nat.mod_eq_of_lt (by omega), List.take_length]
  congr 1
  rw [Bool.eq_iff_iff, beq_iff_eq, beq_iff_eq]
  unfold residue
  rw [← getRawMpz_eq, h, residue_word]

theorem validate_short (pf : Platform) (n : ℤ) (h4 : byteLen n < 4) : validateCRC pf n = .error .oobRead := by
  rw [← length_getRawMpz] at h4
  unfold validateCRC
  have : readAt (getRawMpz n) (sub64 (getRawMpz n).length 4) = .error .oobRead := by
    unfold readAt sub64
    rw [List.getElem?_eq_none (by omega)]
  simp only [this, R.error_bind]

/-! ## parity -/

/-- parity of the first bits of a register -/
def par (r : BitVec 32) : ℕ → Bool
  | 0 => false
  | n + 1 => par r n ^^ r.getLsbD n

theorem par_xor (a b : BitVec 32) (n : ℕ) : par (a ^^^ b) n = (par a n ^^ par b n) := by
  induction n with
  | zero => rfl
  | succ n ih =>
    simp only [par, ih, BitVec.getLsbD_xor]
    cases par a n <;> cases par b n <;> cases a.getLsbD n <;> cases b.getLsbD n <;> rfl

theorem par_shift (r : BitVec 32) (n : ℕ) : par (r >>> 1) n = (par r (n + 1) ^^ r.getLsbD 0) := by
  induction n with
  | zero => simp [par]
  | succ n ih =>
    rw [par, ih, BitVec.getLsbD_ushiftRight, par.eq_def r (n + 1 + 1)]
    simp only [Nat.add_comm 1 n]
    cases par r (n + 1) <;> cases r.getLsbD 0 <;> cases r.getLsbD (n + 1) <;> rfl

theorem par_stepBit (r : BitVec 32) : par (stepBit r) 32 = par r 32 := by
  have h33 : par r 33 = par r 32 := by
    rw [par, BitVec.getLsbD_of_ge _ _ (by omega)]; simp
  have hp : par poly 32 = true := by decide
  unfold stepBit
  cases h : r.getLsbD 0
  · rw [if_neg (by simp), par_shift, h33, h]; simp
  · rw [if_pos rfl, par_xor, par_shift, h33, h, hp]; simp

theorem par_T (r : BitVec 32) : par (T r) 32 = par r 32 := by
  have : ∀ k, par (stepBit^[k] r) 32 = par r 32 := by
    intro k
    induction k with
    | zero => rfl
    | succ k ih => rw [Function.iterate_succ_apply', par_stepBit, ih]
  exact this 8

/-- number of ones -/
def ones (m : ℕ) : ℕ := (Nat.digits 2 m).sum

theorem ones_eq (m : ℕ) : ones m = m % 2 + ones (m / 2) := by
  unfold ones
  by_cases h : m = 0
  · subst h; rfl
  · rw [Nat.digits_def' (by norm_num) (by omega)]; simp

theorem ones_byte (m : ℕ) : ones m = m % 2 + m / 2 % 2 + m / 4 % 2 + m / 8 % 2 + m / 16 % 2 + m / 32 % 2 + m / 64 % 2 +
    m / 128 % 2 + ones (m / 256) := by
  rw [ones_eq m, ones_eq (m / 2), ones_eq (m / 2 / 2), ones_eq (m / 2 / 2 / 2), ones_eq (m / 2 / 2 / 2 / 2),
    ones_eq (m / 2 / 2 / 2 / 2 / 2), ones_eq (m / 2 / 2 / 2 / 2 / 2 / 2), ones_eq (m / 2 / 2 / 2 / 2 / 2 / 2 / 2)]
  simp only [Nat.div_div_eq_div_mul]
  ring

theorem par_byte (m : ℕ) : par (w (BitVec.ofNat 8 m)) 32 = decide ((m % 2 + m / 2 % 2 + m / 4 % 2 + m / 8 % 2 + m / 16 % 2 +
    m / 32 % 2 + m / 64 % 2 + m / 128 % 2) % 2 = 1) := by
  have key : ∀ k < 256, par (w (BitVec.ofNat 8 k)) 32 = decide ((k % 2 + k / 2 % 2 + k / 4 % 2 + k / 8 % 2 + k / 16 % 2 +
    k / 32 % 2 + k / 64 % 2 + k / 128 % 2) % 2 = 1) := by decide +kernel
  have hb : BitVec.ofNat 8 m = BitVec.ofNat 8 (m % 256) := by
    apply BitVec.eq_of_toNat_eq; simp
  rw [hb, key (m % 256) (Nat.mod_lt _ (by norm_num))]
  have h1 : m % 256 % 2 = m % 2 := by omega
  have h2 : m % 256 / 2 % 2 = m / 2 % 2 := by omega
  have h3 : m % 256 / 4 % 2 = m / 4 % 2 := by omega
  have h4 : m % 256 / 8 % 2 = m / 8 % 2 := by omega
  have h5 : m % 256 / 16 % 2 = m / 16 % 2 := by omega
  have h6 : m % 256 / 32 % 2 = m / 32 % 2 := by omega
  have h7 : m % 256 / 64 % 2 = m / 64 % 2 := by omega
  have h8 : m % 256 / 128 % 2 = m / 128 % 2 := by omega
  rw [h1, h2, h3, h4, h5, h6, h7, h8]

theorem par_residue (m : ℕ) : par (residue m) 32 = decide (ones m % 2 = 1) := by
  induction m using Nat.strong_induction_on with
  | _ m ih =>
    by_cases h : m = 0
    · subst h; decide
    · rw [residue_eq, par_T, par_xor, ih (m / 256) (by omega), par_byte, ones_byte m]
      generalize m % 2 + m / 2 % 2 + m / 4 % 2 + m / 8 % 2 + m / 16 % 2 + m / 32 % 2 + m / 64 % 2 + m / 128 % 2 = a
      generalize ones (m / 256) = b
      rcases Nat.mod_two_eq_zero_or_one a with h1 | h1 <;> rcases Nat.mod_two_eq_zero_or_one b with h2 | h2 <;>
        simp [h1, h2, Nat.add_mod]

/-! ## the period of the register -/

/-- a linear map given by the images of the unit vectors, applied to a vector -/
def app : List (BitVec 32) → BitVec 32 → ℕ → BitVec 32
  | [], _, _ => 0#32
  | c :: M, v, i => (if v.getLsbD i then c else 0#32) ^^^ app M v (i + 1)

/-- `f` is given by the list `M` -/
def Gives (f : BitVec 32 → BitVec 32) (M : List (BitVec 32)) : Prop := M = (List.range 32).map fun i => f (1#32 <<< i)

/-- a vector cut off below bit `i` -/
def high (v : BitVec 32) (i : ℕ) : BitVec 32 := (v >>> i) <<< i

theorem high_bit (v : BitVec 32) (i j : ℕ) (hj : j < 32) : (high v i).getLsbD j = (v.getLsbD j && decide (i ≤ j)) := by
  unfold high
  rw [BitVec.getLsbD_shiftLeft, BitVec.getLsbD_ushiftRight]
  by_cases h : i ≤ j
  · simp [hj, h, show ¬ j < i by omega]
  · simp [h, show j < i by omega]

theorem one_bit (i j : ℕ) (hj : j < 32) : (1#32 <<< i).getLsbD j = decide (j = i) := by
  rw [BitVec.getLsbD_shiftLeft]
  by_cases h : j = i
  · subst h; simp [hj]
  · by_cases h' : j < i
    · simp [h, h']
    · have : (1#32).getLsbD (j - i) = false := by
        rw [BitVec.getLsbD_one]; simp; omega
      simp [h, h', this]

theorem high_succ (v : BitVec 32) (i : ℕ) : high v i = (if v.getLsbD i then 1#32 <<< i else 0#32) ^^^ high v (i + 1) := by
  apply BitVec.eq_of_getLsbD_eq
  intro j hj
  rw [BitVec.getLsbD_xor, high_bit v i j hj, high_bit v (i + 1) j hj]
  by_cases h : v.getLsbD i
  · rw [if_pos h, one_bit i j hj]
    by_cases hji : j = i
    · subst hji; simp [h]
    · by_cases hh : i ≤ j
      · simp [hji, hh, show i + 1 ≤ j by omega]
      · simp [hji, hh, show ¬ i + 1 ≤ j by omega]
  · rw [if_neg h]
    by_cases hji : j = i
    · subst hji; simp [h]
    · by_cases hh : i ≤ j
      · simp [hh, show i + 1 ≤ j by omega]
      · simp [hh, show ¬ i + 1 ≤ j by omega]

theorem app_gives (f : BitVec 32 → BitVec 32) (hf : ∀ a b, f (a ^^^ b) = f a ^^^ f b) (n i : ℕ) (hn : n + i = 32)
    (v : BitVec 32) : app ((List.range' i n).map fun i => f (1#32 <<< i)) v i = f (high v i) := by
  have f0 : f 0#32 = 0#32 := by
    have := hf 0#32 0#32; rw [BitVec.xor_zero] at this
    have h2 : f 0#32 ^^^ f 0#32 = 0#32 := BitVec.xor_self
    rw [← this] at h2; exact h2
  induction n generalizing i with
  | zero =>
    have : high v i = 0#32 := by
      apply BitVec.eq_of_getLsbD_eq
      intro j hj; rw [high_bit v i j hj, BitVec.getLsbD_zero]; simp; omega
    simp [app, this, f0]
  | succ n ih =>
    rw [List.range'_succ, List.map_cons, app, ih (i + 1) (by omega), high_succ v i, hf]
    congr 1
    split <;> simp [f0]

theorem app_eq (f : BitVec 32 → BitVec 32) (hf : ∀ a b, f (a ^^^ b) = f a ^^^ f b) (M : List (BitVec 32))
    (h : Gives f M) (v : BitVec 32) : app M v 0 = f v := by
  have := app_gives f hf 32 0 rfl v
  rw [h, List.range_eq_range', this]
  congr 1
  apply BitVec.eq_of_getLsbD_eq
  intro j hj; rw [high_bit v 0 j hj]; simp

/-- the square of a linear map -/
def sq (M : List (BitVec 32)) : List (BitVec 32) := M.map fun c => app M c 0

theorem sq_gives (k : ℕ) (M : List (BitVec 32)) (h : Gives stepBit^[k] M) : Gives stepBit^[2 * k] (sq M) := by
  have ha := app_eq _ (stepBit_iter_xor k) M h
  unfold Gives sq
  simp only [ha]
  rw [h, List.map_map]
  apply List.map_congr_left
  intro i _
  simp only [Function.comp]
  rw [two_mul, Function.iterate_add_apply]

/-- images of the unit vectors under one step -/
def M0 : List (BitVec 32) := (List.range 32).map fun i => stepBit (1#32 <<< i)

theorem sq_iter_gives (n : ℕ) : Gives stepBit^[2 ^ n] (sq^[n] M0) := by
  induction n with
  | zero => rfl
  | succ n ih =>
    rw [Function.iterate_succ_apply', pow_succ, Nat.mul_comm]
    exact sq_gives _ _ ih

theorem sq31 : sq^[31] M0 = M0 := by decide +kernel

theorem step_2_31 (v : BitVec 32) : stepBit^[2 ^ 31] v = stepBit v := by
  have h1 := app_eq _ (stepBit_iter_xor (2 ^ 31)) _ (sq_iter_gives 31) v
  have h2 := app_eq _ stepBit_xor M0 rfl v
  rw [sq31] at h1
  exact h1.symm.trans h2

theorem step_period (v : BitVec 32) : stepBit^[2 ^ 31 - 1] v = v := by
  apply stepBit_inj
  rw [← Function.iterate_succ_apply' stepBit]
  exact step_2_31 v

theorem prime_2_31_1 : Nat.Prime (2 ^ 31 - 1) := by
  have h331 : Nat.Prime 331 := by norm_num
  have h151 : Nat.Prime 151 := by norm_num
  have h31 : Nat.Prime 31 := by norm_num
  have h11 : Nat.Prime 11 := by norm_num
  have h7 : Nat.Prime 7 := by norm_num
  apply prime_of_pratt _ 7 [2, 3, 3, 7, 11, 31, 151, 331]
  · simp only [List.forall_mem_cons]
    exact ⟨prime_2, prime_3, prime_3, h7, h11, h31, h151, h331, by simp⟩
  · decide +kernel

/-- no shorter period for the unit vector -/
theorem step_aperiodic (d : ℕ) (h0 : 0 < d) (hd : d < 2 ^ 31 - 1) : stepBit^[d] 1#32 ≠ 1#32 := by
  intro h
  have hp : Function.IsPeriodicPt stepBit d 1#32 := h
  have hq : Function.IsPeriodicPt stepBit (2 ^ 31 - 1) 1#32 := step_period _
  have hg := hp.gcd hq
  have hc : Nat.gcd d (2 ^ 31 - 1) = 1 := by
    rw [Nat.gcd_comm]
    exact (Nat.Prime.coprime_iff_not_dvd prime_2_31_1).2 (fun hdvd => absurd (Nat.le_of_dvd h0 hdvd) (by omega))
  rw [hc] at hg
  exact absurd hg (by unfold Function.IsPeriodicPt Function.IsFixedPt; decide)

/-! ## two flipped bits -/

/-- number of division steps between bit `i` entering the register and the end -/
def depth (i : ℕ) : ℕ := 8 * (i / 8) + (8 - i % 8)

theorem T_iter_step (q : ℕ) (x : BitVec 32) : T^[q] x = stepBit^[8 * q] x := by
  have : T = stepBit^[8] := rfl
  rw [this, Function.iterate_mul]

theorem residue_bit (i : ℕ) : residue (2 ^ i) = stepBit^[depth i] 1#32 := by
  have h : 2 ^ i = (2 ^ (i % 8)) <<< (8 * (i / 8)) := by
    rw [Nat.shiftLeft_eq, ← pow_add]; congr 1; omega
  have key : ∀ s < 8, residue (2 ^ s) = stepBit^[8 - s] 1#32 := by decide +kernel
  rw [h, residue_shl, T_iter_step, key _ (Nat.mod_lt _ (by norm_num)), ← Function.iterate_add_apply]
  rfl

theorem depth_inj (i j : ℕ) (h : depth i = depth j) : i = j := by unfold depth at h; omega

theorem two_bits (i j : ℕ) (hij : i ≠ j) (hi : i < 2 ^ 31 - 8) (hj : j < 2 ^ 31 - 8) :
    residue (2 ^ i ^^^ 2 ^ j) ≠ 0#32 := by
  rw [residue_xor, residue_bit, residue_bit]
  intro h
  have h := xor_eq_zero h
  have hne : depth i ≠ depth j := fun h => hij (depth_inj i j h)
  have hi1 : 1 ≤ depth i ∧ depth i ≤ 2 ^ 31 - 8 := by unfold depth; omega
  have hj1 : 1 ≤ depth j ∧ depth j ≤ 2 ^ 31 - 8 := by unfold depth; omega
  rcases Nat.lt_or_gt_of_ne hne with hlt | hlt
  · obtain ⟨d, hd⟩ : ∃ d, depth j = depth i + d := ⟨depth j - depth i, by omega⟩
    rw [hd, Function.iterate_add_apply] at h
    exact step_aperiodic d (by omega) (by omega) (stepBit_inj.iterate _ h).symm
  · obtain ⟨d, hd⟩ : ∃ d, depth i = depth j + d := ⟨depth i - depth j, by omega⟩
    rw [hd, Function.iterate_add_apply] at h
    exact step_aperiodic d (by omega) (by omega) (stepBit_inj.iterate _ h)

theorem ones_zero (d : ℕ) (h : ones d = 0) : d = 0 := by
  induction d using Nat.strong_induction_on with
  | _ d ih =>
    by_cases h0 : d = 0
    · exact h0
    · rw [ones_eq] at h
      have := ih (d / 2) (by omega) (by omega)
      omega

theorem ones_one (d : ℕ) (h : ones d = 1) : ∃ i, d = 2 ^ i := by
  induction d using Nat.strong_induction_on with
  | _ d ih =>
    have h0 : d ≠ 0 := by rintro rfl; simp [ones] at h
    rw [ones_eq] at h
    by_cases hb : d % 2 = 0
    · obtain ⟨i, hi⟩ := ih (d / 2) (by omega) (by omega)
      exact ⟨i + 1, by rw [pow_succ]; omega⟩
    · have := ones_zero (d / 2) (by omega)
      exact ⟨0, by simp; omega⟩

theorem ones_two (d : ℕ) (h : ones d = 2) : ∃ i j, i ≠ j ∧ d = 2 ^ i ^^^ 2 ^ j := by
  induction d using Nat.strong_induction_on with
  | _ d ih =>
    have h0 : d ≠ 0 := by rintro rfl; simp [ones] at h
    rw [ones_eq] at h
    by_cases hb : d % 2 = 0
    · obtain ⟨i, j, hij, hi⟩ := ih (d / 2) (by omega) (by omega)
      refine ⟨i + 1, j + 1, by omega, ?_⟩
      have : d = (d / 2) <<< 1 := by rw [Nat.shiftLeft_eq]; omega
      rw [this, hi, Nat.shiftLeft_xor_distrib, Nat.shiftLeft_eq, Nat.shiftLeft_eq, pow_one, ← pow_succ, ← pow_succ]
    · obtain ⟨i, hi⟩ := ones_one (d / 2) (by omega)
      refine ⟨i + 1, 0, by omega, ?_⟩
      have : d = 2 * 2 ^ i + 1 := by omega
      rw [this, pow_succ, pow_zero, Nat.mul_comm]
      apply Nat.eq_of_testBit_eq
      intro k
      cases k with
      | zero => simp
      | succ k => simp [Nat.testBit_succ, Nat.xor_div_two]; congr 1; omega

end Crc
end Verif
