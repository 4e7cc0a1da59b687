import Verif.Lemmas.CrcSlice
import Mathlib.Data.Finset.Powerset

/-!
# Many registers at once, numbers packed into one

Like `CrcSlice`, with every 32nd register in use, so that the numbers that say how often the registers are stepped can be
read off one big number: number `i` starts at bit `32 * i`.
-/

namespace Verif
namespace Crc

open CrcSpec

/-- number `i` of `Z`, of `w` bits -/
def cell (w Z i : ℕ) : ℕ := (Z >>> (32 * i)) % 2 ^ w

/-- the masks of the digits `s`, `s + 1`, … (`w` of them) of all numbers -/
def digitsOf (Z s w : ℕ) : List ℕ := (List.range' s w).map fun j => Z >>> j

theorem val_digitsOf (Z s w p : ℕ) : val p (digitsOf Z s w) = (Z >>> (s + p)) % 2 ^ w := by
  induction w generalizing s with
  | zero => simp [digitsOf, val, Nat.mod_one]
  | succ w ih =>
    have : digitsOf Z s (w + 1) = Z >>> s :: digitsOf Z (s + 1) w := by simp [digitsOf, List.range'_succ]
    rw [this, val, ih, ← Nat.shiftRight_add, pow_succ', Nat.mod_mul, show s + 1 + p = s + p + 1 by omega, Nat.shiftRight_succ]

/-- bit `32 * i` for each `i < n` -/
def every (n : ℕ) : ℕ := (2 ^ (32 * n) - 1) / (2 ^ 32 - 1)

theorem every_mul (n : ℕ) : every n * (2 ^ 32 - 1) = 2 ^ (32 * n) - 1 := by
  refine Nat.div_mul_cancel ?_
  have := Nat.sub_dvd_pow_sub_pow (2 ^ 32) 1 n
  rwa [one_pow, ← pow_mul] at this

theorem every_succ (n : ℕ) : every (n + 1) = every n * 2 ^ 32 + 1 := by
  have h1 := every_mul n
  have h2 := every_mul (n + 1)
  have p : 0 < 2 ^ (32 * n) := Nat.two_pow_pos _
  rw [show 32 * (n + 1) = 32 * n + 32 by ring, pow_add] at h2
  generalize 2 ^ (32 * n) = q at *
  generalize every n = a at *
  generalize every (n + 1) = b at *
  norm_num at h1 h2 ⊢
  omega

theorem every_bit {n i : ℕ} (hi : i < n) : (every n).testBit (32 * i) = true := by
  induction n generalizing i with
  | zero => omega
  | succ n ih =>
    rw [every_succ]
    cases i with
    | zero => rw [Nat.mul_zero, Nat.testBit_zero]; norm_num; omega
    | succ i =>
      have : (every n * 2 ^ 32 + 1) / 2 ^ 32 = every n := by norm_num; omega
      rw [show 32 * (i + 1) = 32 * i + 32 by ring, ← Nat.testBit_div_two_pow, this]
      exact ih (by omega)

/-- the registers in `mask`; the others 0 -/
def onlyS (mask : ℕ) (S : List ℕ) : List ℕ := S.map fun s => s &&& mask

theorem onlyS_lane {mask : ℕ} {S : List ℕ} {i : ℕ} {v : BitVec 32} (h : Lane S i v) (hm : mask.testBit i = true) :
    Lane (onlyS mask S) i v := by
  refine ⟨by simpa [onlyS] using h.1, fun r hr => ?_⟩
  have e : (onlyS mask S).getD r 0 = S.getD r 0 &&& mask := by
    simp [onlyS, List.getD_eq_getElem?_getD, List.getElem?_eq_getElem (show r < S.length by rw [h.1]; exact hr)]
  rw [e, Nat.testBit_and, hm, Bool.and_true, h.2 r hr]

/-! ## Close logarithms -/

/-- The `s` numbers of `Z` increase, the last is less than `nx`, and if the next number is within `N` of number `i`, then it
is more than `N - b` away, where `a < b ≤ N` are the two bytes of number `i` of `K`; `f` bounds the depth of the recursion. -/
def sweepP (N : ℕ) : ℕ → ℕ → ℕ → ℕ → ℕ → Bool
  | 0, _, _, _, _ => false
  | f + 1, s, Z, K, nx =>
    bif Nat.beq s 1 then
      Nat.blt (Z % 2 ^ 31) nx && (Nat.blt N (nx - Z % 2 ^ 31 + (K >>> 8) % 2 ^ 8) &&
        (Nat.blt 0 (K % 2 ^ 8) && (Nat.blt (K % 2 ^ 8) ((K >>> 8) % 2 ^ 8) && Nat.ble ((K >>> 8) % 2 ^ 8) N)))
    else
      sweepP N f (s / 2) (Z % 2 ^ (32 * (s / 2))) (K % 2 ^ (32 * (s / 2))) (Z >>> (32 * (s / 2)) % 2 ^ 31) &&
      sweepP N f (s - s / 2) (Z >>> (32 * (s / 2))) (K >>> (32 * (s / 2))) nx

/-- what `sweepP` says about one number -/
def Fine (N z a b nx : ℕ) : Prop := z < nx ∧ N < nx - z + b ∧ 0 < a ∧ a < b ∧ b ≤ N

/-- number `i` of `s`, or `nx` -/
def nextC (s Z nx i : ℕ) : ℕ := if i < s then cell 31 Z i else nx

theorem cell_low {w h Z i : ℕ} (hw : w ≤ 32) (hi : i < h) : cell w (Z % 2 ^ (32 * h)) i = cell w Z i := by
  unfold cell
  apply Nat.eq_of_testBit_eq
  intro k
  rw [Nat.testBit_mod_two_pow, Nat.testBit_mod_two_pow, Nat.testBit_shiftRight, Nat.testBit_shiftRight,
    Nat.testBit_mod_two_pow]
  by_cases hk : k < w
  · have : 32 * i + k < 32 * h := by omega
    simp [this]
  · simp [hk]

theorem cell_high {w h Z i : ℕ} : cell w (Z >>> (32 * h)) i = cell w Z (h + i) := by
  unfold cell
  rw [← Nat.shiftRight_add, Nat.mul_add]

theorem cell8_low {h K i : ℕ} (hi : i < h) : cell 8 ((K % 2 ^ (32 * h)) >>> 8) i = cell 8 (K >>> 8) i := by
  unfold cell
  apply Nat.eq_of_testBit_eq
  intro k
  rw [Nat.testBit_mod_two_pow, Nat.testBit_mod_two_pow, Nat.testBit_shiftRight, Nat.testBit_shiftRight,
    Nat.testBit_shiftRight, Nat.testBit_shiftRight, Nat.testBit_mod_two_pow]
  by_cases hk : k < 8
  · have : 8 + (32 * i + k) < 32 * h := by omega
    simp [this]
  · simp [hk]

theorem sweepP_at {N f s Z K nx : ℕ} (h : sweepP N f s Z K nx = true) {i : ℕ} (hi : i < s) :
    Fine N (cell 31 Z i) (cell 8 K i) (cell 8 (K >>> 8) i) (nextC s Z nx (i + 1)) := by
  induction f generalizing s Z K nx i with
  | zero => cases h
  | succ f ih =>
    rw [sweepP] at h
    by_cases h1 : s = 1
    · subst h1
      obtain rfl : i = 0 := by omega
      rw [show Nat.beq 1 1 = true from rfl, cond_true] at h
      simp only [Bool.and_eq_true, Nat.blt_eq, Nat.ble_eq] at h
      simpa [Fine, nextC, cell] using h
    · rw [show Nat.beq s 1 = false by
        cases hb : Nat.beq s 1
        · rfl
        · exact absurd (Nat.eq_of_beq_eq_true hb) h1, cond_false, Bool.and_eq_true] at h
      obtain ⟨hl, hr⟩ := h
      by_cases hlt : i < s / 2
      · have := ih hl hlt
        rw [cell_low (by norm_num) hlt, cell_low (by norm_num) hlt, cell8_low hlt] at this
        convert this using 1
        unfold nextC
        by_cases h2 : i + 1 < s / 2
        · rw [if_pos h2, if_pos (by omega), cell_low (by norm_num) h2]
        · rw [if_neg h2, if_pos (by omega), show i + 1 = s / 2 by omega]; rfl
      · obtain ⟨j, rfl⟩ := Nat.exists_eq_add_of_le (not_lt.1 hlt)
        have := ih hr (i := j) (by omega)
        rw [cell_high, cell_high, ← Nat.shiftRight_add, Nat.add_comm _ 8, Nat.shiftRight_add, cell_high] at this
        convert this using 1
        unfold nextC
        by_cases h2 : s / 2 + j + 1 < s
        · rw [if_pos h2, if_pos (by omega), cell_high]; rfl
        · rw [if_neg h2, if_neg (by omega)]

/-- the last number leads back to the first -/
def Cyclic (N n Z K : ℕ) : Prop := ∀ i < n, Fine N (cell 31 Z i) (cell 8 K i) (cell 8 (K >>> 8) i)
  (nextC n Z (cell 31 Z 0 + (2 ^ 31 - 1)) (i + 1))

theorem Cyclic.mono {N n Z K : ℕ} (h : Cyclic N n Z K) {i j : ℕ} (hij : i < j) (hj : j < n) : cell 31 Z i < cell 31 Z j := by
  induction j with
  | zero => omega
  | succ j ih =>
    have hs := (h j (by omega)).1
    rw [nextC, if_pos hj] at hs
    rcases Nat.lt_succ_iff_lt_or_eq.1 hij with h' | rfl
    · exact (ih h' (by omega)).trans hs
    · exact hs

theorem Cyclic.le_last {N n Z K : ℕ} (h : Cyclic N n Z K) {i : ℕ} (hi : i < n) : cell 31 Z i < cell 31 Z 0 + (2 ^ 31 - 1) := by
  have hl := (h (n - 1) (by omega)).1
  rw [nextC, if_neg (by omega)] at hl
  rcases Nat.lt_or_ge i (n - 1) with h' | h'
  · exact (h.mono h' (by omega)).trans hl
  · rwa [show i = n - 1 by omega]

theorem Cyclic.range {N n Z K : ℕ} (h : Cyclic N n Z K) {i j : ℕ} (hi : i < n) (hj : j < n) :
    cell 31 Z i < cell 31 Z j + (2 ^ 31 - 1) := by
  have h1 := h.le_last hi
  rcases Nat.eq_zero_or_pos j with rfl | hp
  · exact h1
  · have := h.mono hp hj
    omega

/-- the next number of the cyclic sequence is more than `N - b` ahead -/
theorem Cyclic.gap {N n Z K : ℕ} (h : Cyclic N n Z K) {i j : ℕ} (hij : i < j) (hj : j < n) :
    N < cell 31 Z j - cell 31 Z i + cell 8 (K >>> 8) i := by
  have h1 := (h i (by omega)).2.1
  rw [nextC, if_pos (by omega)] at h1
  rcases Nat.eq_or_lt_of_le (Nat.succ_le_of_lt hij) with rfl | hlt
  · exact h1
  · have : cell 31 Z (i + 1) < cell 31 Z j := h.mono hlt hj
    omega

theorem Cyclic.gap_around {N n Z K : ℕ} (h : Cyclic N n Z K) {i j : ℕ} (hi : i < n) (hj : j < n) (hji : j ≤ i) :
    N < cell 31 Z j + (2 ^ 31 - 1) - cell 31 Z i + cell 8 (K >>> 8) i := by
  have h1 := (h i hi).2.1
  have h0 : cell 31 Z 0 ≤ cell 31 Z j := by
    rcases Nat.eq_zero_or_pos j with rfl | hp
    · exact le_rfl
    · exact (h.mono hp hj).le
  rw [nextC] at h1
  split_ifs at h1 with hn
  · have r := h.range hn hj
    omega
  · omega

theorem log1_unique {x y : ℕ} (hxy : x ≤ y) (h : stepBit^[x] 1#32 = stepBit^[y] 1#32) : 2 ^ 31 - 1 ∣ y - x := by
  obtain ⟨d, rfl⟩ := Nat.exists_eq_add_of_le hxy
  rw [Function.iterate_add_apply] at h
  have h := stepBit_inj.iterate x h
  have hd : Function.IsPeriodicPt stepBit d 1#32 := h.symm
  have hp : Function.IsPeriodicPt stepBit (2 ^ 31 - 1) 1#32 := step_period _
  rw [Nat.add_sub_cancel_left]
  rcases (Nat.dvd_prime prime_2_31_1).1 hp.minimalPeriod_dvd with h1 | h1
  · exact absurd (Function.minimalPeriod_eq_one_iff_isFixedPt.1 h1) (by unfold Function.IsFixedPt; decide)
  · rw [← h1]; exact hd.minimalPeriod_dvd

theorem Cyclic.no_shift {N n Z K : ℕ} (h : Cyclic N n Z K) (hN : N < 2 ^ 31 - 1) {i i' c : ℕ} (hi : i < n) (hi' : i' < n)
    (hc : 0 < c) (he : stepBit^[cell 31 Z i] 1#32 = stepBit^[c + cell 31 Z i'] 1#32) : N < c + cell 8 (K >>> 8) i' := by
  by_contra hlt
  have r1 := h.range hi hi'
  have r2 := h.range hi' hi
  have key : cell 31 Z i = c + cell 31 Z i' ∨ cell 31 Z i + (2 ^ 31 - 1) = c + cell 31 Z i' := by
    rcases Nat.le_total (cell 31 Z i) (c + cell 31 Z i') with hle | hle
    · obtain ⟨q, hq⟩ := log1_unique hle he
      rcases Nat.lt_or_ge q 2 with hq2 | hq2
      · interval_cases q <;> omega
      · have : (2 ^ 31 - 1) * 2 ≤ (2 ^ 31 - 1) * q := Nat.mul_le_mul_left _ hq2
        omega
    · obtain ⟨q, hq⟩ := log1_unique hle he.symm
      rcases Nat.eq_zero_or_pos q with rfl | hq2
      · omega
      · have : (2 ^ 31 - 1) * 1 ≤ (2 ^ 31 - 1) * q := Nat.mul_le_mul_left _ hq2
        omega
  rcases key with hk | hk
  · have hij : i' < i := by
      by_contra hge
      rcases Nat.eq_or_lt_of_le (not_lt.1 hge) with rfl | hlt
      · omega
      · have := h.mono hlt hi'
        omega
    have := h.gap hij hi
    omega
  · have hij : i ≤ i' := by
      by_contra hge
      have := h.mono (not_le.1 hge) hi
      omega
    have := h.gap_around hi' hi hij
    omega

theorem Cyclic.log_inj {N n Z K : ℕ} (h : Cyclic N n Z K) {i j : ℕ} (hi : i < n) (hj : j < n)
    (l : stepBit^[cell 31 Z i] 1#32 = stepBit^[cell 31 Z j] 1#32) : i = j := by
  have r1 := h.range hi hj
  have r2 := h.range hj hi
  by_contra hne
  rcases Nat.lt_or_gt_of_ne hne with hlt | hlt
  · have q1 := h.mono hlt hj
    exact absurd (Nat.le_of_dvd (by omega) (log1_unique q1.le l)) (by omega)
  · have q1 := h.mono hlt hi
    exact absurd (Nat.le_of_dvd (by omega) (log1_unique q1.le l.symm)) (by omega)

/-- if there are as many logarithms as pairs, all pairs have one -/
theorem Cyclic.log_all {N n Z K : ℕ} (h : Cyclic N n Z K) (hn : n = N.choose 2)
    (hl : ∀ i < n, stepBit^[cell 31 Z i] 1#32 =
      stepBit^[cell 8 K i] 1#32 ^^^ stepBit^[cell 8 (K >>> 8) i] 1#32 ^^^ 1#32) {a b : ℕ} (h0 : 0 < a) (hab : a < b)
    (hb : b ≤ N) : ∃ i < n, cell 8 K i = a ∧ cell 8 (K >>> 8) i = b := by
  let g : ℕ → Finset ℕ := fun i => {cell 8 K i, cell 8 (K >>> 8) i}
  have pair : ∀ {x y u v : ℕ}, x < y → u < v → ({x, y} : Finset ℕ) = {u, v} → x = u ∧ y = v := by
    intro x y u v hxy huv e
    have e1 : x = u ∨ x = v := by simpa using (Finset.ext_iff.1 e x).1 (by simp)
    have e2 : y = u ∨ y = v := by simpa using (Finset.ext_iff.1 e y).1 (by simp)
    omega
  have maps : Set.MapsTo g (Finset.range n) (Finset.powersetCard 2 (Finset.Icc 1 N)) := by
    intro i hi
    obtain ⟨_, _, f1, f2, f3⟩ := h i (Finset.mem_range.1 hi)
    rw [Finset.mem_coe, Finset.mem_powersetCard]
    refine ⟨?_, Finset.card_pair (by omega)⟩
    intro x hx
    simp only [g, Finset.mem_insert, Finset.mem_singleton] at hx
    rw [Finset.mem_Icc]
    omega
  have inj : Set.InjOn g (Finset.range n) := by
    intro i hi j hj e
    have hi := Finset.mem_range.1 hi
    have hj := Finset.mem_range.1 hj
    obtain ⟨e1, e2⟩ := pair (h i hi).2.2.2.1 (h j hj).2.2.2.1 e
    exact h.log_inj hi hj (by rw [hl i hi, hl j hj, e1, e2])
  have surj := Finset.surjOn_of_injOn_of_card_le g maps inj
    (by rw [Finset.card_powersetCard, Finset.card_range, Nat.card_Icc, Nat.add_sub_cancel, hn])
  obtain ⟨i, hi, e⟩ := surj (show ({a, b} : Finset ℕ) ∈ (Finset.powersetCard 2 (Finset.Icc 1 N) : Set (Finset ℕ)) by
    rw [Finset.mem_coe, Finset.mem_powersetCard]
    refine ⟨?_, Finset.card_pair (by omega)⟩
    intro x hx
    simp only [Finset.mem_insert, Finset.mem_singleton] at hx
    rw [Finset.mem_Icc]
    omega)
  have hi := Finset.mem_range.1 hi
  exact ⟨i, hi, pair (h i hi).2.2.2.1 hab e⟩

end Crc
end Verif
