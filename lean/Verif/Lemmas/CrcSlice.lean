import Verif.Lemmas.CrcErrors

/-!
# Powers of the register step for many registers at once

A list of 32 numbers stands for many registers: bit `i` of number `r` is bit `r` of register `i`.  Linear maps are given
in the same way by the images of the unit vectors.
-/

namespace Verif
namespace Crc

open CrcSpec

/-- register `i` of `S` is `v` -/
def Lane (S : List ℕ) (i : ℕ) (v : BitVec 32) : Prop := S.length = 32 ∧ ∀ r < 32, (S.getD r 0).testBit i = v.getLsbD r

/-- exclusive or of the numbers selected by the bits of `R` -/
def rowX (R : ℕ) : List ℕ → ℕ
  | [] => 0
  | s :: S => (bif R % 2 == 1 then s else 0) ^^^ rowX (R / 2) S

/-- the linear map given by `Rs`, applied to all registers -/
def appS (Rs S : List ℕ) : List ℕ := Rs.map fun R => rowX R S

/-- `f` is given by the rows `Rs` -/
def Rows (f : BitVec 32 → BitVec 32) (Rs : List ℕ) : Prop := ∀ k < 32, Lane Rs k (f (1#32 <<< k))

theorem rowX_bit (f : BitVec 32 → BitVec 32) (v : BitVec 32) (i r : ℕ) (hr : r < 32) (n j : ℕ) (hn : n + j = 32) (R : ℕ)
    (hR : ∀ k < 32, R.testBit k = (f (1#32 <<< k)).getLsbD r) (S : List ℕ) (hS : S.length = n)
    (hv : ∀ k < n, (S.getD k 0).testBit i = v.getLsbD (j + k)) :
    (rowX (R >>> j) S).testBit i = (app ((List.range' j n).map fun i => f (1#32 <<< i)) v j).getLsbD r := by
  induction n generalizing j S with
  | zero =>
    obtain rfl := List.length_eq_zero_iff.1 hS
    simp [rowX, app]
  | succ n ih =>
    obtain ⟨s, S, rfl⟩ : ∃ s T, S = s :: T := by cases S <;> simp_all
    rw [List.range'_succ, List.map_cons, app, rowX, Nat.testBit_xor, BitVec.getLsbD_xor]
    have e : R >>> j / 2 = R >>> (j + 1) := by rw [Nat.shiftRight_succ]
    rw [e, ih (j + 1) (by omega) S (by simpa using hS) (fun k hk => by
      have := hv (k + 1) (by omega)
      rw [show j + 1 + k = j + (k + 1) by omega, ← this]; simp)]
    congr 1
    have h0 := hv 0 (by omega)
    simp only [List.getD_cons_zero, Nat.add_zero] at h0
    have hb : (R >>> j % 2 == 1) = (f (1#32 <<< j)).getLsbD r := by
      rw [← hR j (by omega), Nat.testBit, Nat.and_comm, Nat.and_one_is_mod]
      rcases Nat.mod_two_eq_zero_or_one (R >>> j) with h | h <;> simp [h]
    rw [hb]
    cases h1 : (f (1#32 <<< j)).getLsbD r <;> cases h2 : v.getLsbD j <;> simp_all

theorem appS_lane {f : BitVec 32 → BitVec 32} (hf : ∀ a b, f (a ^^^ b) = f a ^^^ f b) {Rs S : List ℕ} (hR : Rows f Rs)
    {i : ℕ} {v : BitVec 32} (h : Lane S i v) : Lane (appS Rs S) i (f v) := by
  have hl := (hR 0 (by norm_num)).1
  refine ⟨by simpa [appS] using hl, fun r hr => ?_⟩
  have e : (appS Rs S).getD r 0 = rowX (Rs.getD r 0) S := by
    simp [appS, List.getD_eq_getElem?_getD, List.getElem?_eq_getElem (show r < Rs.length by omega)]
  have := rowX_bit f v i r hr 32 0 rfl (Rs.getD r 0) (fun k hk => (hR k hk).2 r hr) S h.1
    (fun k hk => by rw [Nat.zero_add]; exact h.2 k hk)
  rw [e, ← app_eq f hf _ rfl v, List.range_eq_range']
  exact this

/-- apply the map to the registers in `mask` -/
def stepS (Rs : List ℕ) (mask : ℕ) (S : List ℕ) : List ℕ :=
  List.zipWith (fun o n => o ^^^ ((o ^^^ n) &&& mask)) S (appS Rs S)

theorem stepS_lane {f : BitVec 32 → BitVec 32} (hf : ∀ a b, f (a ^^^ b) = f a ^^^ f b) {Rs S : List ℕ} (hR : Rows f Rs)
    {i : ℕ} {v : BitVec 32} (h : Lane S i v) (mask : ℕ) :
    Lane (stepS Rs mask S) i (if mask.testBit i then f v else v) := by
  have h' := appS_lane hf hR h
  refine ⟨by simp [stepS, h.1, h'.1], fun r hr => ?_⟩
  have e : (stepS Rs mask S).getD r 0 = (S.getD r 0) ^^^ (((S.getD r 0) ^^^ ((appS Rs S).getD r 0)) &&& mask) := by
    simp only [stepS, List.getD_eq_getElem?_getD, List.getElem?_zipWith,
      List.getElem?_eq_getElem (show r < S.length by rw [h.1]; exact hr),
      List.getElem?_eq_getElem (show r < (appS Rs S).length by rw [h'.1]; exact hr), Option.getD_some]
  rw [e, Nat.testBit_xor, Nat.testBit_and, Nat.testBit_xor, h.2 r hr, h'.2 r hr]
  cases mask.testBit i
  · simp
  · generalize v.getLsbD r = a
    rw [if_pos rfl]
    generalize (f v).getLsbD r = b
    cases a <;> cases b <;> rfl

/-- the number whose binary digits in register `i` are given by the masks, lowest first -/
def val (i : ℕ) : List ℕ → ℕ
  | [] => 0
  | m :: ms => m >>> i % 2 + 2 * val i ms

/-- as many steps of each register as `val` says, if `Rs` gives one step -/
def powS : List ℕ → List ℕ → List ℕ → List ℕ
  | _, [], S => S
  | Rs, m :: ms, S => powS (appS Rs Rs) ms (stepS Rs m S)

theorem powS_lane (ms : List ℕ) (j : ℕ) {Rs S : List ℕ} (hR : Rows stepBit^[2 ^ j] Rs) {i : ℕ} {v : BitVec 32}
    (h : Lane S i v) : Lane (powS Rs ms S) i (stepBit^[2 ^ j * val i ms] v) := by
  induction ms generalizing j Rs S v with
  | nil => simpa [powS, val] using h
  | cons m ms ih =>
    have hs := stepS_lane (stepBit_iter_xor _) hR h m
    have hR' : Rows stepBit^[2 ^ (j + 1)] (appS Rs Rs) := by
      intro k hk
      have := appS_lane (stepBit_iter_xor _) hR (hR k hk)
      rwa [← Function.iterate_add_apply, ← two_mul, Nat.mul_comm, ← pow_succ] at this
    have := ih (j + 1) hR' hs
    rw [powS, val]
    convert this using 1
    have hb : m.testBit i = (m >>> i % 2 == 1) := by
      rw [Nat.testBit, Nat.and_comm, Nat.and_one_is_mod]
      rcases Nat.mod_two_eq_zero_or_one (m >>> i) with h | h <;> simp [h]
    rw [hb]
    rcases Nat.mod_two_eq_zero_or_one (m >>> i) with h | h
    · simp only [h]
      rw [if_neg (by simp)]
      congr 1; ring_nf
    · simp only [h]
      rw [if_pos (by simp), ← Function.iterate_add_apply]
      congr 1; ring_nf

/-- rows of one step -/
def rows0 : List ℕ := (List.range 32).map fun r => 2 ^ (r + 1) % 2 ^ 32 + poly.toNat >>> r % 2

theorem rows0_rows : Rows stepBit^[2 ^ 0] rows0 := by
  have : ∀ k < 32, ∀ r < 32, (rows0.getD r 0).testBit k = (stepBit (1#32 <<< k)).getLsbD r := by decide +kernel
  exact fun k hk => ⟨by decide, this k hk⟩

/-- `n` registers that hold `c` -/
def const (n : ℕ) (c : BitVec 32) : List ℕ := (List.range 32).map fun r => bif c.getLsbD r then 2 ^ n - 1 else 0

theorem const_lane {n i : ℕ} (hi : i < n) (c : BitVec 32) : Lane (const n c) i c := by
  refine ⟨by simp [const], fun r hr => ?_⟩
  have : (const n c).getD r 0 = bif c.getLsbD r then 2 ^ n - 1 else 0 := by
    simp [const, List.getD_eq_getElem?_getD, hr]
  rw [this]
  cases c.getLsbD r <;> simp [Nat.testBit_two_pow_sub_one, hi]

/-- exclusive or of registers -/
def xorS (S T : List ℕ) : List ℕ := List.zipWith (· ^^^ ·) S T

theorem xorS_lane {S T : List ℕ} {i : ℕ} {v w : BitVec 32} (h : Lane S i v) (h' : Lane T i w) :
    Lane (xorS S T) i (v ^^^ w) := by
  refine ⟨by simp [xorS, h.1, h'.1], fun r hr => ?_⟩
  have e : (xorS S T).getD r 0 = (S.getD r 0) ^^^ (T.getD r 0) := by
    simp only [xorS, List.getD_eq_getElem?_getD, List.getElem?_zipWith,
      List.getElem?_eq_getElem (show r < S.length by rw [h.1]; exact hr),
      List.getElem?_eq_getElem (show r < T.length by rw [h'.1]; exact hr), Option.getD_some]
  rw [e, Nat.testBit_xor, BitVec.getLsbD_xor, h.2 r hr, h'.2 r hr]

theorem lane_unique {S : List ℕ} {i : ℕ} {v w : BitVec 32} (h : Lane S i v) (h' : Lane S i w) : v = w :=
  BitVec.eq_of_getLsbD_eq fun r hr => by rw [← h.2 r hr, ← h'.2 r hr]

/-! ## Close logarithms -/

/-- number `i` of a cyclic sequence of `n` logarithms -/
def cyc (n : ℕ) (ms : List ℕ) (i : ℕ) : ℕ := bif Nat.blt i n then val i ms else val (i - n) ms + (2 ^ 31 - 1)

/-- the logarithms from number `j` on are not within `N` of `z`, or their distance and `k` are more than `N` together;
`f` bounds the search -/
def scan (n N : ℕ) (ms : List ℕ) (z k : ℕ) : ℕ → ℕ → Bool
  | 0, _ => false
  | f + 1, j => Nat.blt N (cyc n ms j - z) || (Nat.blt N (cyc n ms j - z + k) && scan n N ms z k f (j + 1))

/-- the logarithms up to number `i` increase, and close ones are as `scan` wants -/
def sweep (n N : ℕ) (ms ks : List ℕ) : ℕ → Bool
  | 0 => true
  | i + 1 => Nat.blt (val i ms) (cyc n ms (i + 1)) && (scan n N ms (val i ms) (val i ks) 4 (i + 1) &&
      (Nat.blt 0 (val i ks) && (Nat.ble (val i ks) N && sweep n N ms ks i)))

theorem cyc_lt {n : ℕ} {ms : List ℕ} {i : ℕ} (h : i < n) : cyc n ms i = val i ms := by
  rw [cyc, show Nat.blt i n = true by simpa [Nat.blt_eq] using h]; rfl

theorem cyc_ge {n : ℕ} {ms : List ℕ} {i : ℕ} : cyc n ms (i + n) = val i ms + (2 ^ 31 - 1) := by
  rw [cyc, show Nat.blt (i + n) n = false by rw [← Bool.not_eq_true, Nat.blt_eq]; omega, Nat.add_sub_cancel]; rfl

theorem sweep_at {n N : ℕ} {ms ks : List ℕ} {m : ℕ} (h : sweep n N ms ks m = true) {i : ℕ} (hi : i < m) :
    val i ms < cyc n ms (i + 1) ∧ scan n N ms (val i ms) (val i ks) 4 (i + 1) = true ∧ 0 < val i ks ∧ val i ks ≤ N := by
  induction m with
  | zero => omega
  | succ m ih =>
    rw [sweep, Bool.and_eq_true, Bool.and_eq_true, Bool.and_eq_true, Bool.and_eq_true, Nat.blt_eq, Nat.blt_eq, Nat.ble_eq] at h
    obtain ⟨h1, h2, h3, h4, h5⟩ := h
    rcases Nat.lt_succ_iff_lt_or_eq.1 hi with h | rfl
    · exact ih h5 h
    · exact ⟨h1, h2, h3, h4⟩

theorem scan_at {n N : ℕ} {ms : List ℕ} {z k : ℕ} {f j : ℕ} (h : scan n N ms z k f j = true) {e : ℕ}
    (hm : ∀ x y, j ≤ x → x ≤ y → y ≤ e → cyc n ms x ≤ cyc n ms y) {x : ℕ} (hx : j ≤ x) (hxe : x ≤ e)
    (hN : cyc n ms x - z ≤ N) : N < cyc n ms x - z + k := by
  induction f generalizing j with
  | zero => cases h
  | succ f ih =>
    rw [scan, Bool.or_eq_true, Bool.and_eq_true, Nat.blt_eq, Nat.blt_eq] at h
    rcases h with h | ⟨h1, h2⟩
    · have := hm j x le_rfl hx hxe
      omega
    · rcases Nat.eq_or_lt_of_le hx with rfl | hlt
      · exact h1
      · exact ih h2 (fun a b ha => hm a b (by omega)) hlt

theorem cyc_mono {n N : ℕ} {ms ks : List ℕ} (h : sweep n N ms ks n = true) {i j : ℕ} (hij : i < j) (hj : j < 2 * n) :
    cyc n ms i < cyc n ms j := by
  induction j with
  | zero => omega
  | succ j ih =>
    have hs : cyc n ms j < cyc n ms (j + 1) := by
      rcases Nat.lt_or_ge j n with hjn | hjn
      · rw [cyc_lt hjn]; exact (sweep_at h hjn).1
      · obtain ⟨d, rfl⟩ := Nat.exists_eq_add_of_le' hjn
        have := (sweep_at h (i := d) (by omega)).1
        rw [cyc_lt (by omega)] at this
        rw [cyc_ge, show d + n + 1 = d + 1 + n by omega, cyc_ge]
        omega
    rcases Nat.lt_succ_iff_lt_or_eq.1 hij with h' | rfl
    · exact (ih h' (by omega)).trans hs
    · exact hs

theorem sweep_gap {n N : ℕ} {ms ks : List ℕ} (h : sweep n N ms ks n = true) {i j : ℕ} (hi : i < n) (hij : i < j)
    (hj : j < 2 * n) (hN : cyc n ms j - val i ms ≤ N) : N < cyc n ms j - val i ms + val i ks := by
  refine scan_at (sweep_at h hi).2.1 (e := 2 * n - 1) (fun x y _ h2 h3 => ?_) hij (by omega) hN
  rcases Nat.eq_or_lt_of_le h2 with rfl | hlt
  · exact le_rfl
  · exact (cyc_mono h hlt (by omega)).le

/-! ## Logarithms -/

/-- the difference of two neighbouring bits -/
def u1 : BitVec 32 := stepBit 1#32 ^^^ 1#32

theorem log_unique {x y : ℕ} (hxy : x ≤ y) (h : stepBit^[x] u1 = stepBit^[y] u1) : 2 ^ 31 - 1 ∣ y - x := by
  obtain ⟨d, rfl⟩ := Nat.exists_eq_add_of_le hxy
  rw [Function.iterate_add_apply] at h
  have h := stepBit_inj.iterate x h
  have hd : Function.IsPeriodicPt stepBit d u1 := h.symm
  have hp : Function.IsPeriodicPt stepBit (2 ^ 31 - 1) u1 := step_period _
  rw [Nat.add_sub_cancel_left]
  rcases (Nat.dvd_prime prime_2_31_1).1 hp.minimalPeriod_dvd with h1 | h1
  · exact absurd (Function.minimalPeriod_eq_one_iff_isFixedPt.1 h1) (by unfold Function.IsFixedPt; decide)
  · rw [← h1]; exact hd.minimalPeriod_dvd

/-- two logarithms of a sweep that differ by `c`, and the second number is small: impossible -/
theorem no_shift {n N : ℕ} {ms ks : List ℕ} (h : sweep n N ms ks n = true) (hN : N < 2 ^ 31 - 1) {i i' c : ℕ} (hi : i < n)
    (hi' : i' < n) (hc : 0 < c) (he : stepBit^[val i ms] u1 = stepBit^[c + val i' ms] u1) : N < c + val i' ks := by
  by_contra hlt
  have range : ∀ {a b}, a < n → b < n → val a ms < val b ms + (2 ^ 31 - 1) := by
    intro a b ha hb
    have := cyc_mono h (i := a) (j := b + n) (by omega) (by omega)
    rwa [cyc_ge, cyc_lt ha] at this
  have r1 := range hi hi'
  have r2 := range hi' hi
  have key : val i ms = c + val i' ms ∨ val i ms + (2 ^ 31 - 1) = c + val i' ms := by
    rcases Nat.le_total (val i ms) (c + val i' ms) with hle | hle
    · obtain ⟨q, hq⟩ := log_unique hle he
      rcases Nat.lt_or_ge q 2 with hq2 | hq2
      · interval_cases q <;> omega
      · have : (2 ^ 31 - 1) * 2 ≤ (2 ^ 31 - 1) * q := Nat.mul_le_mul_left _ hq2
        omega
    · obtain ⟨q, hq⟩ := log_unique hle he.symm
      rcases Nat.eq_zero_or_pos q with rfl | hq2
      · omega
      · have : (2 ^ 31 - 1) * 1 ≤ (2 ^ 31 - 1) * q := Nat.mul_le_mul_left _ hq2
        omega
  rcases key with hk | hk
  · have hij : i' < i := by
      by_contra hge
      rcases Nat.eq_or_lt_of_le (not_lt.1 hge) with rfl | hlt
      · omega
      · have := cyc_mono h hlt (by omega)
        rw [cyc_lt hi, cyc_lt hi'] at this
        omega
    have := sweep_gap h hi' hij (by omega)
    rw [cyc_lt hi] at this
    omega
  · have := sweep_gap h hi' (j := i + n) (by omega) (by omega)
    rw [cyc_ge] at this
    omega

theorem log_inj {n N : ℕ} {ms ks : List ℕ} (h : sweep n N ms ks n = true) {i j : ℕ} (hi : i < n) (hj : j < n)
    (l : stepBit^[val i ms] u1 = stepBit^[val j ms] u1) : i = j := by
  have range : ∀ {a b : ℕ}, a < b → b < n → val a ms < val b ms ∧ val b ms < val a ms + (2 ^ 31 - 1) := by
    intro a b hab hb
    have q1 := cyc_mono h hab (by omega)
    have q2 := cyc_mono h (i := b) (j := a + n) (by omega) (by omega)
    rw [cyc_lt hb] at q1 q2
    rw [cyc_lt (by omega)] at q1
    rw [cyc_ge] at q2
    exact ⟨q1, q2⟩
  by_contra hne
  rcases Nat.lt_or_gt_of_ne hne with hlt | hlt
  · obtain ⟨q1, q2⟩ := range hlt hj
    exact absurd (Nat.le_of_dvd (by omega) (log_unique q1.le l)) (by omega)
  · obtain ⟨q1, q2⟩ := range hlt hi
    exact absurd (Nat.le_of_dvd (by omega) (log_unique q1.le l.symm)) (by omega)

/-- if logarithms belong to numbers up to `n` and there are `n` of them, all numbers have one -/
theorem log_all {n : ℕ} {ms ks : List ℕ} (h : sweep n n ms ks n = true)
    (hl : ∀ i < n, ∀ j < n, val i ks = val j ks → stepBit^[val i ms] u1 = stepBit^[val j ms] u1) {a : ℕ} (h0 : 0 < a)
    (ha : a ≤ n) : ∃ i < n, val i ks = a := by
  let g : Fin n → Fin n := fun i => ⟨val i ks - 1, by
    have := (sweep_at h i.isLt).2.2
    omega⟩
  have hg : Function.Injective g := by
    intro i j hij
    have hij : val i ks - 1 = val j ks - 1 := congrArg Fin.val hij
    have p1 := (sweep_at h i.isLt).2.2
    have p2 := (sweep_at h j.isLt).2.2
    exact Fin.ext (log_inj h i.isLt j.isLt (hl _ i.isLt _ j.isLt (by omega)))
  obtain ⟨i, hi⟩ := (Finite.injective_iff_surjective.1 hg) ⟨a - 1, by omega⟩
  have hi : val i ks - 1 = a - 1 := congrArg Fin.val hi
  have := (sweep_at h i.isLt).2.2
  exact ⟨i, i.isLt, by omega⟩

end Crc
end Verif
