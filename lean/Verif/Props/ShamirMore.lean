import Mathlib.RingTheory.Int.Basic
import Verif.Props.Shamir
import Verif.Props.Ecc

/-!
# C91, C92: altered shares; one share too few
-/

namespace Verif
namespace Shamir

open Polynomial

/-- `∏ (X - x)` over a list -/
noncomputable def prodP (l : List K) : K[X] := (l.map fun x => X - C x).prod

theorem prodP_monic (l : List K) : (prodP l).Monic := by
  induction l with
  | nil => simp [prodP]
  | cons a l ih =>
    have h : prodP (a :: l) = (X - C a) * prodP l := by simp [prodP]
    rw [h]
    exact (monic_X_sub_C a).mul ih

theorem prodP_degree (l : List K) : (prodP l).degree = l.length := by
  induction l with
  | nil => simp [prodP]
  | cons a l ih =>
    have h : prodP (a :: l) = (X - C a) * prodP l := by simp [prodP]
    rw [h, degree_mul, ih, degree_X_sub_C, List.length_cons]
    push_cast
    exact add_comm _ _

theorem prodP_eval (l : List K) (y : K) : (prodP l).eval y = (l.map fun x => y - x).prod := by
  induction l with
  | nil => simp [prodP]
  | cons a l ih =>
    have h : prodP (a :: l) = (X - C a) * prodP l := by simp [prodP]
    rw [h, eval_mul, ih]
    simp

theorem prodP_eval_eq_zero {l : List K} {y : K} : (prodP l).eval y = 0 ↔ y ∈ l := by
  rw [prodP_eval, List.prod_eq_zero_iff]
  simp only [List.mem_map, sub_eq_zero]
  constructor
  · rintro ⟨a, h1, rfl⟩; exact h1
  · exact fun h => ⟨y, h, rfl⟩

/-- through points with different abscissae there is a polynomial -/
theorem exists_poly (s : List (K × K)) (hs : (xs s).Nodup) :
    ∃ f : K[X], f.degree < s.length ∧ ∀ p ∈ s, p.2 = f.eval p.1 := by
  induction s with
  | nil => exact ⟨0, by simp, by simp⟩
  | cons p s ih =>
    have h1 : p.1 ∉ xs s ∧ (xs s).Nodup := by simpa [xs] using hs
    obtain ⟨f, h2, h3⟩ := ih h1.2
    have h4 : (prodP (xs s)).eval p.1 ≠ 0 := fun h => h1.1 (prodP_eval_eq_zero.1 h)
    refine ⟨f + C ((p.2 - f.eval p.1) / (prodP (xs s)).eval p.1) * prodP (xs s), ?_, ?_⟩
    · refine lt_of_le_of_lt (degree_add_le _ _) (max_lt (h2.trans ?_) ?_)
      · exact_mod_cast Nat.lt_succ_self _
      · refine lt_of_le_of_lt (degree_mul_le _ _) (lt_of_le_of_lt (add_le_add_left degree_C_le _) ?_)
        rw [prodP_degree, zero_add]
        simp only [xs, List.length_map, List.length_cons]
        exact_mod_cast Nat.lt_succ_self _
    · intro q hq
      rw [eval_add, eval_mul, eval_C]
      rcases List.mem_cons.1 hq with rfl | hq
      · rw [div_mul_cancel₀ _ h4]; ring
      · rw [prodP_eval_eq_zero.2 (show q.1 ∈ xs s from List.mem_map.2 ⟨q, hq, rfl⟩), mul_zero, add_zero]
        exact h3 q hq

/-! ## C91 -/

/-- the shares with the given indices and values -/
def withValues (idxs vals : List Fld) : List Share := idxs.zipWith (fun x v => ⟨x, v⟩) vals

theorem withValues_map (is vs : List K) :
    withValues (is.map Fld.ofZ) (vs.map Fld.ofZ) = (is.zip vs).map fun p => mkShare p.1 p.2 := by
  induction is generalizing vs with
  | nil => rfl
  | cons i is ih =>
    cases vs with
    | nil => rfl
    | cons v vs =>
      have := ih vs
      simp only [withValues] at this ⊢
      simp [this, mkShare]

/-- the result as a function of the value of one share -/
theorem recon_affine (env : Env) (bs as : List (K × K)) (z : K) (hn : (xs bs ++ z :: xs as).Nodup) :
    ∃ a, ∀ u, reconSecret env ((bs ++ (z, u) :: as).map fun p => mkShare p.1 p.2) =
      .ok (Fld.ofZ (a + u * ((prodP (xs bs ++ xs as)).eval 0 / (prodP (xs bs ++ xs as)).eval z))) := by
  have hxs : ∀ y : K, xs (bs ++ (z, y) :: as) = xs bs ++ z :: xs as := by
    intro y
    simp [xs]
  have hz : (prodP (xs bs ++ xs as)).eval z ≠ 0 := by
    rw [Ne, prodP_eval_eq_zero]
    have : (z :: (xs bs ++ xs as)).Nodup := (List.perm_middle.nodup_iff).1 hn
    exact (List.nodup_cons.1 this).1
  obtain ⟨f, f1, f2⟩ := exists_poly (bs ++ (z, 0) :: as) (by rw [hxs]; exact hn)
  refine ⟨f.eval 0, fun u => ?_⟩
  rw [recon_poly env (f + C (u / (prodP (xs bs ++ xs as)).eval z) * prodP (xs bs ++ xs as)) _ (by rw [hxs]; exact hn),
    eval_add, eval_mul, eval_C]
  · congr 2
    ring
  · intro p hp
    rw [eval_add, eval_mul, eval_C]
    have hp' : p ∈ bs ++ as ∨ p = (z, u) := by
      simp only [List.mem_append, List.mem_cons] at hp ⊢; tauto
    rcases hp' with h | rfl
    · rw [prodP_eval_eq_zero.2 (show p.1 ∈ xs bs ++ xs as by
        rw [xs, xs, ← List.map_append]; exact List.mem_map.2 ⟨p, h, rfl⟩), mul_zero, add_zero]
      exact f2 p (by simp only [List.mem_append, List.mem_cons] at h ⊢; tauto)
    · have := f2 (z, 0) (by simp)
      simp only at this ⊢
      rw [← this, div_mul_cancel₀ _ hz, zero_add]
  · have hl : (bs ++ (z, u) :: as).length = (bs ++ (z, 0) :: as).length := by simp
    rw [hl]
    refine lt_of_le_of_lt (degree_add_le _ _) (max_lt f1 ?_)
    refine lt_of_le_of_lt (degree_mul_le _ _) (lt_of_le_of_lt (add_le_add_left degree_C_le _) ?_)
    rw [prodP_degree, zero_add]
    simp only [xs, List.length_append, List.length_map, List.length_cons]
    exact_mod_cast (by omega : bs.length + as.length < bs.length + (as.length + 1))

/-- C91 is false: a single shareholder, knowing nothing but the indices of the shares that will be used, can add any
chosen `d` to the secret: there is an amount, the same for all values of all shares, by which to alter their own
share.  `reconSecret` returns as usual. -/
theorem C91_shift_counterexample (env : Env) {before after : List Fld} {x d : Fld}
    (hx : ∀ y ∈ before ++ x :: after, IsElem secpN y) (hnd : (before ++ x :: after).Nodup)
    (h0 : ∀ y ∈ before ++ after, y.value ≠ 0) (hd : IsElem secpN d) :
    ∃ δ, IsElem secpN δ ∧ ∀ (vb va : List Fld) (v : Fld), vb.length = before.length → va.length = after.length →
      IsElem secpN v → (∀ w ∈ vb ++ va, IsElem secpN w) →
      Ends (v.add env secpN δ) fun v' => Ends (reconSecret env (withValues before vb ++ ⟨x, v⟩ :: withValues after va))
        fun r => reconSecret env (withValues before vb ++ ⟨x, v'⟩ :: withValues after va) = r.add env secpN d := by
  obtain ⟨bs, rfl⟩ := lift_list (l := before) fun y hy => hx y (by simp [hy])
  obtain ⟨as, rfl⟩ := lift_list (l := after) fun y hy => hx y (by simp [hy])
  obtain ⟨z, rfl⟩ := isElem_iff.1 (hx x (by simp))
  obtain ⟨c, rfl⟩ := isElem_iff.1 hd
  have hn : (bs ++ z :: as).Nodup := List.Nodup.of_map Fld.ofZ (by simpa using hnd)
  have hP : (prodP (bs ++ as)).eval 0 ≠ 0 := by
    rw [Ne, prodP_eval_eq_zero]
    intro h
    exact h0 (Fld.ofZ 0) (by rw [← List.map_append]; exact List.mem_map.2 ⟨0, h, rfl⟩) (by simp)
  have hZ : (prodP (bs ++ as)).eval z ≠ 0 := by
    rw [Ne, prodP_eval_eq_zero]
    exact (List.nodup_cons.1 ((List.perm_middle.nodup_iff).1 hn)).1
  refine ⟨Fld.ofZ (c * (prodP (bs ++ as)).eval z / (prodP (bs ++ as)).eval 0), isElem_ofZ _, ?_⟩
  intro vb va v h1 h2 hv hw
  obtain ⟨ws, rfl⟩ := lift_list (l := vb) fun y hy => hw y (by simp [hy])
  obtain ⟨us, rfl⟩ := lift_list (l := va) fun y hy => hw y (by simp [hy])
  obtain ⟨u, rfl⟩ := isElem_iff.1 hv
  simp only [List.length_map] at h1 h2
  refine ⟨_, Fld.add_ofZ env _ _, ?_⟩
  have hsh : ∀ y : K, withValues (bs.map Fld.ofZ) (ws.map Fld.ofZ) ++ ⟨Fld.ofZ z, Fld.ofZ y⟩ ::
      withValues (as.map Fld.ofZ) (us.map Fld.ofZ) =
      (bs.zip ws ++ (z, y) :: as.zip us).map fun p => mkShare p.1 p.2 := by
    intro y
    simp [withValues_map, mkShare]
  have hb : xs (bs.zip ws) = bs := List.map_fst_zip h1.ge
  have ha : xs (as.zip us) = as := List.map_fst_zip h2.ge
  obtain ⟨a, h⟩ := recon_affine env (bs.zip ws) (as.zip us) z (by rw [hb, ha]; exact hn)
  rw [hb, ha] at h
  refine ⟨_, by rw [hsh]; exact h u, ?_⟩
  dsimp only
  rw [hsh, h, Fld.add_ofZ]
  congr 2
  field_simp
  ring

/-- C91 (part): every alteration of one share changes the result; indeed each result comes from exactly one value of
it.
Missing: that the alteration is noticed (see the counterexample). -/
theorem C91_changes_partial (env : Env) {before after : List Share} {x w : Fld}
    (hs : ∀ s ∈ before ++ after, IsElem secpN s.idx ∧ IsElem secpN s.val ∧ s.idx.value ≠ 0) (hx : IsElem secpN x)
    (hnd : (before.map (fun s => s.idx) ++ x :: after.map fun s => s.idx).Nodup) (hw : IsElem secpN w) :
    ∃! v, IsElem secpN v ∧ reconSecret env (before ++ ⟨x, v⟩ :: after) = .ok w := by
  obtain ⟨bs, rfl⟩ := lift_shares (l := before) fun s h => ⟨(hs s (by simp [h])).1, (hs s (by simp [h])).2.1⟩
  obtain ⟨as, rfl⟩ := lift_shares (l := after) fun s h => ⟨(hs s (by simp [h])).1, (hs s (by simp [h])).2.1⟩
  obtain ⟨z, rfl⟩ := isElem_iff.1 hx
  obtain ⟨y, rfl⟩ := isElem_iff.1 hw
  have hn : (xs bs ++ z :: xs as).Nodup := List.Nodup.of_map Fld.ofZ (by
    simpa [xs, Function.comp_def, mkShare] using hnd)
  have hP : (prodP (xs bs ++ xs as)).eval 0 ≠ 0 := by
    rw [Ne, prodP_eval_eq_zero, xs, xs, ← List.map_append]
    intro h
    obtain ⟨p, hp, hp0⟩ := List.mem_map.1 h
    refine (hs (mkShare p.1 p.2) (by rw [← List.map_append]; exact List.mem_map.2 ⟨p, hp, rfl⟩)).2.2 ?_
    simp [mkShare, hp0]
  have hZ : (prodP (xs bs ++ xs as)).eval z ≠ 0 := by
    rw [Ne, prodP_eval_eq_zero]
    exact (List.nodup_cons.1 ((List.perm_middle.nodup_iff).1 hn)).1
  obtain ⟨a, h⟩ := recon_affine env bs as z hn
  have hsh : ∀ u : K, (bs.map fun p => mkShare p.1 p.2) ++ ⟨Fld.ofZ z, Fld.ofZ u⟩ :: (as.map fun p => mkShare p.1 p.2) =
      (bs ++ (z, u) :: as).map fun p => mkShare p.1 p.2 := by
    intro u
    simp [mkShare]
  refine ⟨Fld.ofZ ((y - a) * ((prodP (xs bs ++ xs as)).eval z / (prodP (xs bs ++ xs as)).eval 0)), ⟨isElem_ofZ _, ?_⟩, ?_⟩
  · rw [hsh, h]
    congr 2
    field_simp
    ring
  · rintro v ⟨hv, he⟩
    obtain ⟨u, rfl⟩ := isElem_iff.1 hv
    rw [hsh, h] at he
    have := Fld.ofZ_injective (Except.ok.inj he)
    rw [← this]
    congr 1
    field_simp
    ring

/-- the first of three shareholders adds 1000 to the secret 5 -/
example : (do
    let sh ← getShares env0 2 3 (Fld.mk' secpN 5) (fun _ => 41)
    reconSecret env0 (sh.take 2)) = .ok (Fld.mk' secpN 5) ∧ (do
    let sh ← getShares env0 2 3 (Fld.mk' secpN 5) (fun _ => 41)
    let v ← ((sh.head?.getD ⟨Fld.zero secpN, Fld.zero secpN⟩).val).add env0 secpN (Fld.mk' secpN 500)
    reconSecret env0 (⟨Fld.mk' secpN 1, v⟩ :: (sh.take 2).drop 1)) = .ok (Fld.mk' secpN 1005) := by
  refine ⟨by decide +kernel, by decide +kernel⟩
example : ([Fld.mk' secpN 1] ++ Fld.mk' secpN 2 :: [Fld.mk' secpN 3]).Nodup := by decide +kernel

/-! ## C92 -/

theorem polyOf_append (cs ds : List K) : polyOf (cs ++ ds) = polyOf cs + X ^ cs.length * polyOf ds := by
  induction cs with
  | nil => simp [polyOf]
  | cons c cs ih => simp only [List.cons_append, polyOf, ih, List.length_cons]; ring

/-- C92, exact result: `t - 1` different shares give the secret plus or minus the last coefficient times the product of
their indices.  The coefficient is one of `0, …, 99`, so `t - 1` shares leave a hundred candidates for the secret. -/
theorem C92_exact (env : Env) {t n : ℕ} (ht : 2 ≤ t) (ht' : t ≤ 2 ^ 58 - 1) (hn : n ≤ 2 ^ 57 - 1)
    {secret : Fld} (hs : IsElem secpN secret) {rand : ℕ → ℤ} (hr : GoodRand rand) :
    Ends (getShares env t n secret rand) fun shares =>
      ∀ sel : List Share, sel.Nodup → (∀ s ∈ sel, s ∈ shares) → sel.length + 1 = t →
        Ends (reconSecret env sel) fun r => IsElem secpN r ∧
          r.value ≡ secret.value + (-1) ^ t * ((rand (t - 2) + 1) % 100) * (sel.map fun s => s.idx.value).prod
            [ZMOD secpN] := by
  obtain ⟨y, rfl⟩ := isElem_iff.1 hs
  refine ⟨_, getShares_ok env t n (by omega) ht' hn y rand (fun i _ => by have := (hr i).2; omega), ?_⟩
  intro sel hsel hsub hlen
  obtain ⟨s, rfl, h2⟩ := sel_pairs hsub
  have hx := nodup_xs h2 hsel
  simp only [List.length_map] at hlen
  have hc : coeffs t y rand = coeffs (t - 1) y rand ++ [coeffOf (rand (t - 2))] := by
    have : t - 1 = (t - 2) + 1 := by omega
    simp only [coeffs, this, List.range_succ, List.map_append, List.cons_append]
    simp
  have hl : (coeffs (t - 1) y rand).length = s.length := by rw [coeffs_length _ (by omega)]; omega
  have hxl : (xs s).length = s.length := by simp [xs]
  have hp : polyOf (coeffs t y rand) = polyOf (coeffs (t - 1) y rand) + X ^ s.length * C (coeffOf (rand (t - 2))) := by
    rw [hc, polyOf_append, hl]
    simp [polyOf]
  refine ⟨_, recon_poly env (polyOf (coeffs (t - 1) y rand) +
    C (coeffOf (rand (t - 2))) * (X ^ s.length - prodP (xs s))) s hx ?_ ?_, isElem_ofZ _, ?_⟩
  · intro p hp'
    rw [h2 p hp', hp]
    simp only [eval_add, eval_mul, eval_sub, eval_C, eval_pow, eval_X,
      prodP_eval_eq_zero.2 (show p.1 ∈ xs s from List.mem_map.2 ⟨p, hp', rfl⟩)]
    ring
  · refine lt_of_le_of_lt (degree_add_le _ _) (max_lt (by rw [← hl]; exact polyOf_degree _) ?_)
    refine lt_of_le_of_lt (degree_mul_le _ _) (lt_of_le_of_lt (add_le_add_left degree_C_le _) ?_)
    rw [zero_add]
    have hd : (X ^ s.length : K[X]).degree = (prodP (xs s)).degree := by rw [prodP_degree, hxl, degree_X_pow]
    have := degree_sub_lt_left hd (pow_ne_zero _ X_ne_zero) (by
      rw [(prodP_monic _).leadingCoeff, (monic_X_pow s.length).leadingCoeff])
    rwa [degree_X_pow] at this
  · have hs0 : s.length ≠ 0 := by omega
    have h3 : ((s.map fun p => mkShare p.1 p.2).map fun s => s.idx.value).prod =
        ((xs s).map fun x : K => (x.val : ℤ)).prod := by
      simp [xs, Function.comp_def, mkShare, Fld.ofZ]
    have h4 : ((((xs s).map fun x : K => (x.val : ℤ)).prod : ℤ) : K) = (xs s).prod := by
      induction xs s with
      | nil => simp
      | cons a l ih => rw [List.map_cons, List.prod_cons, Int.cast_mul, ih]; simp
    have h5 : (prodP (xs s)).eval 0 = (-1) ^ (t - 1) * (xs s).prod := by
      rw [prodP_eval, show t - 1 = (xs s).length by omega]
      induction xs s with
      | nil => simp
      | cons a l ih => simp only [List.map_cons, List.prod_cons, ih, List.length_cons]; ring
    rw [h3, ← ZMod.intCast_eq_intCast_iff]
    simp only [Fld.ofZ, eval_add, eval_mul, eval_sub, eval_C, eval_pow, eval_X, h5, coeffs, polyOf_eval_zero,
      zero_pow hs0]
    rw [Int.cast_add, Int.cast_mul, Int.cast_mul, h4, Int.cast_natCast, Int.cast_natCast, ZMod.natCast_zmod_val,
      ZMod.natCast_zmod_val, Int.cast_pow, Int.cast_neg, Int.cast_one,
      show (-1 : K) ^ t = (-1) ^ (t - 1) * -1 by rw [← pow_succ, show t - 1 + 1 = t by omega], coeffOf]
    ring

/-- C92 is false: `t - 1` shares give the secret back exactly if the last of the draws leaves the remainder 99 modulo
100. -/
theorem C92_counterexample (env : Env) {t n : ℕ} (ht : 2 ≤ t) (ht' : t ≤ 2 ^ 58 - 1) (hn : n ≤ 2 ^ 57 - 1)
    {secret : Fld} (hs : IsElem secpN secret) {rand : ℕ → ℤ} (hr : GoodRand rand) :
    Ends (getShares env t n secret rand) fun shares =>
      ∀ sel : List Share, sel.Nodup → (∀ s ∈ sel, s ∈ shares) → sel.length + 1 = t →
        (reconSecret env sel = .ok secret ↔ rand (t - 2) % 100 = 99) := by
  obtain ⟨shares, h1, h2⟩ := C92_exact env ht ht' hn hs hr
  obtain ⟨shares', h1', -, h3⟩ := C20_indices env (by omega) ht' hn hs hr
  obtain rfl := Except.ok.inj (h1.symm.trans h1')
  refine ⟨_, h1, fun sel a b c => ?_⟩
  obtain ⟨r, h4, h5, h6⟩ := h2 sel a b c
  have hr0 := hr (t - 2)
  have hp : Prime (secpN : ℤ) := Int.prime_iff_natAbs_prime.2 (by simpa using secpN_prime)
  have hbig : (100 : ℤ) < secpN := by decide
  have hprod : ¬ (secpN : ℤ) ∣ (sel.map fun s => s.idx.value).prod := by
    rw [Prime.dvd_prod_iff hp]
    rintro ⟨v, hv, hd⟩
    obtain ⟨s, hs', rfl⟩ := List.mem_map.1 hv
    have : s.idx ∈ shares.map fun s => s.idx := List.mem_map.2 ⟨s, b s hs', rfl⟩
    rw [h3] at this
    obtain ⟨j, hj, hj'⟩ := List.mem_map.1 this
    rw [← hj'] at hd
    rw [List.mem_range'_1] at hj
    have hm : 2 ^ 57 - 1 + 1 < secpN := by decide
    have := Int.le_of_dvd (by simp only; omega) hd
    simp only at this
    omega
  rw [h4]
  constructor
  · intro h
    obtain rfl := Except.ok.inj h
    have h7 : (secpN : ℤ) ∣ (-1) ^ t * ((rand (t - 2) + 1) % 100) * (sel.map fun s => s.idx.value).prod := by
      have := h6.dvd
      rwa [add_sub_cancel_left] at this
    rcases hp.dvd_or_dvd h7 with h8 | h8
    · rcases hp.dvd_or_dvd h8 with h9 | h9
      · exact absurd (hp.dvd_of_dvd_pow h9) (by rw [dvd_neg]; exact fun h => hp.not_isUnit (isUnit_of_dvd_one h))
      · have := Int.eq_zero_of_abs_lt_dvd h9 (by rw [abs_lt]; constructor <;> omega)
        omega
    · exact absurd h8 hprod
  · intro h
    have h7 : (rand (t - 2) + 1) % 100 = 0 := by omega
    rw [h7, mul_zero, zero_mul, add_zero] at h6
    obtain ⟨u, rfl⟩ := isElem_iff.1 h5
    obtain ⟨y, rfl⟩ := isElem_iff.1 hs
    rw [← ZMod.intCast_eq_intCast_iff] at h6
    simp only [Fld.ofZ, Int.cast_natCast, ZMod.natCast_zmod_val] at h6
    rw [h6]

/-- C92 is false: if the last draws all leave the remainder 99 modulo 100, the smaller number `m` of shares is enough;
a single one if all draws do. -/
theorem C92_fewer_counterexample (env : Env) {t n m : ℕ} (hm : 1 ≤ m) (hmt : m ≤ t) (ht' : t ≤ 2 ^ 58 - 1)
    (hn : n ≤ 2 ^ 57 - 1) {secret : Fld} (hs : IsElem secpN secret) {rand : ℕ → ℤ} (hr : GoodRand rand)
    (h : ∀ i, m - 1 ≤ i → i < t - 1 → rand i % 100 = 99) :
    Ends (getShares env t n secret rand) fun shares =>
      ∀ sel : List Share, sel.Nodup → (∀ s ∈ sel, s ∈ shares) → m ≤ sel.length → reconSecret env sel = .ok secret := by
  obtain ⟨y, rfl⟩ := isElem_iff.1 hs
  refine ⟨_, getShares_ok env t n (by omega) ht' hn y rand (fun i _ => by have := (hr i).2; omega), ?_⟩
  intro sel hsel hsub hlen
  obtain ⟨d, rfl⟩ : ∃ d, t = m + d := ⟨t - m, by omega⟩
  have hz : ∀ d, (∀ i, m - 1 ≤ i → i < m + d - 1 → rand i % 100 = 99) →
      polyOf (coeffs (m + d) y rand) = polyOf (coeffs m y rand) := by
    intro d hd
    induction d with
    | zero => rfl
    | succ d ih =>
      have hc : coeffs (m + (d + 1)) y rand = coeffs (m + d) y rand ++ [coeffOf (rand (m + d - 1))] := by
        have : m + (d + 1) - 1 = (m + d - 1) + 1 := by omega
        simp only [coeffs, this, List.range_succ, List.map_append, List.cons_append]
        simp
      have h0 : coeffOf (rand (m + d - 1)) = 0 := by
        have := hd (m + d - 1) (by omega) (by omega)
        rw [coeffOf, show (rand (m + d - 1) + 1) % 100 = 0 by omega]
        simp
      rw [hc, polyOf_append, h0]
      simp only [polyOf, C_0, mul_zero, add_zero]
      exact ih fun i h1 h2 => hd i h1 (by omega)
  have hdeg := polyOf_degree (coeffs m y rand)
  rw [coeffs_length m hm] at hdeg
  simp only [hz d h] at hsub
  rw [recon_sel env hsel hsub (lt_of_lt_of_le hdeg (by exact_mod_cast hlen)), coeffs, polyOf_eval_zero]

/-- one share of three gives a secret with threshold 3 back when the draws are 99 and 1099; with 99 and 5, two do not -/
example : GoodRand (fun i => if i = 0 then 99 else 1099) ∧ (do
    let sh ← getShares env0 3 3 (Fld.mk' secpN 7) (fun i => if i = 0 then 99 else 1099)
    reconSecret env0 (sh.take 1)) = .ok (Fld.mk' secpN 7) ∧ (do
    let sh ← getShares env0 3 3 (Fld.mk' secpN 7) (fun i => if i = 0 then 99 else 5)
    reconSecret env0 (sh.take 2)) = .ok (Fld.mk' secpN (7 - 6 * 2)) := by
  refine ⟨fun i => by dsimp only; split_ifs <;> omega, by decide +kernel, by decide +kernel⟩

end Shamir
end Verif
