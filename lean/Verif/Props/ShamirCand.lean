import Mathlib.Data.Set.Card
import Verif.Props.ShamirMore

/-!
# C21: how many secrets a set of shares leaves open
-/

namespace Verif
namespace Shamir

open Polynomial

theorem coeffs_split {t k : ℕ} (hk : 1 ≤ k) (hkt : k ≤ t) (y : K) (rand : ℕ → ℤ) :
    coeffs t y rand = coeffs k y rand ++ (List.range (t - k)).map fun i => coeffOf (rand (k - 1 + i)) := by
  have : t - 1 = (k - 1) + (t - k) := by omega
  simp only [coeffs, this, List.range_add, List.map_append, List.map_map, List.cons_append]
  rfl

/-- C21 is false: `k` shares (`1 ≤ k ≤ t`) leave at most `100 ^ (t - k)` secrets open, out of the `n` there are; with one
share missing at most 100.  (All draws of `rand` are allowed for; whoever holds the shares can list these secrets.) -/
theorem C21_candidates_counterexample (env : Env) {t n : ℕ} (ht' : t ≤ 2 ^ 58 - 1) (hn : n ≤ 2 ^ 57 - 1) {sel : List Share}
    (hsel : sel.Nodup) (hk : 1 ≤ sel.length) (hkt : sel.length ≤ t) :
    {secret : Fld | IsElem secpN secret ∧ ∃ rand, GoodRand rand ∧
      Ends (getShares env t n secret rand) fun shares => ∀ s ∈ sel, s ∈ shares}.encard ≤ 100 ^ (t - sel.length) := by
  classical
  let S : Set Fld := {secret : Fld | IsElem secpN secret ∧ ∃ rand, GoodRand rand ∧
      Ends (getShares env t n secret rand) fun shares => ∀ s ∈ sel, s ∈ shares}
  have hS : ∀ s ∈ S, ∃ rand, GoodRand rand ∧
      Ends (getShares env t n s rand) fun shares => ∀ s ∈ sel, s ∈ shares := fun s h => h.2
  choose! rand hgood hends using hS
  have hlt : ∀ (r : ℤ), ((r + 1) % 100).toNat < 100 := fun r => by omega
  let f : Fld → (Fin (t - sel.length) → Fin 100) := fun s i => ⟨((rand s (sel.length - 1 + i) + 1) % 100).toNat, hlt _⟩
  have hinj : Set.InjOn f S := by
    intro s hs s' hs' hf
    obtain ⟨y, rfl⟩ := isElem_iff.1 hs.1
    obtain ⟨y', rfl⟩ := isElem_iff.1 hs'.1
    obtain ⟨sh, h1, h2⟩ := hends _ hs
    obtain ⟨sh', h1', h2'⟩ := hends _ hs'
    have hg := hgood _ hs
    have hg' := hgood _ hs'
    generalize hra : rand (Fld.ofZ y) = ra at *
    generalize hrb : rand (Fld.ofZ y') = rb at *
    rw [getShares_ok env t n (by omega) ht' hn y ra (fun i _ => by have := (hg i).2; omega)] at h1
    rw [getShares_ok env t n (by omega) ht' hn y' rb (fun i _ => by have := (hg' i).2; omega)] at h1'
    obtain rfl := (Except.ok.inj h1)
    obtain rfl := (Except.ok.inj h1')
    have htop : ((List.range (t - sel.length)).map fun i => coeffOf (ra (sel.length - 1 + i))) =
        (List.range (t - sel.length)).map fun i => coeffOf (rb (sel.length - 1 + i)) := by
      refine List.map_congr_left fun i hi => ?_
      have := congrFun hf ⟨i, List.mem_range.1 hi⟩
      have := Fin.mk.inj this
      simp only [hra, hrb] at this
      rw [coeffOf, coeffOf, show (ra (sel.length - 1 + i) + 1) % 100 = (rb (sel.length - 1 + i) + 1) % 100 by omega]
    obtain ⟨l, rfl, h3⟩ := sel_pairs h2
    obtain ⟨l', h4, h3'⟩ := sel_pairs h2'
    have hx := nodup_xs h3 hsel
    have hpoly : polyOf (coeffs t y ra) = polyOf (coeffs t y' rb) := by
      refine eq_of_degree_sub_lt_of_eval_finset_eq (s := (xs l).toFinset) ?_ ?_
      · rw [coeffs_split hk hkt, coeffs_split hk hkt y' rb, polyOf_append, polyOf_append, htop, coeffs_length _ hk,
          coeffs_length _ hk, add_sub_add_right_eq_sub, List.toFinset_card_of_nodup hx]
        have d1 := polyOf_degree (coeffs (l.map fun p => mkShare p.1 p.2).length y ra)
        have d2 := polyOf_degree (coeffs (l.map fun p => mkShare p.1 p.2).length y' rb)
        rw [coeffs_length _ hk] at d1 d2
        have := lt_of_le_of_lt (degree_sub_le _ _) (max_lt d1 d2)
        simpa [xs] using this
      · intro x hx
        rw [List.mem_toFinset] at hx
        obtain ⟨p, hp, rfl⟩ := List.mem_map.1 hx
        have h5 : l' = l := by
          refine (List.map_injective_iff.2 ?_ h4).symm
          rintro ⟨a, b⟩ ⟨a', b'⟩ h
          exact Prod.ext (Fld.ofZ_injective (congrArg Share.idx h)) (Fld.ofZ_injective (congrArg Share.val h))
        rw [← h3 p hp, ← h3' p (by rw [h5]; exact hp)]
    have := congrArg (fun q => q.eval 0) hpoly
    simp only [coeffs, polyOf_eval_zero] at this
    rw [this]
  have := Set.encard_le_encard_of_injOn (s := S) (t := Set.univ) (f := f) (fun _ _ => Set.mem_univ _) hinj
  refine this.trans ?_
  rw [Set.encard_univ, ENat.card_eq_coe_fintype_card]
  simp

/-- the share with index 1 of a secret with threshold 2: the set is not empty (7 is in it) and has at most 100 elements -/
example : let S := {secret : Fld | IsElem secpN secret ∧ ∃ rand, GoodRand rand ∧
      Ends (getShares env0 2 3 secret rand) fun shares => ∀ s ∈ [⟨Fld.mk' secpN 1, Fld.mk' secpN 13⟩], s ∈ shares}
    Fld.mk' secpN 7 ∈ S ∧ S.encard ≤ 100 := by
  refine ⟨⟨isElem_mk' 7, fun _ => 5, fun i => by norm_num, ?_⟩,
    (C21_candidates_counterexample env0 (by decide) (by decide) (by simp) (by simp) (by simp)).trans (by simp)⟩
  refine ⟨[⟨Fld.mk' secpN 1, Fld.mk' secpN 13⟩, ⟨Fld.mk' secpN 2, Fld.mk' secpN 19⟩, ⟨Fld.mk' secpN 3, Fld.mk' secpN 25⟩],
    by decide +kernel, by simp⟩

end Shamir
end Verif
