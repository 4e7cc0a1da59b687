import Verif.Spec.Observe
import Verif.Lemmas.FieldSpec
import Verif.Lemmas.Ecc
import Verif.Lemmas.Orders

/-!
# From the specification's valid points to group elements
-/

namespace Verif

open EC

theorem IsCurve.good {C : CurveClass} (h : IsCurve C) : GoodCurve C := by
  rcases h with rfl | rfl
  · exact bn254_good
  · exact secp256r1_good

variable {env : Env} {C : CurveClass}

theorem curveEq_iff [GoodCurve0 C] {x y : ZMod C.fp} :
    CurveEq C (Fld.ofZ x).value (Fld.ofZ y).value ↔ On C x y := by
  unfold CurveEq On
  rw [GoodCurve0.prime_eq, ← ZMod.intCast_eq_intCast_iff]
  push_cast
  simp only [ofZ_cast]
  constructor
  · intro h; rw [sq, h]; ring
  · intro h; rw [← sq, h]; ring

section
variable [GoodCurve0 C]

theorem isInf_iff {P : Pt} : IsInf C P ↔ Rep env P (0 : Grp C) := by
  rw [rep_zero_iff]
  have e : (Fld.ofZ (0 : ZMod C.fp)) = ⟨0, C.fp⟩ := by simp [Fld.ofZ]
  rw [e]
  exact ⟨fun h => ⟨h.flag, h.x, h.y⟩, fun h => ⟨h.1, h.2.1, h.2.2⟩⟩

theorem isFinite_iff {P : Pt} : IsFinite env C P ↔ ∃ A : Grp C, A ≠ 0 ∧ Rep env P A := by
  constructor
  · rintro ⟨h1, h2, h3, h4, h5⟩
    obtain ⟨x, hx⟩ := isElem_iff.1 h2
    obtain ⟨y, hy⟩ := isElem_iff.1 h3
    rw [hx, hy] at h4
    exact ⟨pt (curveEq_iff.1 h4), pt_ne_zero _, h1, hx, hy, h5⟩
  · rintro ⟨A, hA, hr⟩
    rcases cases_pt A with rfl | ⟨x, y, h, rfl⟩
    · exact absurd rfl hA
    · obtain ⟨h1, h2, h3, h4⟩ := (rep_pt_iff h).1 hr
      exact ⟨h1, by rw [h2]; exact isElem_ofZ x, by rw [h3]; exact isElem_ofZ y,
        by rw [h2, h3]; exact curveEq_iff.2 h, h4⟩

theorem valid_iff {P : Pt} : Valid env C P ↔ ∃ A : Grp C, Rep env P A := by
  unfold Valid
  rw [isInf_iff (env := env), isFinite_iff]
  constructor
  · rintro (h | ⟨A, -, h⟩)
    · exact ⟨0, h⟩
    · exact ⟨A, h⟩
  · rintro ⟨A, h⟩
    by_cases hA : A = 0
    · subst hA; exact .inl h
    · exact .inr ⟨A, hA, h⟩

theorem Rep.valid {P : Pt} {A : Grp C} (h : Rep env P A) : Valid env C P := valid_iff.2 ⟨A, h⟩

theorem Rep.finite {P : Pt} {A : Grp C} (h : Rep env P A) (hA : A ≠ 0) : IsFinite env C P :=
  isFinite_iff.2 ⟨A, hA, h⟩

theorem samePoint_iff {P Q : Pt} {A B : Grp C} (hP : Rep env P A) (hQ : Rep env Q B) :
    SamePoint P Q ↔ A = B := by
  unfold SamePoint
  rcases cases_pt A with rfl | ⟨x, y, h, rfl⟩ <;> rcases cases_pt B with rfl | ⟨x', y', h', rfl⟩
  · simp [(rep_zero_iff.1 hP).1, (rep_zero_iff.1 hQ).1]
  · simp [(rep_zero_iff.1 hP).1, ((rep_pt_iff h').1 hQ).1, (pt_ne_zero h').symm]
  · simp [(rep_zero_iff.1 hQ).1, ((rep_pt_iff h).1 hP).1, (pt_ne_zero h)]
  · obtain ⟨h1, h2, h3, -⟩ := (rep_pt_iff h).1 hP
    obtain ⟨h1', h2', h3', -⟩ := (rep_pt_iff h').1 hQ
    rw [h1, h1', h2, h2', h3, h3', pt_inj, Fld.ofZ_injective.eq_iff, Fld.ofZ_injective.eq_iff]
    simp

/-- representation only depends on the value and the liveness of the pointer -/
theorem Rep.congr {P Q : Pt} {A : Grp C} (h : Rep env P A) (hs : SamePoint P Q) (hv : Valid env C Q) :
    Rep env Q A := by
  obtain ⟨B, hB⟩ := valid_iff.1 hv
  rw [(samePoint_iff h hB).1 hs]
  exact hB

end

theorem eqP_of_rep [GoodCurve0 C] {r s : R Pt} {A B : Grp C} (hr : ∃ x, r = .ok x ∧ Rep env x A)
    (hs : ∃ y, s = .ok y ∧ Rep env y B) (h : A = B) : EqP env C r s := by
  obtain ⟨x, rfl, hx⟩ := hr
  obtain ⟨y, rfl, hy⟩ := hs
  exact ⟨x, y, rfl, rfl, by rw [rep_beq hx hy]; simp [h]⟩

end Verif
