import Mathlib.GroupTheory.OrderOfElement
import Verif.Lemmas.Ecc
import Verif.Lemmas.FieldSpec
import Verif.Lemmas.Orders
import Mathlib.Tactic.NormNum.Prime

/-!
# Points off the curve

The formulas of `operator+` and `pointDouble` do not use the coefficient `b` of the curve, so they work on the points of every
curve with the same `a`, singular ones included.
-/

namespace Verif
namespace OffCurve

/-- Coordinates on an abelian group in which the formulas of the code compute the sum. -/
structure Chart (C : CurveClass) [Fact C.fp.Prime] (G : Type) [AddCommGroup G] where
  X : G → ZMod C.fp
  Y : G → ZMod C.fp
  same : ∀ {A B : G}, A ≠ 0 → B ≠ 0 → X A = X B → A = B ∨ A = -B
  negX : ∀ A : G, A ≠ 0 → X (-A) = X A
  negY : ∀ A : G, A ≠ 0 → Y (-A) = -Y A
  y0 : ∀ A : G, A ≠ 0 → (Y A = 0 ↔ A + A = 0)
  dblX : ∀ A : G, A + A ≠ 0 → ((X A * X A * 3 + C.a) / (Y A * 2)) * ((X A * X A * 3 + C.a) / (Y A * 2)) - X A * 2 = X (A + A)
  dblY : ∀ A : G, A + A ≠ 0 → ((X A * X A * 3 + C.a) / (Y A * 2)) * (X A - X (A + A)) - Y A = Y (A + A)
  addX : ∀ A B : G, A ≠ 0 → B ≠ 0 → X A ≠ X B →
    ((Y A - Y B) / (X A - X B)) * ((Y A - Y B) / (X A - X B)) - X A - X B = X (A + B)
  addY : ∀ A B : G, A ≠ 0 → B ≠ 0 → X A ≠ X B → ((Y A - Y B) / (X A - X B)) * (X A - X (A + B)) - Y A = Y (A + B)

variable {C : CurveClass} [Fact C.fp.Prime] {G : Type} [AddCommGroup G] [DecidableEq G]

/-- the point object of a group element -/
def Chart.pt (h : Chart C G) (c : Option Addr) (A : G) : Pt :=
  if A = 0 then Pt.infty C else Pt.ofFld (Fld.ofZ (h.X A)) (Fld.ofZ (h.Y A)) c

theorem Chart.pt_zero (h : Chart C G) (c : Option Addr) : h.pt c 0 = Pt.infty C := if_pos rfl

theorem Chart.pt_ne (h : Chart C G) (c : Option Addr) {A : G} (hA : A ≠ 0) :
    h.pt c A = ⟨Fld.ofZ (h.X A), Fld.ofZ (h.Y A), false, c⟩ := if_neg hA

theorem Chart.pt_inf (h : Chart C G) (c : Option Addr) (A : G) : (h.pt c A).inf = decide (A = 0) := by
  by_cases hA : A = 0
  · rw [hA, h.pt_zero]; simp [Pt.infty]
  · rw [h.pt_ne c hA]; simp [hA]

section
variable (h2 : (2 : ZMod C.fp) ≠ 0) {env : Env} {c : Option Addr} (hc : Live env c)
include h2

theorem Chart.pt_inj (h : Chart C G) (c : Option Addr) {A B : G} (e : h.pt c A = h.pt c B) : A = B := by
  by_cases hA : A = 0 <;> by_cases hB : B = 0
  · rw [hA, hB]
  · have := congrArg Pt.inf e
    rw [h.pt_inf, h.pt_inf] at this
    simp [hA, hB] at this
  · have := congrArg Pt.inf e
    rw [h.pt_inf, h.pt_inf] at this
    simp [hA, hB] at this
  · rw [h.pt_ne c hA, h.pt_ne c hB] at e
    have ex := Fld.ofZ_injective (congrArg Pt.x e)
    have ey := Fld.ofZ_injective (congrArg Pt.y e)
    rcases h.same hA hB ex with e1 | e1
    · exact e1
    · have n := h.negY B hB
      rw [← e1, ey] at n
      have h0 : h.Y B = 0 := by
        have : h.Y B * 2 = 0 := by linear_combination n
        exact (mul_eq_zero.1 this).resolve_right h2
      have := (h.y0 B hB).1 h0
      rw [e1]
      exact neg_eq_of_add_eq_zero_left this

include hc

theorem Chart.double_pt (h : Chart C G) {A : G} (hA : A + A ≠ 0) :
    (h.pt c A).double env C = .ok (h.pt c (A + A)) := by
  have hA0 : A ≠ 0 := by rintro rfl; exact hA (add_zero 0)
  rw [h.pt_ne c hA0, h.pt_ne c hA]
  have hd : h.Y A * 2 ≠ 0 := mul_ne_zero (fun e => hA ((h.y0 A hA0).1 e)) h2
  obtain ⟨o, ho⟩ := deref_live hc
  have i3 : ((3 : ℤ) : ZMod C.fp) = 3 := by norm_cast
  have i2 : ((2 : ℤ) : ZMod C.fp) = 2 := by norm_cast
  simp only [Pt.double, Fld.square_ofZ, Fld.mulZ_ofZ, Fld.mk'_eq, Fld.add_ofZ, ho,
    R.ok_bind, i3, i2, Fld.div_ofZ env _ hd, Fld.mul_ofZ, Fld.sub_ofZ, h.dblX A hA, h.dblY A hA]
  rfl

theorem Chart.add_pt (h : Chart C G) {A B : G} (hAB : A = B → A ≠ 0 → A + A ≠ 0) :
    (h.pt c A).add env C (h.pt c B) = .ok (h.pt c (A + B)) := by
  by_cases hA : A = 0
  · rw [hA, h.pt_zero, zero_add]; simp [Pt.add, Pt.infty]
  by_cases hB : B = 0
  · rw [hB, h.pt_zero, add_zero, h.pt_ne c hA]; simp [Pt.add, Pt.infty]
  have hcs := cassert_of_eq_true env (curveEq_live (C := C) hc hc)
  by_cases hxx : h.X A = h.X B
  · by_cases hAe : A = B
    · subst hAe
      have hd := h.double_pt h2 hc (hAB rfl hA)
      rw [← hd, h.pt_ne c hA]
      simp [Pt.add, hcs, Fld.beq_ofZ]
    · have hn : A = -B := (h.same hA hB hxx).resolve_left hAe
      have hyy : h.Y A ≠ h.Y B := by
        intro e
        exact hAe (h.pt_inj h2 c (by rw [h.pt_ne c hA, h.pt_ne c hB, hxx, e]))
      have h0 : A + B = 0 := by rw [hn, neg_add_cancel]
      rw [h0, h.pt_zero, h.pt_ne c hA, h.pt_ne c hB]
      simp [Pt.add, hcs, Fld.beq_ofZ, hxx, hyy]
  · have h0 : A + B ≠ 0 := by
      intro e
      have : A = -B := eq_neg_of_add_eq_zero_left e
      exact hxx (by rw [this, h.negX B hB])
    rw [h.pt_ne c hA, h.pt_ne c hB, h.pt_ne c h0]
    simp only [Pt.add, hcs, Fld.beq_ofZ, hxx, R.ok_bind, Fld.sub_ofZ, Fld.mul_ofZ,
      Fld.div_ofZ env _ (sub_ne_zero.2 hxx), Bool.false_eq_true, if_false, decide_false, h.addX A B hA hB hxx,
      h.addY A B hA hB hxx]
    rfl

theorem Chart.smulLoop_pt (h : Chart C G) (cs : List Char) {A B : G} (hB : ∀ i : ℕ, 2 ^ i • B ≠ 0) :
    Pt.smulLoop env C cs (h.pt c B) (h.pt c A) = .ok (h.pt c (A + digitsVal cs • B)) := by
  have hBB : B + B ≠ 0 := by simpa [two_nsmul] using hB 1
  induction cs generalizing A B with
  | nil => simp [Pt.smulLoop, digitsVal]
  | cons d cs ih =>
    have hstep : (if d = '1' then (h.pt c A).add env C (h.pt c B) else .ok (h.pt c A)) =
        .ok (h.pt c (A + (if d = '1' then 1 else 0) • B)) := by
      by_cases hd : d = '1'
      · rw [if_pos hd, if_pos hd, one_smul]
        exact h.add_pt h2 hc fun e _ => e ▸ hBB
      · rw [if_neg hd, if_neg hd, zero_smul, add_zero]
    rcases cs with _ | ⟨d', cs'⟩
    · rw [Pt.smulLoop, hstep]
      simp [Pt.smulLoop, digitsVal]
    · have hB' : ∀ i : ℕ, 2 ^ i • (B + B) ≠ 0 := fun i => by
        have := hB (i + 1)
        rwa [pow_succ, mul_smul, two_nsmul] at this
      rw [Pt.smulLoop, hstep]
      simp only [R.ok_bind, List.isEmpty_cons, Bool.false_eq_true, if_false, h.double_pt h2 hc hBB]
      rw [ih hB' (by simpa [two_nsmul] using hB' 1)]
      congr 2
      rw [digitsVal.eq_2 d, add_smul, mul_comm 2, mul_nsmul', two_nsmul, add_assoc]

theorem Chart.smul_pt (h : Chart C G) {B : G} (hB : ∀ i : ℕ, 2 ^ i • B ≠ 0) (k : Fld) (hk : 0 ≤ k.value) :
    (h.pt c B).smul env C k = .ok (h.pt c (k.value • B)) := by
  have hB0 : B ≠ 0 := by simpa using hB 0
  have : (h.pt c B).inf = false := by rw [h.pt_inf]; simp [hB0]
  rw [Pt.smul, this]
  have := h.smulLoop_pt h2 hc (getStr2 k.getRawValue).reverse (A := 0) hB
  rw [h.pt_zero, zero_add, show k.getRawValue = k.value from rfl, digitsVal_getStr2 _ hk] at this
  simp only [Bool.false_eq_true, if_false]
  rw [show k.getRawValue = k.value from rfl, this]
  congr 2
  conv_rhs => rw [← Int.toNat_of_nonneg hk]
  rw [natCast_zsmul]

theorem Chart.sub_pt (h : Chart C G) {A B : G} (hB : B ≠ 0) (hA : A ≠ 0) (hAB : A = -B → A + A ≠ 0) :
    (h.pt c A).sub env C (h.pt c B) = .ok (h.pt c (A - B)) := by
  have hcs := cassert_of_eq_true env (curveEq_live (C := C) hc hc)
  have hn : -B ≠ 0 := neg_ne_zero.2 hB
  have e : Pt.ofFld (Fld.ofZ (h.X B)) (Fld.ofZ (0 - h.Y B)) c = h.pt c (-B) := by
    rw [h.pt_ne c hn, h.negX B hB, h.negY B hB, zero_sub]; rfl
  have := h.add_pt h2 hc (A := A) (B := -B) (fun e' _ => hAB e')
  rw [← sub_eq_add_neg] at this
  rw [← this, ← e, h.pt_ne c hA, h.pt_ne c hB]
  simp [Pt.sub, hcs, Fld.mk'_eq]

end

/-! ## The cusp `y² = x³` -/

section cusp
variable {F : Type} [Field F]

theorem cusp_dblX {t : F} (ht : t ≠ 0) (h2 : (2 : F) ≠ 0) :
    (((t ^ 2)⁻¹ * (t ^ 2)⁻¹ * 3) / ((t ^ 3)⁻¹ * 2)) * (((t ^ 2)⁻¹ * (t ^ 2)⁻¹ * 3) / ((t ^ 3)⁻¹ * 2)) - (t ^ 2)⁻¹ * 2 =
      ((t + t) ^ 2)⁻¹ := by
  have : t + t = 2 * t := by ring
  rw [this]
  field_simp
  norm_num

theorem cusp_dblY {t : F} (ht : t ≠ 0) (h2 : (2 : F) ≠ 0) :
    (((t ^ 2)⁻¹ * (t ^ 2)⁻¹ * 3) / ((t ^ 3)⁻¹ * 2)) * ((t ^ 2)⁻¹ - ((t + t) ^ 2)⁻¹) - (t ^ 3)⁻¹ = ((t + t) ^ 3)⁻¹ := by
  have : t + t = 2 * t := by ring
  rw [this]
  field_simp
  norm_num

theorem cusp_slope {t u : F} (ht : t ≠ 0) (hu : u ≠ 0) (hn : t ≠ u) (hs : t + u ≠ 0) :
    ((t ^ 3)⁻¹ - (u ^ 3)⁻¹) / ((t ^ 2)⁻¹ - (u ^ 2)⁻¹) = (t ^ 2 + t * u + u ^ 2) / (t * u * (t + u)) := by
  have hd : u - t ≠ 0 := sub_ne_zero.2 hn.symm
  have e1 : (t ^ 3)⁻¹ - (u ^ 3)⁻¹ = (u - t) * (t ^ 2 + t * u + u ^ 2) / (t * u) ^ 3 := by field_simp; ring
  have e2 : (t ^ 2)⁻¹ - (u ^ 2)⁻¹ = (u - t) * (t + u) / (t * u) ^ 2 := by field_simp; ring
  rw [e1, e2]
  field_simp

theorem cusp_addX {t u : F} (ht : t ≠ 0) (hu : u ≠ 0) (hs : t + u ≠ 0) :
    (t ^ 2 + t * u + u ^ 2) / (t * u * (t + u)) * ((t ^ 2 + t * u + u ^ 2) / (t * u * (t + u))) - (t ^ 2)⁻¹ - (u ^ 2)⁻¹ =
      ((t + u) ^ 2)⁻¹ := by
  field_simp
  ring

theorem cusp_addY {t u : F} (ht : t ≠ 0) (hu : u ≠ 0) (hs : t + u ≠ 0) :
    (t ^ 2 + t * u + u ^ 2) / (t * u * (t + u)) * ((t ^ 2)⁻¹ - ((t + u) ^ 2)⁻¹) - (t ^ 3)⁻¹ = ((t + u) ^ 3)⁻¹ := by
  field_simp
  ring

end cusp

/-- the additive group of the field -/
def cusp (C : CurveClass) [Fact C.fp.Prime] (h2 : (2 : ZMod C.fp) ≠ 0) (ha : (C.a : ZMod C.fp) = 0) : Chart C (ZMod C.fp) where
  X t := (t ^ 2)⁻¹
  Y t := (t ^ 3)⁻¹
  same {A B} _ _ e := by
    rw [inv_inj] at e
    exact sq_eq_sq_iff_eq_or_eq_neg.1 e
  negX A _ := by rw [neg_sq]
  negY A _ := by rw [Odd.neg_pow (by decide), inv_neg]
  y0 A hA := by
    have : A + A ≠ 0 := by rw [← two_mul]; exact mul_ne_zero h2 hA
    simp [hA, this]
  dblX A hA := by
    have h0 : A ≠ 0 := by rintro rfl; exact hA (add_zero 0)
    rw [ha, add_zero, cusp_dblX h0 h2]
  dblY A hA := by
    have h0 : A ≠ 0 := by rintro rfl; exact hA (add_zero 0)
    rw [ha, add_zero, cusp_dblY h0 h2]
  addX A B hA hB hx := by
    have hn : A ≠ B := by rintro rfl; exact hx rfl
    have hs : A + B ≠ 0 := by
      intro e
      rw [eq_neg_of_add_eq_zero_left e, neg_sq] at hx
      exact hx rfl
    rw [cusp_slope hA hB hn hs, cusp_addX hA hB hs]
  addY A B hA hB hx := by
    have hn : A ≠ B := by rintro rfl; exact hx rfl
    have hs : A + B ≠ 0 := by
      intro e
      rw [eq_neg_of_add_eq_zero_left e, neg_sq] at hx
      exact hx rfl
    rw [cusp_slope hA hB hn hs, cusp_addY hA hB hs]

/-! ## The node `y² = (x + 1)² (x - 2)` -/

section node
variable {F : Type} [Field F]

/-- abscissa -/
def nx (t : F) : F := -1 - 12 * t / (t - 1) ^ 2

/-- ordinate; `s` is a square root of -3 -/
def ny (s t : F) : F := -12 * s * t * (t + 1) / (t - 1) ^ 3

theorem node_on {s t : F} (hs : s * s = -3) (ht : t - 1 ≠ 0) : ny s t * ny s t = nx t * nx t * nx t + -3 * nx t + -2 := by
  have e : ny s t * ny s t = -3 * (12 * t * (t + 1) / (t - 1) ^ 3) ^ 2 := by
    unfold ny
    field_simp
    linear_combination (144 * (t ^ 2 * (t + 1) ^ 2)) * hs
  rw [e]
  unfold nx
  field_simp
  ring

theorem nx_sub {t u : F} (ht : t - 1 ≠ 0) (hu : u - 1 ≠ 0) :
    nx t - nx u = -12 * (t * u - 1) * (u - t) / ((t - 1) ^ 2 * (u - 1) ^ 2) := by
  unfold nx
  field_simp
  ring

theorem node_slope {s t u : F} (h12 : (12 : F) ≠ 0) (ht : t - 1 ≠ 0) (hu : u - 1 ≠ 0) (hn : u - t ≠ 0) :
    (ny s t - ny s u) / (nx t - nx u) =
      s * ((t ^ 2 * u ^ 2 - 6 * t * u + 1 + (t + u) * (1 + t * u)) / ((t * u - 1) * (t - 1) * (u - 1))) := by
  have e1 : ny s t - ny s u = -12 * s * (u - t) * (t ^ 2 * u ^ 2 - 6 * t * u + 1 + (t + u) * (1 + t * u)) /
      ((t - 1) ^ 3 * (u - 1) ^ 3) := by
    unfold ny
    field_simp
    ring
  rw [e1, nx_sub ht hu]
  field_simp

theorem node_addX {s t u : F} (hs : s * s = -3) (ht : t - 1 ≠ 0) (hu : u - 1 ≠ 0) (htu : t * u - 1 ≠ 0) :
    s * ((t ^ 2 * u ^ 2 - 6 * t * u + 1 + (t + u) * (1 + t * u)) / ((t * u - 1) * (t - 1) * (u - 1))) *
      (s * ((t ^ 2 * u ^ 2 - 6 * t * u + 1 + (t + u) * (1 + t * u)) / ((t * u - 1) * (t - 1) * (u - 1)))) - nx t - nx u =
      nx (t * u) := by
  have e : ∀ m : F, s * m * (s * m) = -3 * m ^ 2 := fun m => by linear_combination m ^ 2 * hs
  rw [e]
  unfold nx
  field_simp
  ring

theorem node_addY {s t u : F} (ht : t - 1 ≠ 0) (hu : u - 1 ≠ 0) (htu : t * u - 1 ≠ 0) :
    s * ((t ^ 2 * u ^ 2 - 6 * t * u + 1 + (t + u) * (1 + t * u)) / ((t * u - 1) * (t - 1) * (u - 1))) *
      (nx t - nx (t * u)) - ny s t = ny s (t * u) := by
  unfold nx ny
  field_simp
  ring

theorem node_dslope {s t : F} (h12 : (12 : F) ≠ 0) (hs : s * s = -3) (ht0 : t ≠ 0) (ht : t - 1 ≠ 0) (ht' : t + 1 ≠ 0) :
    (nx t * nx t * 3 + -3) / (ny s t * 2) = s * ((t ^ 2 + 4 * t + 1) / ((t + 1) * (t - 1))) := by
  have hs0 : s ≠ 0 := by
    rintro rfl
    apply h12
    linear_combination (4 : F) * hs
  have h2 : (2 : F) ≠ 0 := by intro h; apply h12; linear_combination (6 : F) * h
  have e1 : nx t * nx t * 3 + -3 = 72 * t * (t ^ 2 + 4 * t + 1) / (t - 1) ^ 4 := by
    unfold nx
    field_simp
    ring
  have e2 : ny s t * 2 ≠ 0 := by
    unfold ny
    refine mul_ne_zero (div_ne_zero (mul_ne_zero (mul_ne_zero (mul_ne_zero (neg_ne_zero.2 h12) hs0) ht0) ht') ?_) h2
    exact pow_ne_zero _ ht
  rw [div_eq_iff e2, e1]
  have e3 : s * ((t ^ 2 + 4 * t + 1) / ((t + 1) * (t - 1))) * (ny s t * 2) =
      (s * s) * (-24 * t * (t ^ 2 + 4 * t + 1) / (t - 1) ^ 4) := by
    unfold ny
    field_simp
    ring
  rw [e3, hs]
  ring

theorem node_dblX {s t : F} (hs : s * s = -3) (ht : t - 1 ≠ 0) (ht' : t + 1 ≠ 0) :
    s * ((t ^ 2 + 4 * t + 1) / ((t + 1) * (t - 1))) * (s * ((t ^ 2 + 4 * t + 1) / ((t + 1) * (t - 1)))) - nx t * 2 = nx (t * t) := by
  have e : ∀ m : F, s * m * (s * m) = -3 * m ^ 2 := fun m => by linear_combination m ^ 2 * hs
  have h : t * t - 1 ≠ 0 := by
    rw [show t * t - 1 = (t - 1) * (t + 1) by ring]; exact mul_ne_zero ht ht'
  rw [e]
  unfold nx
  rw [show t * t - 1 = (t - 1) * (t + 1) by ring]
  field_simp
  ring

theorem node_dblY {s t : F} (ht : t - 1 ≠ 0) (ht' : t + 1 ≠ 0) :
    s * ((t ^ 2 + 4 * t + 1) / ((t + 1) * (t - 1))) * (nx t - nx (t * t)) - ny s t = ny s (t * t) := by
  unfold nx ny
  rw [show t * t - 1 = (t - 1) * (t + 1) by ring]
  field_simp
  ring

theorem nx_inv {t : F} (ht0 : t ≠ 0) (ht : t - 1 ≠ 0) : nx t⁻¹ = nx t := by
  have e : t⁻¹ - 1 = -(t - 1) / t := by field_simp; ring
  unfold nx
  rw [e]
  field_simp

theorem ny_inv {s t : F} (ht0 : t ≠ 0) (ht : t - 1 ≠ 0) : ny s t⁻¹ = -ny s t := by
  have e : t⁻¹ - 1 = -(t - 1) / t := by field_simp; ring
  unfold ny
  rw [e]
  field_simp
  ring

end node

/-- a square root of -3 modulo the prime of `Curve_secp256r1`, as a number -/
def s3Num : ℕ := 70047211924398025311900816853949889147414700542055642444544304037490106522013

/-- the square root -/
def s3 : ZMod secp256r1.fp := (s3Num : ℕ)

theorem s3_sq : s3 * s3 = -3 := by
  have h : ((s3Num * s3Num + 3 : ℕ) : ZMod secp256r1.fp) = 0 := (ZMod.natCast_eq_zero_iff _ _).2 (by decide +kernel)
  rw [Nat.cast_add, Nat.cast_mul] at h
  exact eq_neg_of_add_eq_zero_left h

theorem a_eq : ((secp256r1.a : ℤ) : ZMod secp256r1.fp) = -3 := by
  rw [eq_neg_iff_add_eq_zero, ← Int.cast_ofNat, ← Int.cast_add, ZMod.intCast_zmod_eq_zero_iff_dvd]
  decide +kernel

theorem twelve_ne : (12 : ZMod secp256r1.fp) ≠ 0 := by
  rw [← Nat.cast_ofNat, Ne, ZMod.natCast_eq_zero_iff]
  decide +kernel

theorem two_ne : (2 : ZMod secp256r1.fp) ≠ 0 := by
  intro h; apply twelve_ne; linear_combination (6 : ZMod secp256r1.fp) * h

theorem s3_ne : s3 ≠ 0 := by
  intro h
  have := s3_sq
  rw [h] at this
  apply twelve_ne
  linear_combination (4 : ZMod secp256r1.fp) * this

/-- the unit group of the field of `Curve_secp256r1` -/
abbrev U : Type := Additive (ZMod secp256r1.fp)ˣ

/-- the unit of a group element -/
abbrev val (A : U) : ZMod secp256r1.fp := (A.toMul : (ZMod secp256r1.fp)ˣ)

theorem val_ne (A : U) : val A ≠ 0 := A.toMul.ne_zero

theorem val_sub {A : U} (h : A ≠ 0) : val A - 1 ≠ 0 := by
  intro e
  apply h
  apply Additive.toMul.injective
  exact Units.ext (sub_eq_zero.1 e)

theorem val_add (A B : U) : val (A + B) = val A * val B := Units.val_mul _ _

theorem val_neg (A : U) : val (-A) = (val A)⁻¹ := Units.val_inv_eq_inv_val _

theorem val_inj {A B : U} (h : val A = val B) : A = B := Additive.toMul.injective (Units.ext h)

theorem val_zero : val (0 : U) = 1 := Units.val_one

theorem node_same {A B : U} (hA : A ≠ 0) (hB : B ≠ 0) (h : nx (val A) = nx (val B)) : A = B ∨ A = -B := by
  have e := nx_sub (val_sub hA) (val_sub hB)
  rw [h, sub_self, eq_comm, div_eq_zero_iff] at e
  rcases e with e | e
  · rcases mul_eq_zero.1 e with e | e
    · rcases mul_eq_zero.1 e with e | e
      · exact absurd (neg_eq_zero.1 e) twelve_ne
      · right
        apply eq_neg_of_add_eq_zero_left
        apply val_inj
        rw [val_add, val_zero]
        exact sub_eq_zero.1 e
    · left
      exact val_inj (sub_eq_zero.1 e).symm
  · exact absurd e (mul_ne_zero (pow_ne_zero _ (val_sub hA)) (pow_ne_zero _ (val_sub hB)))

theorem val_plus {A : U} (h : A + A ≠ 0) : val A + 1 ≠ 0 := by
  intro e
  apply h
  apply val_inj
  rw [val_add, val_zero]
  linear_combination (val A - 1) * e

/-- the multiplicative group of the field, on `y² = (x + 1)² (x - 2)` -/
def node : Chart secp256r1 U where
  X A := nx (val A)
  Y A := ny s3 (val A)
  same := node_same
  negX A hA := by rw [val_neg, nx_inv (val_ne A) (val_sub hA)]
  negY A hA := by rw [val_neg, ny_inv (val_ne A) (val_sub hA)]
  y0 A hA := by
    constructor
    · intro h
      apply val_inj
      rw [val_add, val_zero]
      have h' : val A + 1 = 0 := by
        rcases div_eq_zero_iff.1 h with e | e
        · exact (mul_eq_zero.1 e).resolve_left
            (mul_ne_zero (mul_ne_zero (neg_ne_zero.2 twelve_ne) s3_ne) (val_ne A))
        · exact absurd e (pow_ne_zero _ (val_sub hA))
      linear_combination (val A - 1) * h'
    · intro h
      have h1 : val A * val A = 1 := by rw [← val_add, h, val_zero]
      have h2 : (val A - 1) * (val A + 1) = 0 := by linear_combination h1
      have h3 := (mul_eq_zero.1 h2).resolve_left (val_sub hA)
      rw [ny, h3, mul_zero, zero_div]
  dblX A hA := by
    have h0 : A ≠ 0 := by rintro rfl; exact hA (add_zero 0)
    rw [a_eq, node_dslope twelve_ne s3_sq (val_ne A) (val_sub h0) (val_plus hA), val_add,
      node_dblX s3_sq (val_sub h0) (val_plus hA)]
  dblY A hA := by
    have h0 : A ≠ 0 := by rintro rfl; exact hA (add_zero 0)
    rw [a_eq, node_dslope twelve_ne s3_sq (val_ne A) (val_sub h0) (val_plus hA), val_add,
      node_dblY (val_sub h0) (val_plus hA)]
  addX A B hA hB hx := by
    have hn : val B - val A ≠ 0 := fun e => hx (by rw [sub_eq_zero.1 e])
    have hp : val A * val B - 1 ≠ 0 := by
      intro e
      apply hx
      have : A = -B := eq_neg_of_add_eq_zero_left (val_inj (by rw [val_add, val_zero, sub_eq_zero.1 e]))
      rw [this, val_neg, nx_inv (val_ne B) (val_sub hB)]
    rw [node_slope twelve_ne (val_sub hA) (val_sub hB) hn, val_add, node_addX s3_sq (val_sub hA) (val_sub hB) hp]
  addY A B hA hB hx := by
    have hn : val B - val A ≠ 0 := fun e => hx (by rw [sub_eq_zero.1 e])
    have hp : val A * val B - 1 ≠ 0 := by
      intro e
      apply hx
      have : A = -B := eq_neg_of_add_eq_zero_left (val_inj (by rw [val_add, val_zero, sub_eq_zero.1 e]))
      rw [this, val_neg, nx_inv (val_ne B) (val_sub hB)]
    rw [node_slope twelve_ne (val_sub hA) (val_sub hB) hn, val_add, node_addY (val_sub hA) (val_sub hB) hp]

/-! ## An element of order 3·5²·17·257·641·1531·65537·490463·6700417 -/

/-- the order -/
def nOrd : ℕ := 69258194832665248814238987975

/-- the element, as a number -/
def tNum : ℕ := 13187115093874864861006593569668631746069834668179474618462093402520864461085

theorem tNum_ne : ((tNum : ℕ) : ZMod secp256r1.fp) ≠ 0 := by
  rw [Ne, ZMod.natCast_eq_zero_iff]
  decide +kernel

/-- the element -/
def tN : U := Additive.ofMul (Units.mk0 _ tNum_ne)

theorem val_nsmul (k : ℕ) (A : U) : val (k • A) = val A ^ k := Units.val_pow_eq_pow_val _ _

theorem tN_nsmul (e : ℕ) (he : e < 2 ^ 300) : e • tN = 0 ↔ powMod secp256r1.fp tNum e = 1 := by
  have h1 : val (e • tN) = ((powMod secp256r1.fp tNum e : ℕ) : ZMod secp256r1.fp) := by
    rw [val_nsmul, powMod_cast _ _ _ he]; rfl
  have hlt : powMod secp256r1.fp tNum e < secp256r1.fp := powMod_lt _ _ _ (by decide)
  constructor
  · intro h
    rw [h, val_zero, ← Nat.cast_one, ZMod.natCast_eq_natCast_iff] at h1
    exact (Nat.ModEq.eq_of_lt_of_lt h1 (by decide) hlt).symm
  · intro h
    apply val_inj
    rw [h1, h, val_zero, Nat.cast_one]

theorem nOrd_factors : nOrd = 3 * 5 ^ 2 * 17 * 257 * 641 * 1531 * 65537 * 490463 * 6700417 := by decide +kernel

theorem tN_order : addOrderOf tN = nOrd := by
  refine addOrderOf_eq_of_nsmul_and_div_prime_nsmul (by decide) ((tN_nsmul _ (by decide +kernel)).2 (by decide +kernel)) ?_
  intro q hq hd
  have key : ∀ r ∈ [3, 5, 17, 257, 641, 1531, 65537, 490463, 6700417], powMod secp256r1.fp tNum (nOrd / r) ≠ 1 := by decide +kernel
  have hmem : q ∈ [3, 5, 17, 257, 641, 1531, 65537, 490463, 6700417] := by
    rw [nOrd_factors] at hd
    simp only [hq.dvd_mul] at hd
    rcases hd with ((((((((h | h) | h) | h) | h) | h) | h) | h) | h)
    · rw [(Nat.prime_dvd_prime_iff_eq hq (by norm_num)).1 h]; decide
    · rw [(Nat.prime_dvd_prime_iff_eq hq (by norm_num)).1 (hq.dvd_of_dvd_pow h)]; decide
    · rw [(Nat.prime_dvd_prime_iff_eq hq (by norm_num)).1 h]; decide
    · rw [(Nat.prime_dvd_prime_iff_eq hq (by norm_num)).1 h]; decide
    · rw [(Nat.prime_dvd_prime_iff_eq hq (by norm_num)).1 h]; decide
    · rw [(Nat.prime_dvd_prime_iff_eq hq (by norm_num)).1 h]; decide
    · rw [(Nat.prime_dvd_prime_iff_eq hq (by norm_num)).1 h]; decide
    · rw [(Nat.prime_dvd_prime_iff_eq hq (by norm_num)).1 h]; decide
    · rw [(Nat.prime_dvd_prime_iff_eq hq (by norm_num)).1 h]; decide
  rw [Ne, tN_nsmul _ (lt_of_le_of_lt (Nat.div_le_self _ _) (by decide +kernel))]
  exact key q hmem

theorem node_lit {t X Y : ℤ} (h1 : ¬ (secp256r1.fp : ℤ) ∣ t - 1) (hx : (secp256r1.fp : ℤ) ∣ (X + 1) * (t - 1) ^ 2 + 12 * t)
    (hy : (secp256r1.fp : ℤ) ∣ Y * (t - 1) ^ 3 + 12 * s3Num * t * (t + 1)) :
    nx (t : ZMod secp256r1.fp) = X ∧ ny s3 (t : ZMod secp256r1.fp) = Y := by
  rw [← ZMod.intCast_zmod_eq_zero_iff_dvd] at h1 hx hy
  push_cast at h1 hx hy
  have e : s3 = ((s3Num : ℕ) : ZMod secp256r1.fp) := rfl
  rw [← e] at hy
  constructor
  · unfold nx
    rw [sub_eq_iff_eq_add, ← sub_eq_iff_eq_add', eq_div_iff (pow_ne_zero _ h1)]
    linear_combination -hx
  · unfold ny
    rw [div_eq_iff (pow_ne_zero _ h1)]
    linear_combination -hy

/-- the point (6, 14), as a number -/
def vNum : ℕ := 6943524182411371960315481930997772789926645048234563055301421933175175768593

/-- the point (3, 4), as a number -/
def wNum : ℕ := 35023605962199012655950408426974944573707350271027821222272152018745053261006

theorem vNum_ne : ((vNum : ℕ) : ZMod secp256r1.fp) ≠ 0 := by
  rw [Ne, ZMod.natCast_eq_zero_iff]
  decide +kernel

theorem wNum_ne : ((wNum : ℕ) : ZMod secp256r1.fp) ≠ 0 := by
  rw [Ne, ZMod.natCast_eq_zero_iff]
  decide +kernel

/-- the point (6, 14) -/
def tV : U := Additive.ofMul (Units.mk0 _ vNum_ne)

/-- the point (3, 4) -/
def tW : U := Additive.ofMul (Units.mk0 _ wNum_ne)

theorem tV_lit : node.X tV = 6 ∧ node.Y tV = 14 := by
  have := node_lit (t := vNum) (X := 6) (Y := 14) (by decide +kernel) (by decide +kernel) (by decide +kernel)
  rw [Int.cast_natCast] at this
  exact this

theorem tW_lit : node.X tW = 3 ∧ node.Y tW = 4 := by
  have := node_lit (t := wNum) (X := 3) (Y := 4) (by decide +kernel) (by decide +kernel) (by decide +kernel)
  rw [Int.cast_natCast] at this
  exact this

theorem tV_ne : tV + tV ≠ 0 := by
  intro e
  have h : ((vNum * vNum : ℕ) : ZMod secp256r1.fp) = ((1 : ℕ) : ZMod secp256r1.fp) := by
    rw [Nat.cast_mul, Nat.cast_one, ← val_zero, ← e, val_add]; rfl
  rw [ZMod.natCast_eq_natCast_iff] at h
  revert h
  unfold Nat.ModEq
  decide +kernel

theorem tV_ne' : tV ≠ 0 := by intro e; apply tV_ne; rw [e, add_zero]

theorem tW_order : addOrderOf tW = 3 := by
  have : Fact (Nat.Prime 3) := ⟨by norm_num⟩
  apply addOrderOf_eq_prime
  · apply val_inj
    rw [val_nsmul, val_zero]
    have h : ((wNum ^ 3 : ℕ) : ZMod secp256r1.fp) = ((1 : ℕ) : ZMod secp256r1.fp) := by
      rw [ZMod.natCast_eq_natCast_iff]
      unfold Nat.ModEq
      decide +kernel
    rw [Nat.cast_pow, Nat.cast_one] at h
    exact h
  · intro e
    have h : ((wNum : ℕ) : ZMod secp256r1.fp) = ((1 : ℕ) : ZMod secp256r1.fp) := by
      rw [Nat.cast_one, ← val_zero, ← e]; rfl
    rw [ZMod.natCast_eq_natCast_iff] at h
    revert h
    unfold Nat.ModEq
    decide +kernel

theorem odd_order {B : U} {r : ℕ} (hB : addOrderOf B = r) (h1 : 1 < r) (ho : ¬ 2 ∣ r) (i : ℕ) : 2 ^ i • B ≠ 0 := by
  intro h
  have hd := addOrderOf_dvd_of_nsmul_eq_zero h
  rw [hB, Nat.dvd_prime_pow Nat.prime_two] at hd
  obtain ⟨j, -, hj⟩ := hd
  rcases j with _ | j
  · rw [hj] at h1; exact absurd h1 (by decide)
  · exact ho ⟨2 ^ j, by rw [hj, pow_succ, mul_comm]⟩

theorem exists_order {r : ℕ} (hr : r ∣ nOrd) : ∃ B : U, addOrderOf B = r := by
  obtain ⟨q, hq⟩ := hr
  have hq0 : q ≠ 0 := by rintro rfl; rw [mul_zero] at hq; exact absurd hq (by decide)
  refine ⟨q • tN, ?_⟩
  rw [addOrderOf_nsmul_of_dvd hq0 (by rw [tN_order]; exact ⟨r, by rw [hq, mul_comm]⟩), tN_order, hq]
  exact Nat.mul_div_cancel _ (Nat.pos_of_ne_zero hq0)

theorem nOrd_odd : ¬ 2 ∣ nOrd := by decide

theorem node_eq (A : U) (hA : A ≠ 0) : node.Y A * node.Y A = node.X A * node.X A * node.X A + -3 * node.X A + -2 :=
  node_on s3_sq (val_sub hA)

/-- `Pt.ofZ` of the coordinates -/
theorem pt_ofZ {x y : ℤ} {A : U} (hA : A ≠ 0) (c : Option Addr) (hx : (x : ZMod secp256r1.fp) = node.X A)
    (hy : (y : ZMod secp256r1.fp) = node.Y A) : Pt.ofZ secp256r1 x y c = node.pt c A := by
  rw [node.pt_ne c hA, Pt.ofZ, Fld.mk'_eq, Fld.mk'_eq, hx, hy]

theorem exists_coords (A : U) : ∃ x y : ℤ, (x : ZMod secp256r1.fp) = node.X A ∧ (y : ZMod secp256r1.fp) = node.Y A :=
  ⟨((node.X A).val : ℤ), ((node.Y A).val : ℤ), by rw [Int.cast_natCast, ZMod.natCast_zmod_val],
    by rw [Int.cast_natCast, ZMod.natCast_zmod_val]⟩

theorem off {x y : ℤ} {A : U} (hA : A ≠ 0) (hx : (x : ZMod secp256r1.fp) = node.X A)
    (hy : (y : ZMod secp256r1.fp) = node.Y A) : ¬ CurveEq secp256r1 x y := by
  intro h
  rw [CurveEq, GoodCurve0.prime_eq, ← ZMod.intCast_eq_intCast_iff] at h
  push_cast at h
  rw [hx, hy, node_eq A hA, a_eq] at h
  have hb : ((secp256r1.b + 2 : ℤ) : ZMod secp256r1.fp) = 0 := by
    push_cast
    linear_combination -h
  rw [ZMod.intCast_zmod_eq_zero_iff_dvd] at hb
  revert hb
  decide +kernel

/-! ## Adding (0, 0) to (6, 14) -/

theorem three_ne : (3 : ZMod secp256r1.fp) ≠ 0 := by
  intro h; apply twelve_ne; linear_combination (4 : ZMod secp256r1.fp) * h

theorem six_ne : (6 : ZMod secp256r1.fp) ≠ 0 := by
  intro h; apply twelve_ne; linear_combination (2 : ZMod secp256r1.fp) * h

/-- the result of subtracting infinity from (6, 14) in a release build -/
def bogus (c : Option Addr) : Pt := Pt.ofFld (Fld.ofZ (-5 / 9 : ZMod secp256r1.fp)) (Fld.ofZ (35 / 27 : ZMod secp256r1.fp)) c

theorem sub_infty_release {env : Env} (hd : env.ndebug = true) (c : Option Addr) :
    (node.pt c tV).sub env secp256r1 (Pt.infty secp256r1) = .ok (bogus c) := by
  have hca : ∀ e : R Bool, cassert env e = .ok () := fun e => by simp [cassert, hd]
  have h6 : (6 : ZMod secp256r1.fp) ≠ 0 := six_ne
  have h3 : (3 : ZMod secp256r1.fp) ≠ 0 := three_ne
  have h9 : (9 : ZMod secp256r1.fp) ≠ 0 := by
    rw [show (9 : ZMod secp256r1.fp) = 3 * 3 by norm_num]; exact mul_ne_zero h3 h3
  have h27 : (27 : ZMod secp256r1.fp) ≠ 0 := by
    rw [show (27 : ZMod secp256r1.fp) = 3 * 9 by norm_num]; exact mul_ne_zero h3 h9
  have hs : (14 - 0 : ZMod secp256r1.fp) / (6 - 0) = 7 / 3 := by
    rw [sub_zero, sub_zero, div_eq_div_iff h6 h3]; norm_num
  have hx : (7 / 3 * (7 / 3) - 6 - 0 : ZMod secp256r1.fp) = -5 / 9 := by
    field_simp; norm_num
  have hy : (7 / 3 * (6 - -5 / 9) - 14 : ZMod secp256r1.fp) = 35 / 27 := by
    field_simp; norm_num
  rw [node.pt_ne c tV_ne', tV_lit.1, tV_lit.2]
  have e0 : Int.cast 0 - 0 = (0 : ZMod secp256r1.fp) := by rw [Int.cast_zero, sub_zero]
  have e60 : ¬ (6 : ZMod secp256r1.fp) = 0 := h6
  simp only [Pt.sub, hca, R.ok_bind, Pt.infty, Fld.zero_eq, Fld.mk'_eq, Fld.sub_ofZ, e0, Pt.ofFld, Pt.add,
    Bool.false_eq_true, if_false, Fld.beq_ofZ, e60, decide_false, Fld.div_ofZ env _ (by rwa [sub_zero] : (6 - 0 : ZMod secp256r1.fp) ≠ 0),
    hs, Fld.mul_ofZ, hx, hy]
  rfl

theorem sub_infty_debug {env : Env} (hd : env.ndebug = false) {c : Option Addr} (hc : Live env c) :
    ∃ e, (node.pt c tV).sub env secp256r1 (Pt.infty secp256r1) = .error e := by
  obtain ⟨o, ho⟩ := deref_live hc
  refine ⟨.nullDeref, ?_⟩
  rw [node.pt_ne c tV_ne']
  have h : Pt.curveEq env secp256r1 c none = .error .nullDeref := by
    simp only [Pt.curveEq, ho, R.ok_bind]
    rfl
  simp only [Pt.sub, Pt.infty, h, cassert, hd]
  rfl

theorem bogus_ne (c : Option Addr) (A : U) : bogus c ≠ node.pt c A := by
  intro e
  by_cases hA : A = 0
  · rw [hA, node.pt_zero] at e
    have := congrArg Pt.inf e
    simp [bogus, Pt.ofFld, Pt.infty] at this
  · rw [node.pt_ne c hA] at e
    have hx := Fld.ofZ_injective (congrArg Pt.x e)
    have hy := Fld.ofZ_injective (congrArg Pt.y e)
    have h := node_eq A hA
    rw [← hx, ← hy] at h
    have h3 : (3 : ZMod secp256r1.fp) ≠ 0 := three_ne
    have h9 : (9 : ZMod secp256r1.fp) ≠ 0 := by
      rw [show (9 : ZMod secp256r1.fp) = 3 * 3 by norm_num]; exact mul_ne_zero h3 h3
    have h27 : (27 : ZMod secp256r1.fp) ≠ 0 := by
      rw [show (27 : ZMod secp256r1.fp) = 3 * 9 by norm_num]; exact mul_ne_zero h3 h9
    have e1 : (35 / 27 : ZMod secp256r1.fp) * 27 = 35 := div_mul_cancel₀ _ h27
    have e2 : (-5 / 9 : ZMod secp256r1.fp) * 9 = -5 := div_mul_cancel₀ _ h9
    generalize (35 / 27 : ZMod secp256r1.fp) = y at h e1
    generalize (-5 / 9 : ZMod secp256r1.fp) = x at h e2
    have key : ((1593 : ℕ) : ZMod secp256r1.fp) = 0 := by
      push_cast
      linear_combination 729 * h - (y * 27 + 35) * e1 + ((x * 9) ^ 2 + (x * 9) * (-5) + 25 - 243) * e2
    rw [ZMod.natCast_eq_zero_iff] at key
    revert key
    decide +kernel

/-! ## Points off the curve stay off the curve -/

section stays
variable {C : CurveClass} [GoodCurve0 C] {env : Env} {c : Option Addr}

/-- on the curve with constant coefficient `b` -/
def OnB (C : CurveClass) (b x y : ZMod C.fp) : Prop := y * y = x * x * x + C.a * x + b

/-- a point object with coordinates on that curve, or infinity -/
def InB (C : CurveClass) (b : ZMod C.fp) (c : Option Addr) (P : Pt) : Prop :=
  P = Pt.infty C ∨ ∃ x y, P = ⟨Fld.ofZ x, Fld.ofZ y, false, c⟩ ∧ OnB C b x y

theorem chord_on {F : Type} [Field F] {a b m x y x' y' : F} (hn : x - x' ≠ 0) (hm : m * (x - x') = y - y')
    (h : y * y = x * x * x + a * x + b) (h' : y' * y' = x' * x' * x' + a * x' + b) :
    (m * (x - (m * m - x - x')) - y) * (m * (x - (m * m - x - x')) - y) =
      (m * m - x - x') * (m * m - x - x') * (m * m - x - x') + a * (m * m - x - x') + b := by
  have hy' : y' = y - m * (x - x') := by rw [hm]; ring
  rw [hy'] at h'
  apply mul_left_cancel₀ hn
  linear_combination (m * m - x - x' - x') * h - (m * m - x - x' - x) * h'

theorem tangent_on {F : Type} [Field F] {a b m x y : F} (hm : m * (y * 2) = x * x * 3 + a)
    (h : y * y = x * x * x + a * x + b) :
    (m * (x - (m * m - x * 2)) - y) * (m * (x - (m * m - x * 2)) - y) =
      (m * m - x * 2) * (m * m - x * 2) * (m * m - x * 2) + a * (m * m - x * 2) + b := by
  linear_combination h + (m * m - x * 2 - x) * hm

theorem double_onB {b x y : ZMod C.fp} {Q : Pt} (hc : Live env c) (h : OnB C b x y)
    (e : (⟨Fld.ofZ x, Fld.ofZ y, false, c⟩ : Pt).double env C = .ok Q) :
    ∃ x' y', Q = ⟨Fld.ofZ x', Fld.ofZ y', false, c⟩ ∧ OnB C b x' y' := by
  obtain ⟨o, ho⟩ := deref_live hc
  have i3 : ((3 : ℤ) : ZMod C.fp) = 3 := by norm_cast
  have i2 : ((2 : ℤ) : ZMod C.fp) = 2 := by norm_cast
  by_cases hd : y * 2 = 0
  · simp only [Pt.double, Fld.square_ofZ, Fld.mulZ_ofZ, Fld.mk'_eq, Fld.add_ofZ, ho, R.ok_bind, i3, i2, hd,
      Fld.div_ofZ_zero] at e
    cases e
  · simp only [Pt.double, Fld.square_ofZ, Fld.mulZ_ofZ, Fld.mk'_eq, Fld.add_ofZ, ho, R.ok_bind, i3, i2,
      Fld.div_ofZ env _ hd, Fld.mul_ofZ, Fld.sub_ofZ] at e
    cases e
    exact ⟨_, _, rfl, tangent_on (div_mul_cancel₀ _ hd) h⟩

theorem add_onB {b : ZMod C.fp} {P Q S : Pt} (hc : Live env c) (hP : InB C b c P) (hQ : InB C b c Q)
    (e : P.add env C Q = .ok S) : InB C b c S := by
  rcases hP with rfl | ⟨x, y, rfl, h⟩
  · have : Q = S := by simpa [Pt.add, Pt.infty] using e
    rwa [← this]
  rcases hQ with rfl | ⟨x', y', rfl, h'⟩
  · have : (⟨Fld.ofZ x, Fld.ofZ y, false, c⟩ : Pt) = S := by simpa [Pt.add, Pt.infty] using e
    rw [← this]
    exact .inr ⟨_, _, rfl, h⟩
  have hcs := cassert_of_eq_true env (curveEq_live (C := C) hc hc)
  by_cases hx : x = x'
  · by_cases hy : y = y'
    · have e' : (⟨Fld.ofZ x, Fld.ofZ y, false, c⟩ : Pt).double env C = .ok S := by
        rw [← e]; simp [Pt.add, hcs, Fld.beq_ofZ, hx, hy]
      exact .inr (double_onB hc h e')
    · have : Pt.infty C = S := by simpa [Pt.add, hcs, Fld.beq_ofZ, hx, hy] using e
      exact .inl this.symm
  · simp only [Pt.add, hcs, Fld.beq_ofZ, hx, R.ok_bind, Fld.sub_ofZ, Fld.mul_ofZ,
      Fld.div_ofZ env _ (sub_ne_zero.2 hx), Bool.false_eq_true, if_false, decide_false] at e
    cases e
    exact .inr ⟨_, _, rfl, chord_on (sub_ne_zero.2 hx) (div_mul_cancel₀ _ (sub_ne_zero.2 hx)) h h'⟩

theorem smulLoop_onB {b : ZMod C.fp} (hc : Live env c) (cs : List Char) {r S : Pt} {x y : ZMod C.fp} (h : OnB C b x y)
    (hr : InB C b c r) (e : Pt.smulLoop env C cs ⟨Fld.ofZ x, Fld.ofZ y, false, c⟩ r = .ok S) : InB C b c S := by
  induction cs generalizing r x y with
  | nil =>
    have : r = S := by simpa [Pt.smulLoop] using e
    rwa [← this]
  | cons d cs ih =>
    rw [Pt.smulLoop] at e
    obtain ⟨r', e1, e⟩ := R.bind_eq_ok.1 e
    obtain ⟨p', e2, e⟩ := R.bind_eq_ok.1 e
    have hr' : InB C b c r' := by
      by_cases hd : d = '1'
      · rw [if_pos hd] at e1
        exact add_onB hc hr (.inr ⟨_, _, rfl, h⟩) e1
      · rw [if_neg hd] at e1
        cases e1
        exact hr
    by_cases hcs : cs.isEmpty
    · rw [if_pos hcs] at e2
      cases e2
      exact ih h hr' e
    · rw [if_neg hcs] at e2
      obtain ⟨x', y', rfl, h''⟩ := double_onB hc h e2
      exact ih h'' hr' e

end stays

end OffCurve
end Verif
