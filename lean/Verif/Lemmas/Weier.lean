import Mathlib.AlgebraicGeometry.EllipticCurve.Affine.Point
import Mathlib.Algebra.Field.ZMod
import Mathlib.Tactic.FieldSimp
import Mathlib.Tactic.LinearCombination
import Verif.Model.Ecc

/-!
# Short Weierstrass curves over a field, on top of Mathlib's group law
-/

namespace Verif

namespace SW

variable {F : Type} [Field F] [DecidableEq F]

/-- The short Weierstrass curve `y² = x³ + a x + b`. -/
abbrev W (a b : F) : WeierstrassCurve.Affine F := ⟨0, 0, 0, a, b⟩

omit [DecidableEq F] in
theorem delta_ne {a b : F} (h2 : (2 : F) ≠ 0) (h : 4 * a ^ 3 + 27 * b ^ 2 ≠ 0) : (W a b).Δ ≠ 0 := by
  have e : (W a b).Δ = -(2 ^ 4) * (4 * a ^ 3 + 27 * b ^ 2) := by
    simp only [WeierstrassCurve.Δ, WeierstrassCurve.b₂, WeierstrassCurve.b₄, WeierstrassCurve.b₆,
      WeierstrassCurve.b₈]
    ring
  rw [e]
  exact mul_ne_zero (neg_ne_zero.2 (pow_ne_zero _ h2)) h

omit [DecidableEq F] in
theorem equation_iff {a b x y : F} : (W a b).Equation x y ↔ y ^ 2 = x ^ 3 + a * x + b := by
  rw [WeierstrassCurve.Affine.equation_iff]
  constructor <;> intro h <;> linear_combination h

omit [DecidableEq F] in
theorem nonsingular_iff {a b x y : F} (hΔ : (W a b).Δ ≠ 0) :
    (W a b).Nonsingular x y ↔ y ^ 2 = x ^ 3 + a * x + b := by
  rw [← WeierstrassCurve.Affine.equation_iff_nonsingular_of_Δ_ne_zero hΔ, equation_iff]

theorem add_of_ne {a b x₁ y₁ x₂ y₂ : F} (h₁ : (W a b).Nonsingular x₁ y₁)
    (h₂ : (W a b).Nonsingular x₂ y₂) (hx : x₁ ≠ x₂) (s x₃ y₃ : F) (hs : s = (y₁ - y₂) / (x₁ - x₂))
    (hx₃ : x₃ = s * s - x₁ - x₂) (hy₃ : y₃ = s * (x₁ - x₃) - y₁) :
    ∃ h : (W a b).Nonsingular x₃ y₃,
      (WeierstrassCurve.Affine.Point.some x₁ y₁ h₁ : (W a b).Point) + .some x₂ y₂ h₂ = .some x₃ y₃ h := by
  have key := WeierstrassCurve.Affine.Point.add_of_X_ne (W := W a b) (h₁ := h₁) (h₂ := h₂) hx
  have hs' : (W a b).slope x₁ x₂ y₁ y₂ = s := by
    rw [hs]; exact WeierstrassCurve.Affine.slope_of_X_ne (W := W a b) hx
  have ex : (W a b).addX x₁ x₂ ((W a b).slope x₁ x₂ y₁ y₂) = x₃ := by
    rw [hs', hx₃]; simp only [WeierstrassCurve.Affine.addX]; ring
  have ey : (W a b).addY x₁ x₂ y₁ ((W a b).slope x₁ x₂ y₁ y₂) = y₃ := by
    rw [WeierstrassCurve.Affine.addY, WeierstrassCurve.Affine.negAddY, ex, hs', hy₃]
    simp only [WeierstrassCurve.Affine.negY]
    ring
  have hns := WeierstrassCurve.Affine.nonsingular_add h₁ h₂ fun hxy => hx hxy.1
  have hns' : (W a b).Nonsingular x₃ y₃ := by rw [← ex, ← ey]; exact hns
  refine ⟨hns', ?_⟩
  rw [key]
  simp only [WeierstrassCurve.Affine.Point.some.injEq]
  exact ⟨ex, ey⟩

theorem double {a b x y : F} (h2 : (2 : F) ≠ 0) (h : (W a b).Nonsingular x y) (hy : y ≠ 0)
    (s x₃ y₃ : F) (hs : s = (x * x * 3 + a) / (y * 2))
    (hx₃ : x₃ = s * s - x * 2) (hy₃ : y₃ = s * (x - x₃) - y) :
    ∃ h' : (W a b).Nonsingular x₃ y₃,
      (WeierstrassCurve.Affine.Point.some x y h : (W a b).Point) + .some x y h = .some x₃ y₃ h' := by
  have hy' : y ≠ (W a b).negY x y := by
    simp only [WeierstrassCurve.Affine.negY]
    intro e
    have : 2 * y = 0 := by linear_combination e
    exact hy ((mul_eq_zero.1 this).resolve_left h2)
  have key := WeierstrassCurve.Affine.Point.add_self_of_Y_ne (W := W a b) (h₁ := h) hy'
  have hs' : (W a b).slope x x y y = s := by
    rw [hs, WeierstrassCurve.Affine.slope_of_Y_ne rfl hy']
    simp only [WeierstrassCurve.Affine.negY]
    congr 1 <;> ring
  have ex : (W a b).addX x x ((W a b).slope x x y y) = x₃ := by
    rw [hs', hx₃]; simp only [WeierstrassCurve.Affine.addX]; ring
  have ey : (W a b).addY x x y ((W a b).slope x x y y) = y₃ := by
    rw [WeierstrassCurve.Affine.addY, WeierstrassCurve.Affine.negAddY, ex, hs', hy₃]
    simp only [WeierstrassCurve.Affine.negY]
    ring
  have hns := WeierstrassCurve.Affine.nonsingular_add h h fun hxy => hy' hxy.2
  have hns' : (W a b).Nonsingular x₃ y₃ := by rw [← ex, ← ey]; exact hns
  refine ⟨hns', ?_⟩
  rw [key]
  simp only [WeierstrassCurve.Affine.Point.some.injEq]
  exact ⟨ex, ey⟩

end SW

/-- Basic sanity of a curve class: prime moduli, `p ≡ 3 (mod 4)`, non-singular. -/
class GoodCurve0 (C : CurveClass) : Prop where
  fp_prime : C.fp.Prime
  fn_prime : C.fn.Prime
  prime_eq : C.prime = C.fp
  order_eq : C.order = C.fn
  fp_mod4 : C.fp % 4 = 3
  fn_ne_two : C.fn ≠ 2
  disc_ne : (4 * (C.a : ZMod C.fp) ^ 3 + 27 * (C.b : ZMod C.fp) ^ 2) ≠ 0
  b_ne : (C.b : ZMod C.fp) ≠ 0
  gen_on : (C.gy : ZMod C.fp) ^ 2 = (C.gx : ZMod C.fp) ^ 3 + C.a * C.gx + C.b

namespace EC

variable (C : CurveClass) [GoodCurve0 C]

instance : Fact C.fp.Prime := ⟨GoodCurve0.fp_prime⟩
instance : Fact C.fn.Prime := ⟨GoodCurve0.fn_prime⟩
instance : NeZero C.fp := ⟨(GoodCurve0.fp_prime (C := C)).ne_zero⟩
instance : NeZero C.fn := ⟨(GoodCurve0.fn_prime (C := C)).ne_zero⟩

/-- The Weierstrass curve of the class. -/
abbrev W : WeierstrassCurve.Affine (ZMod C.fp) := SW.W (C.a : ZMod C.fp) (C.b : ZMod C.fp)

/-- The group of points. -/
abbrev Grp := (W C).Point

omit [GoodCurve0 C] in
/-- the curve equation -/
def On (x y : ZMod C.fp) : Prop := y ^ 2 = x ^ 3 + C.a * x + C.b

theorem two_ne : (2 : ZMod C.fp) ≠ 0 := by
  have h : C.fp % 4 = 3 := GoodCurve0.fp_mod4
  intro h2
  have : ((2 : ℕ) : ZMod C.fp) = 0 := by exact_mod_cast h2
  rw [ZMod.natCast_eq_zero_iff] at this
  have := Nat.le_of_dvd (by norm_num) this
  have h1 := (GoodCurve0.fp_prime (C := C)).two_le
  omega

theorem delta_ne : (W C).Δ ≠ 0 := SW.delta_ne (two_ne C) GoodCurve0.disc_ne

variable {C}

theorem nonsingular_of_on {x y : ZMod C.fp} (h : On C x y) : (W C).Nonsingular x y :=
  (SW.nonsingular_iff (delta_ne C)).2 h

theorem on_of_nonsingular {x y : ZMod C.fp} (h : (W C).Nonsingular x y) : On C x y :=
  (SW.nonsingular_iff (delta_ne C)).1 h

/-- the affine point with given coordinates -/
def pt {x y : ZMod C.fp} (h : On C x y) : Grp C := .some x y (nonsingular_of_on h)

theorem pt_ne_zero {x y : ZMod C.fp} (h : On C x y) : pt h ≠ 0 := by
  simp [pt]

theorem cases_pt (A : Grp C) : A = 0 ∨ ∃ (x y : ZMod C.fp) (h : On C x y), A = pt h := by
  cases A with
  | zero => exact Or.inl rfl
  | some x y h => exact Or.inr ⟨x, y, on_of_nonsingular h, rfl⟩

theorem pt_inj {x y x' y' : ZMod C.fp} {h : On C x y} {h' : On C x' y'} :
    pt h = pt h' ↔ x = x' ∧ y = y' := by
  simp [pt]

theorem on_neg {x y : ZMod C.fp} (h : On C x y) : On C x (-y) := by
  unfold On at *; linear_combination h

theorem neg_pt {x y : ZMod C.fp} (h : On C x y) : -pt h = pt (on_neg h) := by
  simp [pt, WeierstrassCurve.Affine.negY]

theorem pt_add_of_ne {x₁ y₁ x₂ y₂ : ZMod C.fp} (h₁ : On C x₁ y₁) (h₂ : On C x₂ y₂) (hx : x₁ ≠ x₂)
    (s x₃ y₃ : ZMod C.fp) (hs : s = (y₁ - y₂) / (x₁ - x₂))
    (hx₃ : x₃ = s * s - x₁ - x₂) (hy₃ : y₃ = s * (x₁ - x₃) - y₁) :
    ∃ h : On C x₃ y₃, pt h₁ + pt h₂ = pt h := by
  obtain ⟨h, e⟩ := SW.add_of_ne (nonsingular_of_on h₁) (nonsingular_of_on h₂) hx s x₃ y₃ hs hx₃ hy₃
  exact ⟨on_of_nonsingular h, e⟩

theorem pt_double {x y : ZMod C.fp} (h : On C x y) (hy : y ≠ 0)
    (s x₃ y₃ : ZMod C.fp) (hs : s = (x * x * 3 + C.a) / (y * 2))
    (hx₃ : x₃ = s * s - x * 2) (hy₃ : y₃ = s * (x - x₃) - y) :
    ∃ h' : On C x₃ y₃, pt h + pt h = pt h' := by
  obtain ⟨h', e⟩ := SW.double (two_ne C) (nonsingular_of_on h) hy s x₃ y₃ hs hx₃ hy₃
  exact ⟨on_of_nonsingular h', e⟩

theorem y_eq_or {x y y' : ZMod C.fp} (h : On C x y) (h' : On C x y') : y = y' ∨ y = -y' := by
  unfold On at *
  have : (y - y') * (y + y') = 0 := by linear_combination h - h'
  rcases mul_eq_zero.1 this with e | e
  · exact Or.inl (sub_eq_zero.1 e)
  · exact Or.inr (eq_neg_of_add_eq_zero_left e)

theorem pt_add_neg {x y y' : ZMod C.fp} (h : On C x y) (h' : On C x y') (hy : y ≠ y') :
    pt h + pt h' = 0 := by
  have e : y = -y' := (y_eq_or h h').resolve_left hy
  have : pt h = -pt h' := by rw [neg_pt, pt_inj]; exact ⟨rfl, e⟩
  rw [this]; simp

theorem gen_on : On C (C.gx : ZMod C.fp) (C.gy : ZMod C.fp) := GoodCurve0.gen_on

/-- the default generator -/
def G : Grp C := pt (gen_on (C := C))

end EC

end Verif
