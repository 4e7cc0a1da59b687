import Mathlib.Algebra.Module.ZMod
import Mathlib.Tactic.Module
import Verif.Lemmas.EccSpec

/-!
# The group of a curve as a vector space over the scalar field
-/

namespace Verif

open EC

variable {env : Env} {C : CurveClass} [GoodCurve C]

/-- scalars act on points through `ZMod fn` -/
instance grpModule : Module (ZMod C.fn) (Grp C) := AddCommGroup.zmodModule fn_nsmul

theorem val_nsmul (k : ZMod C.fn) (A : Grp C) : k.val • A = k • A := by
  have : ((k.val : ℕ) : ZMod C.fn) • A = k.val • A := Nat.cast_smul_eq_nsmul _ _ _
  rw [← this]; simp

theorem int_zsmul (k : ℤ) (A : Grp C) : k • A = (k : ZMod C.fn) • A := (Int.cast_smul_eq_zsmul _ _ _).symm

/-- scalar multiplication by a field object -/
theorem smulF_rep {P : Pt} {A : Grp C} (hP : Rep env P A) (k : ZMod C.fn) :
    ∃ S, P.smul env C (Fld.ofZ k) = .ok S ∧ Rep env S (k • A) := by
  obtain ⟨S, h1, h2⟩ := smul_ofZ_rep hP k
  exact ⟨S, h1, by rwa [val_nsmul] at h2⟩

/-- scalar multiplication by an integer -/
theorem smulI_rep {P : Pt} {A : Grp C} (hP : Rep env P A) (k : ℤ) :
    ∃ S, P.smulZ env C k = .ok S ∧ Rep env S ((k : ZMod C.fn) • A) := by
  obtain ⟨S, h1, h2⟩ := smulZ_rep hP k
  exact ⟨S, h1, by rwa [int_zsmul] at h2⟩

theorem randomPoint_rep {c : Option Addr} (h : LiveGen env c) (k : ℤ) :
    ∃ P, Curve.getRandomPoint env C c k = .ok P ∧ Rep env P ((k : ZMod C.fn) • (G : Grp C)) := by
  obtain ⟨S, h1, h2⟩ := getRandomPoint_rep (C := C) h k
  exact ⟨S, h1, by rwa [int_zsmul] at h2⟩

theorem exists_smul {B : Grp C} (hB : B ≠ 0) (A : Grp C) : ∃ k : ZMod C.fn, A = k • B := by
  obtain ⟨k, -, h⟩ := exists_zsmul hB A
  exact ⟨k, by rw [h, Nat.cast_smul_eq_nsmul]⟩

theorem zero_smulG (A : Grp C) : (0 : ZMod C.fn) • A = 0 := by
  rw [← val_nsmul, ZMod.val_zero, zero_nsmul]

theorem one_smulG (A : Grp C) : (1 : ZMod C.fn) • A = A := one_smul _ _

theorem G_ne_zero : (G : Grp C) ≠ 0 := pt_ne_zero _

theorem smul_inj {B : Grp C} (hB : B ≠ 0) {j k : ZMod C.fn} : j • B = k • B ↔ j = k := by
  constructor
  · intro h
    have : (j - k) • B = 0 := by rw [sub_smul, h, sub_self]
    rcases smul_eq_zero.1 this with h | h
    · exact sub_eq_zero.1 h
    · exact absurd h hB
  · rintro rfl; rfl

end Verif
