import Mathlib.NumberTheory.LegendreSymbol.Basic
import Verif.Spec.Basic
import Verif.Lemmas.Field
import Verif.Lemmas.OrderCert

/-!
# `operator+`, `pointDouble`, `operator*`, `evaluateP` compute the group law
-/

namespace Verif

open EC

theorem deref_live {env : Env} {c : Option Addr} (h : Live env c) : ∃ o, deref env c = .ok o := by
  obtain ⟨a, o, rfl, ho⟩ := h
  exact ⟨o, by simp [deref, ho]⟩

theorem deref_not_live {env : Env} {c : Option Addr} (h : ¬ Live env c) :
    ∃ e, deref env c = .error e := by
  rcases c with _ | a
  · exact ⟨_, rfl⟩
  · rcases ho : env.heap a with _ | o
    · exact ⟨.useAfterFree, by simp [deref, ho]⟩
    · exact absurd ⟨a, o, rfl, ho⟩ h

theorem curveEq_live {env : Env} {C : CurveClass} {c d : Option Addr} (hc : Live env c)
    (hd : Live env d) : Pt.curveEq env C c d = .ok true := by
  obtain ⟨o, ho⟩ := deref_live hc
  obtain ⟨o', ho'⟩ := deref_live hd
  simp [Pt.curveEq, ho, ho']

/-- the model point `P` represents the group element `A` -/
def Rep (env : Env) {C : CurveClass} [GoodCurve0 C] (P : Pt) : Grp C → Prop
  | .zero => P.inf = true ∧ P.x = Fld.ofZ (0 : ZMod C.fp) ∧ P.y = Fld.ofZ (0 : ZMod C.fp)
  | .some x y _ => P.inf = false ∧ P.x = Fld.ofZ x ∧ P.y = Fld.ofZ y ∧ Live env P.curve

variable {env : Env} {C : CurveClass}

section basic
variable [GoodCurve0 C]

theorem rep_zero_iff {P : Pt} : Rep env P (0 : Grp C) ↔
    P.inf = true ∧ P.x = Fld.ofZ (0 : ZMod C.fp) ∧ P.y = Fld.ofZ (0 : ZMod C.fp) := Iff.rfl

theorem rep_pt_iff {P : Pt} {x y : ZMod C.fp} (h : On C x y) : Rep env P (pt h) ↔
    P.inf = false ∧ P.x = Fld.ofZ x ∧ P.y = Fld.ofZ y ∧ Live env P.curve := Iff.rfl

theorem rep_infty : Rep env (Pt.infty C) (0 : Grp C) := by
  rw [rep_zero_iff]
  simp [Pt.infty, Fld.zero_eq]

theorem rep_inf {P : Pt} {A : Grp C} (h : Rep env P A) : P.inf = true ↔ A = 0 := by
  rcases cases_pt A with rfl | ⟨x, y, hon, rfl⟩
  · simp [(rep_zero_iff.1 h).1]
  · simp [((rep_pt_iff hon).1 h).1, pt_ne_zero]

theorem rep_inf_false {P : Pt} {A : Grp C} (h : Rep env P A) (hA : A ≠ 0) : P.inf = false := by
  rcases hi : P.inf with _ | _
  · rfl
  · exact absurd ((rep_inf h).1 hi) hA

theorem rep_live {P : Pt} {A : Grp C} (h : Rep env P A) (hA : A ≠ 0) : Live env P.curve := by
  rcases cases_pt A with rfl | ⟨x, y, hon, rfl⟩
  · exact absurd rfl hA
  · exact ((rep_pt_iff hon).1 h).2.2.2

/-- two representations of the same element agree in everything but the pointer -/
theorem rep_unique {P : Pt} {A B : Grp C} (h : Rep env P A) (h' : Rep env P B) : A = B := by
  rcases cases_pt A with rfl | ⟨x, y, hon, rfl⟩ <;> rcases cases_pt B with rfl | ⟨x', y', hon', rfl⟩
  · rfl
  · rw [rep_zero_iff] at h; rw [rep_pt_iff] at h'
    rw [h.1] at h'; simp at h'
  · rw [rep_zero_iff] at h'; rw [rep_pt_iff] at h
    rw [h'.1] at h; simp at h
  · rw [rep_pt_iff] at h h'
    rw [pt_inj]
    exact ⟨Fld.ofZ_injective (h.2.1.symm.trans h'.2.1), Fld.ofZ_injective (h.2.2.1.symm.trans h'.2.2.1)⟩

theorem rep_ofFld {x y : ZMod C.fp} (h : On C x y) {c : Option Addr} (hc : Live env c) :
    Rep env (Pt.ofFld (Fld.ofZ x) (Fld.ofZ y) c) (pt h) := by
  rw [rep_pt_iff]; exact ⟨rfl, rfl, rfl, hc⟩

theorem rep_beq {P Q : Pt} {A B : Grp C} (hP : Rep env P A) (hQ : Rep env Q B) :
    Pt.beq env C P Q = .ok (decide (A = B)) := by
  rcases cases_pt A with rfl | ⟨x, y, hon, rfl⟩ <;> rcases cases_pt B with rfl | ⟨x', y', hon', rfl⟩
  · rw [rep_zero_iff] at hP hQ
    simp [Pt.beq, hP.1, hQ.1]
  · rw [rep_zero_iff] at hP; rw [rep_pt_iff] at hQ
    have hne : ¬ (0 = x' ∧ 0 = y') := by
      rintro ⟨rfl, rfl⟩
      unfold On at hon'
      exact GoodCurve0.b_ne (C := C) (by linear_combination -hon')
    have h0 : (0 : Grp C) ≠ pt hon' := (pt_ne_zero hon').symm
    simp only [Pt.beq, hP.1, hP.2.1, hP.2.2, hQ.1, hQ.2.1, hQ.2.2.1, Fld.beq_ofZ, Bool.and_false,
      h0, decide_false, Bool.false_eq_true, if_false, decide_eq_true_eq]
    split_ifs with h1 h2
    · exact absurd ⟨h1, h2⟩ hne
    · rfl
    · rfl
  · rw [rep_zero_iff] at hQ; rw [rep_pt_iff] at hP
    have hne : ¬ (x = 0 ∧ y = 0) := by
      rintro ⟨rfl, rfl⟩
      unfold On at hon
      exact GoodCurve0.b_ne (C := C) (by linear_combination -hon)
    have h0 : pt hon ≠ (0 : Grp C) := (pt_ne_zero hon)
    simp only [Pt.beq, hP.1, hP.2.1, hP.2.2.1, hQ.1, hQ.2.1, hQ.2.2, Fld.beq_ofZ, Bool.false_and,
      h0, decide_false, Bool.false_eq_true, if_false, decide_eq_true_eq]
    split_ifs with h1 h2
    · exact absurd ⟨h1, h2⟩ hne
    · rfl
    · rfl
  · rw [rep_pt_iff] at hP hQ
    simp only [Pt.beq, hP.1, hP.2.1, hP.2.2.1, hQ.1, hQ.2.1, hQ.2.2.1, Fld.beq_ofZ, Bool.false_and,
      pt_inj, Bool.false_eq_true, if_false, decide_eq_true_eq, curveEq_live hP.2.2.2 hQ.2.2.2,
      R.ok_bind, decide_true, Bool.and_true]
    split_ifs with h1 h2
    · simp [h1, h2]
    · simp [h2]
    · simp [h1]

end basic

section group
variable [GoodCurve C]

theorem double_rep {P : Pt} {A : Grp C} (h : Rep env P A) (hA : A ≠ 0) :
    ∃ Q, P.double env C = .ok Q ∧ Rep env Q (A + A) ∧ Q.curve = P.curve := by
  rcases cases_pt A with rfl | ⟨x, y, hon, rfl⟩
  · exact absurd rfl hA
  obtain ⟨hinf, hx, hy, hl⟩ := (rep_pt_iff hon).1 h
  have hy0 := y_ne_zero hon
  have hd : y * 2 ≠ 0 := mul_ne_zero hy0 (two_ne C)
  obtain ⟨o, ho⟩ := deref_live hl
  obtain ⟨h', e⟩ := pt_double hon hy0 _ _ _ rfl rfl rfl
  have hr := rep_ofFld h' hl
  rw [← e] at hr
  refine ⟨_, ?_, hr, rfl⟩
  have h3 : ((3 : ℤ) : ZMod C.fp) = 3 := by norm_cast
  have h2 : ((2 : ℤ) : ZMod C.fp) = 2 := by norm_cast
  simp only [Pt.double, hx, hy, Fld.square_ofZ, Fld.mulZ_ofZ, Fld.mk'_eq, Fld.add_ofZ, ho,
    R.ok_bind, h3, h2, Fld.div_ofZ env _ hd, Fld.mul_ofZ, Fld.sub_ofZ]

theorem add_rep {P Q : Pt} {A B : Grp C} (hP : Rep env P A) (hQ : Rep env Q B) :
    ∃ S, P.add env C Q = .ok S ∧ Rep env S (A + B) := by
  rcases cases_pt A with rfl | ⟨x, y, hon, rfl⟩
  · refine ⟨Q, ?_, by simpa using hQ⟩
    simp [Pt.add, (rep_zero_iff.1 hP).1]
  rcases cases_pt B with rfl | ⟨x', y', hon', rfl⟩
  · refine ⟨P, ?_, by simpa using hP⟩
    simp [Pt.add, (rep_zero_iff.1 hQ).1, ((rep_pt_iff hon).1 hP).1]
  obtain ⟨hinf, hx, hy, hl⟩ := (rep_pt_iff hon).1 hP
  obtain ⟨hinf', hx', hy', hl'⟩ := (rep_pt_iff hon').1 hQ
  have hc := cassert_of_eq_true env (curveEq_live (C := C) hl hl')
  by_cases hxx : x = x'
  · subst hxx
    by_cases hyy : y = y'
    · subst hyy
      obtain ⟨S, hS, hr, -⟩ := double_rep hP (pt_ne_zero hon)
      refine ⟨S, ?_, hr⟩
      simp [Pt.add, hinf, hinf', hc, hx, hx', hy, hy', Fld.beq_ofZ, hS]
    · refine ⟨Pt.infty C, ?_, by rw [pt_add_neg hon hon' hyy]; exact rep_infty⟩
      simp [Pt.add, hinf, hinf', hc, hx, hx', hy, hy', Fld.beq_ofZ, hyy]
  · obtain ⟨h', e⟩ := pt_add_of_ne hon hon' hxx _ _ _ rfl rfl rfl
    refine ⟨_, ?_, by rw [e]; exact rep_ofFld h' hl⟩
    simp only [Pt.add, hinf, hinf', hc, hx, hx', hy, hy', Fld.beq_ofZ, hxx, R.ok_bind,
      Fld.sub_ofZ, Fld.mul_ofZ, Fld.div_ofZ env _ (sub_ne_zero.2 hxx), Bool.false_eq_true, if_false,
      decide_false]

theorem neg_rep {Q : Pt} {B : Grp C} (hQ : Rep env Q B) (hB : B ≠ 0) {c : Option Addr}
    (hc : Live env c) :
    ∃ ny, (Fld.mk' C.fp 0).sub env C.fp Q.y = .ok ny ∧ Rep env (Pt.ofFld Q.x ny c) (-B) := by
  rcases cases_pt B with rfl | ⟨x, y, hon, rfl⟩
  · exact absurd rfl hB
  obtain ⟨hinf, hx, hy, hl⟩ := (rep_pt_iff hon).1 hQ
  refine ⟨_, by rw [Fld.mk'_eq, hy, Fld.sub_ofZ], ?_⟩
  rw [neg_pt, hx]
  have : ((0 : ℤ) : ZMod C.fp) - y = -y := by simp
  rw [this]
  exact rep_ofFld _ hc

theorem sub_rep {P Q : Pt} {A B : Grp C} (hP : Rep env P A) (hQ : Rep env Q B) (hA : A ≠ 0)
    (hB : B ≠ 0) : ∃ S, P.sub env C Q = .ok S ∧ Rep env S (A - B) := by
  have hl := rep_live hP hA
  obtain ⟨ny, h1, h2⟩ := neg_rep hQ hB hl
  obtain ⟨S, hS, hr⟩ := add_rep hP h2
  refine ⟨S, ?_, by rwa [sub_eq_add_neg]⟩
  simp only [Pt.sub, cassert_of_eq_true env (curveEq_live (C := C) hl (rep_live hQ hB)), R.ok_bind, h1, hS]

/-- value of a digit string read from its last character -/
def digitsVal : List Char → ℕ
  | [] => 0
  | c :: cs => (if c = '1' then 1 else 0) + 2 * digitsVal cs

theorem digitsVal_append (l l' : List Char) :
    digitsVal (l ++ l') = digitsVal l + 2 ^ l.length * digitsVal l' := by
  induction l with
  | nil => simp [digitsVal]
  | cons c cs ih => simp only [List.cons_append, digitsVal, ih, List.length_cons, pow_succ]; ring

theorem digitsVal_binDigitsAux (f n : ℕ) (acc : List Char) (h : n < f) :
    digitsVal (binDigitsAux f n acc).reverse = digitsVal acc.reverse + 2 ^ acc.length * n := by
  induction f generalizing n acc with
  | zero => omega
  | succ f ih =>
    rw [binDigitsAux]
    split_ifs with h1 h2 h3
    · subst h2; simp [digitsVal_append, digitsVal]
    · have : n = 0 := by omega
      subst this; simp [digitsVal_append, digitsVal]
    · rw [ih _ _ (by omega)]
      simp only [List.reverse_cons, digitsVal_append, List.length_cons, List.length_reverse, digitsVal,
        if_true, pow_succ]
      have : n = 2 * (n / 2) + 1 := by omega
      conv_rhs => rw [this]
      ring
    · rw [ih _ _ (by omega)]
      simp only [List.reverse_cons, digitsVal_append, List.length_cons, List.length_reverse, digitsVal,
        pow_succ]
      have : n = 2 * (n / 2) := by omega
      conv_rhs => rw [this]
      simp only [show ('0' : Char) ≠ '1' by decide, if_false]
      ring

theorem digitsVal_getStr2 (v : ℤ) (hv : 0 ≤ v) : digitsVal (getStr2 v).reverse = v.toNat := by
  rw [getStr2, if_neg (by omega), digitsVal_binDigitsAux _ _ _ (by omega)]
  simp [digitsVal]
  omega

theorem smulLoop_rep (cs : List Char) {P Q : Pt} {A B : Grp C} (hP : Rep env P B) (hB : B ≠ 0)
    (hQ : Rep env Q A) :
    ∃ S, Pt.smulLoop env C cs P Q = .ok S ∧ Rep env S (A + digitsVal cs • B) := by
  induction cs generalizing P Q A B with
  | nil => exact ⟨Q, rfl, by simpa [digitsVal] using hQ⟩
  | cons c cs ih =>
    have hstep : ∃ Q', (if c = '1' then Q.add env C P else .ok Q) = .ok Q' ∧
        Rep env Q' (A + (if c = '1' then 1 else 0) • B) := by
      by_cases hc : c = '1'
      · obtain ⟨Q', h1, h2⟩ := add_rep hQ hP
        exact ⟨Q', by simp [hc, h1], by simpa [hc] using h2⟩
      · exact ⟨Q, by simp [hc], by simpa [hc] using hQ⟩
    obtain ⟨Q', h1, h2⟩ := hstep
    rcases cs with _ | ⟨c', cs'⟩
    · refine ⟨Q', ?_, by simpa [digitsVal] using h2⟩
      simp only [Pt.smulLoop, h1, R.ok_bind, List.isEmpty_nil, if_true]
    · obtain ⟨P', h3, h4, -⟩ := double_rep hP hB
      have hBB : B + B ≠ 0 := fun e => hB (eq_zero_of_double e)
      obtain ⟨S, h5, h6⟩ := ih h4 hBB h2
      refine ⟨S, ?_, ?_⟩
      · rw [Pt.smulLoop, h1]
        simp only [R.ok_bind, List.isEmpty_cons, Bool.false_eq_true, if_false, h3, h5]
      · have : A + digitsVal (c :: c' :: cs') • B
            = A + (if c = '1' then 1 else 0) • B + digitsVal (c' :: cs') • (B + B) := by
          rw [digitsVal, add_smul, add_assoc, mul_comm 2, mul_nsmul', two_nsmul]
        rw [this]; exact h6

theorem smul_rep {P : Pt} {A : Grp C} (hP : Rep env P A) (k : Fld) (hk : 0 ≤ k.value) :
    ∃ S, P.smul env C k = .ok S ∧ Rep env S (k.value • A) := by
  by_cases hA : A = 0
  · subst hA
    exact ⟨P, by simp [Pt.smul, (rep_zero_iff.1 hP).1], by rw [zsmul_zero]; exact hP⟩
  · obtain ⟨S, h1, h2⟩ := smulLoop_rep (getStr2 k.value).reverse hP hA (rep_infty (env := env) (C := C))
    refine ⟨S, ?_, ?_⟩
    · simp only [Pt.smul, rep_inf_false hP hA, Bool.false_eq_true, if_false, Fld.getRawValue, h1]
    · rw [zero_add, digitsVal_getStr2 _ hk] at h2
      have : ((k.value.toNat : ℤ)) = k.value := Int.toNat_of_nonneg hk
      rw [← this, natCast_zsmul]
      exact h2

/-- scalar of a residue modulo the order -/
theorem zsmul_emod (A : Grp C) (k : ℤ) : (k % (C.fn : ℤ)) • A = k • A := by
  rw [Int.emod_def, sub_smul, mul_comm, mul_smul, natCast_zsmul, fn_nsmul]
  rw [zsmul_zero, sub_zero]

theorem smulZ_rep {P : Pt} {A : Grp C} (hP : Rep env P A) (k : ℤ) :
    ∃ S, P.smulZ env C k = .ok S ∧ Rep env S (k • A) := by
  have hn : (C.fn : ℤ) ≠ 0 := by exact_mod_cast (GoodCurve0.fn_prime (C := C)).ne_zero
  obtain ⟨S, h1, h2⟩ := smul_rep hP (Fld.mk' C.fn k) (Int.emod_nonneg _ hn)
  refine ⟨S, h1, ?_⟩
  have : (Fld.mk' C.fn k).value = k % (C.fn : ℤ) := rfl
  rwa [this, zsmul_emod] at h2

/-- scalar multiplication by a canonical scalar -/
theorem smul_ofZ_rep {P : Pt} {A : Grp C} (hP : Rep env P A) (k : ZMod C.fn) :
    ∃ S, P.smul env C (Fld.ofZ k) = .ok S ∧ Rep env S (k.val • A) := by
  obtain ⟨S, h1, h2⟩ := smul_rep hP (Fld.ofZ k) (by simp only [Fld.ofZ_value]; positivity)
  refine ⟨S, h1, ?_⟩
  rw [Fld.ofZ_value, natCast_zsmul] at h2
  exact h2

end group

/-! ## Square roots and `evaluateP` -/

theorem powmAux_cast (m f : ℕ) (b : ℤ) (e : ℕ) (acc : ℤ) (he : e < f) :
    ((powmAux (m : ℤ) f b e acc : ℤ) : ZMod m) = acc * (b : ZMod m) ^ e := by
  induction f generalizing b e acc with
  | zero => omega
  | succ f ih =>
    rw [powmAux]
    split_ifs with h0 h1
    · subst h0; simp
    · rw [ih _ _ _ (by omega)]
      have : e = 2 * (e / 2) + 1 := by omega
      conv_rhs => rw [this]
      rw [pow_succ, pow_mul]
      simp only [ZMod.intCast_mod, Int.cast_mul]
      ring
    · rw [ih _ _ _ (by omega)]
      have : e = 2 * (e / 2) := by omega
      conv_rhs => rw [this]
      rw [pow_mul]
      simp only [ZMod.intCast_mod, Int.cast_mul]
      ring

theorem mpzPowm_cast (m : ℕ) [NeZero m] (b : ℤ) (e : ℕ) :
    ∃ r, mpzPowm b e m = .ok r ∧ (r : ZMod m) = (b : ZMod m) ^ e := by
  have : (m : ℤ) ≠ 0 := by exact_mod_cast NeZero.ne m
  refine ⟨_, by rw [mpzPowm, if_neg this], ?_⟩
  rw [powmAux_cast m _ _ _ _ (by omega)]
  simp

section sqrt
variable [GoodCurve0 C]

/-- right-hand side of the curve equation -/
def rhs (C : CurveClass) (x : ZMod C.fp) : ZMod C.fp := x ^ 3 + C.a * x + C.b

/-- the square root candidate used by `evaluateP` -/
def root (C : CurveClass) (x : ZMod C.fp) : ZMod C.fp := rhs C x ^ ((C.fp + 1) / 4)

theorem root_sq_iff (x : ZMod C.fp) : root C x * root C x = rhs C x ↔ ∃ y, On C x y := by
  constructor
  · intro h; exact ⟨root C x, by unfold On; rw [sq]; exact h⟩
  · rintro ⟨y, hy⟩
    unfold On at hy
    have hr : rhs C x = y ^ 2 := hy.symm
    have h4 : C.fp % 4 = 3 := GoodCurve0.fp_mod4
    unfold root
    rw [hr, ← pow_add, ← pow_mul]
    have e : 2 * ((C.fp + 1) / 4 + (C.fp + 1) / 4) = C.fp + 1 := by omega
    rw [e, pow_succ, ZMod.pow_card]; ring

theorem sqrtCandidate_ok (x : ZMod C.fp) :
    ∃ r : ℤ, Curve.sqrtCandidate C (Fld.ofZ (rhs C x)) = .ok r ∧ (r : ZMod C.fp) = root C x := by
  have h4 : C.fp % 4 = 3 := GoodCurve0.fp_mod4
  obtain ⟨r, h1, h2⟩ := mpzPowm_cast C.fp ((rhs C x).val : ℤ) ((C.fp + 1) / 4)
  refine ⟨r, ?_, ?_⟩
  · have e1 : ((C.fp : ℤ) + 1) % 4 = 0 := by omega
    have e2 : (((C.fp : ℤ) + 1) / 4).toNat = (C.fp + 1) / 4 := by omega
    simp only [Curve.sqrtCandidate, Fld.getField, Fld.ofZ_p, e1, if_true, Fld.getRawValue,
      Fld.ofZ_value, e2, GoodCurve0.prime_eq, h1]
  · rw [h2, root]
    simp

theorem evaluatePy2_ok {c : Option Addr} (hc : Live env c) (x : ZMod C.fp) :
    Curve.evaluatePy2 env C c (Fld.ofZ x) = .ok (Fld.ofZ (rhs C x)) := by
  obtain ⟨o, ho⟩ := deref_live hc
  simp only [Curve.evaluatePy2, ho, R.ok_bind, Fld.mul_ofZ, Fld.mulZ_ofZ, Fld.add_ofZ, Fld.mk'_eq]
  congr 2
  unfold rhs; ring

theorem evaluateP_ok {c : Option Addr} (hc : Live env c) (x : ZMod C.fp) :
    Curve.evaluateP env C c (Fld.ofZ x) =
      .ok (if root C x * root C x = rhs C x then Pt.ofFld (Fld.ofZ x) (Fld.ofZ (root C x)) c
        else Pt.infty C) := by
  obtain ⟨r, h1, h2⟩ := sqrtCandidate_ok x
  simp only [Curve.evaluateP, evaluatePy2_ok hc, R.ok_bind, h1, Fld.mk'_eq, h2, Fld.mul_ofZ,
    Fld.beq_ofZ, decide_eq_true_eq]
  split_ifs <;> rfl

theorem evaluatePneg_ok {c : Option Addr} (hc : Live env c) (x : ZMod C.fp) :
    Curve.evaluatePneg env C c (Fld.ofZ x) =
      .ok (if root C x * root C x = rhs C x then Pt.ofFld (Fld.ofZ x) (Fld.ofZ (-root C x)) c
        else Pt.infty C) := by
  obtain ⟨r, h1, h2⟩ := sqrtCandidate_ok x
  have e : (((C.fp : ℤ) - r : ℤ) : ZMod C.fp) = -root C x := by push_cast; rw [h2]; simp
  simp only [Curve.evaluatePneg, evaluatePy2_ok hc, R.ok_bind, h1, Fld.mk'_eq, Fld.getField,
    Fld.ofZ_p, e, Fld.mul_ofZ, Fld.beq_ofZ, decide_eq_true_eq, neg_mul_neg]
  split_ifs <;> rfl

theorem on_root {x : ZMod C.fp} (h : root C x * root C x = rhs C x) : On C x (root C x) := by
  unfold On; rw [sq]; exact h

theorem not_on_root {x : ZMod C.fp} (h : ¬ root C x * root C x = rhs C x) (y : ZMod C.fp) :
    ¬ On C x y := fun hy => h ((root_sq_iff x).2 ⟨y, hy⟩)

end sqrt

/-! ## Validity -/

section valid
variable [GoodCurve0 C]

theorem isValid_ofZ {x y : ZMod C.fp} {c : Option Addr} (hc : Live env c) :
    Pt.isValid env C ⟨Fld.ofZ x, Fld.ofZ y, false, c⟩ = .ok (decide (y * y = rhs C x)) := by
  obtain ⟨a, o, rfl, ho⟩ := hc
  have hd : deref env (some a) = .ok o := by simp [deref, ho]
  simp only [Pt.isValid, Bool.false_eq_true, if_false, Fld.getField, Fld.ofZ_p, hd, R.ok_bind,
    Fld.mul_ofZ, Fld.mulZ_ofZ, Fld.add_ofZ, Fld.mk'_eq, Fld.beq_ofZ, GoodCurve0.prime_eq,
    decide_true, Bool.true_and]
  congr 1
  rw [decide_eq_decide]
  unfold rhs
  constructor
  · intro h; rw [← h]; ring
  · intro h; rw [h]; ring

end valid

/-! ## Generators and random points -/

section gen
variable [GoodCurve C]

theorem LiveGen.live {c : Option Addr} (h : LiveGen env c) : Live env c := by
  obtain ⟨a, o, h1, h2, -⟩ := h; exact ⟨a, o, h1, h2⟩

theorem getDefaultGen_rep {c : Option Addr} (h : LiveGen env c) :
    ∃ P, Curve.getDefaultGen env C c = .ok P ∧ Rep env P (G : Grp C) := by
  obtain ⟨a, o, rfl, ho, o', ho'⟩ := h
  refine ⟨Pt.ofZ C C.gx C.gy (some o.gcurve), by simp [Curve.getDefaultGen, deref, ho], ?_⟩
  unfold G
  rw [rep_pt_iff]
  refine ⟨rfl, ?_, ?_, o.gcurve, o', rfl, ho'⟩ <;> simp [Pt.ofZ, Fld.mk'_eq]

theorem getRandomPoint_rep {c : Option Addr} (h : LiveGen env c) (k : ℤ) :
    ∃ P, Curve.getRandomPoint env C c k = .ok P ∧ Rep env P (k • (G : Grp C)) := by
  obtain ⟨P, h1, h2⟩ := getDefaultGen_rep (C := C) h
  obtain ⟨S, h3, h4⟩ := smulZ_rep h2 k
  exact ⟨S, by simp only [Curve.getRandomPoint, h1, R.ok_bind, h3], h4⟩

theorem getRandomScalar_ok {c : Option Addr} (h : Live env c) (k : ℤ) :
    Curve.getRandomScalar env C c k = .ok (Fld.ofZ (k : ZMod C.fn)) := by
  obtain ⟨o, ho⟩ := deref_live h
  simp only [Curve.getRandomScalar, ho, R.ok_bind, Fld.mk'_eq]

end gen

end Verif
