import Verif.Spec.Tests
import Verif.Lemmas.Opprf
import Verif.Props.TestsDme

/-!
# C76: `test_fields` and `test_ecc`
-/

namespace Verif
namespace Tests

open EC Dme

variable {env : Env}

/-- C76: `test_fields` exits with status 0, whether or not assertions are compiled in. -/
theorem C76_fields (env : Env) : testFields env = .ok 0 := by
  obtain ⟨nd, heap⟩ := env
  have h : ∀ nd : Bool, testFields ⟨nd, fun _ => none⟩ = .ok 0 := by decide +kernel
  rw [← h nd]
  rfl

/-! ### Points that are the same up to the curve object -/

theorem rep_move {env' : Env} {P Q : Pt} {A : Grp CC} (h : Rep env P A) (hi : Q.inf = P.inf) (hx : Q.x = P.x) (hy : Q.y = P.y)
    (hl : Live env' Q.curve) : Rep env' Q A := by
  rcases cases_pt A with rfl | ⟨x, y, hon, rfl⟩
  · rw [rep_zero_iff] at h ⊢
    rw [hi, hx, hy]; exact h
  · rw [rep_pt_iff] at h ⊢
    rw [hi, hx, hy]; exact ⟨h.1, h.2.1, h.2.2.1, hl⟩

/-- a decimal literal on a curve object -/
def lit (x y : List Char) (c : Option Addr) : Pt := Pt.ofStrings secp256r1 x y c 10

theorem lit_rep {x y : List Char} (h : (lit x y (some 0)).isValid env0 CC = .ok true) :
    ∃ A : Grp CC, A ≠ 0 ∧ ∀ (env : Env) (c : Option Addr), Live env c → Rep env (lit x y c) A := by
  have e : lit x y (some 0) = ⟨Fld.ofZ ((setStr 0 x 10 : ℤ) : ZMod CC.fp), Fld.ofZ ((setStr (setStr 0 x 10) y 10 : ℤ) : ZMod CC.fp),
      false, some 0⟩ := by
    simp only [lit, Pt.ofStrings, Fld.mk'_eq]
  rw [e, isValid_ofZ env0_liveGen.live] at h
  have hv := of_decide_eq_true (Except.ok.inj h)
  have hon : On CC ((setStr 0 x 10 : ℤ) : ZMod CC.fp) ((setStr (setStr 0 x 10) y 10 : ℤ) : ZMod CC.fp) := by
    unfold On; rw [sq, hv]; rfl
  refine ⟨pt hon, pt_ne_zero _, fun env c hl => ?_⟩
  rw [rep_pt_iff]
  simp only [lit, Pt.ofStrings, Fld.mk'_eq]
  exact ⟨trivial, trivial, trivial, hl⟩

theorem isValid_of_rep {P : Pt} {A : Grp CC} (h : Rep env P A) (hA : A ≠ 0) : P.isValid env CC = .ok true := by
  rcases cases_pt A with rfl | ⟨x, y, hon, rfl⟩
  · exact absurd rfl hA
  · obtain ⟨h1, h2, h3, h4⟩ := (rep_pt_iff hon).1 h
    have e : P = ⟨Fld.ofZ x, Fld.ofZ y, false, P.curve⟩ := by
      rw [← h1, ← h2, ← h3]
    have hy : y * y = rhs CC x := by
      unfold rhs; rw [← sq]; exact hon
    rw [e, isValid_ofZ h4, decide_eq_true hy]

/-- the point over the abscissa of `P` is the same with every curve object -/
theorem evaluateP_move {P : Pt} {A B : Grp CC} (hA : Rep env0 P A) (hne : A ≠ 0) {Q : Pt}
    (hQ : Curve.evaluateP env0 CC (some 0) P.x = .ok Q) (hB : Rep env0 Q B) {c : Option Addr} (hl : Live env c) :
    ∃ S, Curve.evaluateP env CC c P.x = .ok S ∧ Rep env S B := by
  rcases cases_pt A with rfl | ⟨x, y, hon, rfl⟩
  · exact absurd rfl hne
  · obtain ⟨h1, h2, h3, h4⟩ := (rep_pt_iff hon).1 hA
    have hsq := (root_sq_iff x).2 ⟨_, hon⟩
    rw [h2, evaluateP_ok env0_liveGen.live, if_pos hsq] at hQ
    obtain rfl := Except.ok.inj hQ
    refine ⟨Pt.ofFld (Fld.ofZ x) (Fld.ofZ (root CC x)) c, ?_, rep_move hB rfl rfl rfl hl⟩
    rw [h2, evaluateP_ok hl, if_pos hsq]

/-- a multiple of the generator by zero is the default infinity -/
theorem randomPoint_zero {c : Option Addr} (hl : LiveGen env c) {k : ℤ} (hk : ¬ NZ k) :
    Curve.getRandomPoint env CC c k = .ok (Pt.infty CC) := by
  obtain ⟨P, h1, h2⟩ := getDefaultGen_rep (C := CC) hl
  have h0 : (k : F) = 0 := by
    have ho : CC.order = (CC.fn : ℤ) := by decide
    rwa [NZ, not_not, ho, ← ZMod.intCast_zmod_eq_zero_iff_dvd] at hk
  have hf : P.inf = false := by
    rcases hp : P.inf with _ | _
    · rfl
    · exact absurd ((rep_inf h2).1 hp) G_ne_zero
  have e : Fld.mk' CC.fn k = Fld.ofZ (0 : F) := by rw [Fld.mk'_eq, h0]
  simp only [Curve.getRandomPoint, h1, R.ok_bind, Pt.smulZ, e, Pt.smul, hf]
  rfl

/-! ### The facts about the literals, computed with one curve object -/

theorem literals : (lP (some 0)).isValid env0 CC = .ok true ∧ (lQ (some 0)).isValid env0 CC = .ok true ∧
    (lPplusQ (some 0)).isValid env0 CC = .ok true ∧ (lP10 (some 0)).isValid env0 CC = .ok true ∧
    (lP99 (some 0)).isValid env0 CC = .ok true ∧ (lPbig (some 0)).isValid env0 CC = .ok true ∧
    (lPminusQ (some 0)).isValid env0 CC = .ok true := by decide +kernel

theorem literal_ops :
    (do let x ← (lP (some 0)).add env0 CC (lQ (some 0))
        x.beq env0 CC (lPplusQ (some 0))) = .ok true ∧
    (do let x ← (lP (some 0)).smulZ env0 CC 10
        (lP10 (some 0)).beq env0 CC x) = .ok true ∧
    (do let x ← (lP (some 0)).smulZ env0 CC 99
        (lP99 (some 0)).beq env0 CC x) = .ok true ∧
    (do let x ← (lP (some 0)).smulZ env0 CC 90912389
        (lPbig (some 0)).beq env0 CC x) = .ok true ∧
    (do let x ← (lP (some 0)).sub env0 CC (lQ (some 0))
        x.beq env0 CC (lPminusQ (some 0))) = .ok true ∧
    (do let x ← Curve.evaluateP env0 CC (some 0) (lP (some 0)).x
        (lP (some 0)).beq env0 CC x) = .ok true ∧
    (do let x ← Curve.evaluateP env0 CC (some 0) (lQ (some 0)).x
        (lQ (some 0)).beq env0 CC x) = .ok true := by decide +kernel

/-- the group elements of the literals -/
theorem literal_group : ∃ p q pq p10 p99 pb pm : Grp CC,
    (p ≠ 0 ∧ q ≠ 0 ∧ p + q = pq ∧ p10 = ((10 : ℤ) : F) • p ∧ p99 = ((99 : ℤ) : F) • p ∧ pb = ((90912389 : ℤ) : F) • p ∧ p - q = pm) ∧
    ∀ (env : Env) (c : Option Addr), Live env c → Rep env (lP c) p ∧ Rep env (lQ c) q ∧ Rep env (lPplusQ c) pq ∧
      Rep env (lP10 c) p10 ∧ Rep env (lP99 c) p99 ∧ Rep env (lPbig c) pb ∧ Rep env (lPminusQ c) pm ∧
      (∃ S, Curve.evaluateP env CC c (lP c).x = .ok S ∧ Rep env S p) ∧ ∃ S, Curve.evaluateP env CC c (lQ c).x = .ok S ∧ Rep env S q := by
  obtain ⟨v1, v2, v3, v4, v5, v6, v7⟩ := literals
  obtain ⟨o1, o2, o3, o4, o5, o6, o7⟩ := literal_ops
  obtain ⟨p, hp, r1⟩ := lit_rep v1
  obtain ⟨q, hq, r2⟩ := lit_rep v2
  obtain ⟨pq, -, r3⟩ := lit_rep v3
  obtain ⟨p10, -, r4⟩ := lit_rep v4
  obtain ⟨p99, -, r5⟩ := lit_rep v5
  obtain ⟨pb, -, r6⟩ := lit_rep v6
  obtain ⟨pm, -, r7⟩ := lit_rep v7
  have l0 := env0_liveGen.live
  have a1 : Rep env0 (lP (some 0)) p := r1 _ _ l0
  have a2 : Rep env0 (lQ (some 0)) q := r2 _ _ l0
  have a3 : Rep env0 (lPplusQ (some 0)) pq := r3 _ _ l0
  have a4 : Rep env0 (lP10 (some 0)) p10 := r4 _ _ l0
  have a5 : Rep env0 (lP99 (some 0)) p99 := r5 _ _ l0
  have a6 : Rep env0 (lPbig (some 0)) pb := r6 _ _ l0
  have a7 : Rep env0 (lPminusQ (some 0)) pm := r7 _ _ l0
  have eval : ∀ {P : Pt} {A : Grp CC}, Rep env0 P A → A ≠ 0 → (do
      let x ← Curve.evaluateP env0 CC (some 0) P.x
      P.beq env0 CC x) = .ok true → ∀ (env : Env) (c : Option Addr), Live env c →
      ∃ S, Curve.evaluateP env CC c P.x = .ok S ∧ Rep env S A := by
    intro P A hA hne h env c hl
    obtain ⟨Q, e1, e2⟩ := R.bind_eq_ok.1 h
    obtain ⟨B, hB⟩ : ∃ B : Grp CC, Rep env0 Q B := by
      rcases cases_pt A with rfl | ⟨x, y, hon, rfl⟩
      · exact absurd rfl hne
      · obtain ⟨h1, h2, h3, h4⟩ := (rep_pt_iff hon).1 hA
        have hsq := (root_sq_iff x).2 ⟨_, hon⟩
        rw [h2, evaluateP_ok l0, if_pos hsq] at e1
        obtain rfl := Except.ok.inj e1
        exact ⟨_, rep_ofFld (on_root hsq) l0⟩
    rw [rep_beq hA hB] at e2
    rw [of_decide_eq_true (Except.ok.inj e2)] at hA hne ⊢
    exact evaluateP_move hA hne e1 hB hl
  refine ⟨p, q, pq, p10, p99, pb, pm, ⟨hp, hq, ?_, ?_, ?_, ?_, ?_⟩, fun env c hl => ⟨r1 _ _ hl, r2 _ _ hl, r3 _ _ hl, r4 _ _ hl,
    r5 _ _ hl, r6 _ _ hl, r7 _ _ hl, eval a1 hp o6 env c hl, eval a2 hq o7 env c hl⟩⟩
  · obtain ⟨x, e, r⟩ := add_rep a1 a2
    rw [e, R.ok_bind, rep_beq r a3] at o1
    exact of_decide_eq_true (Except.ok.inj o1)
  · obtain ⟨x, e, r⟩ := smulI_rep a1 10
    rw [e, R.ok_bind, rep_beq a4 r] at o2
    exact of_decide_eq_true (Except.ok.inj o2)
  · obtain ⟨x, e, r⟩ := smulI_rep a1 99
    rw [e, R.ok_bind, rep_beq a5 r] at o3
    exact of_decide_eq_true (Except.ok.inj o3)
  · obtain ⟨x, e, r⟩ := smulI_rep a1 90912389
    rw [e, R.ok_bind, rep_beq a6 r] at o4
    exact of_decide_eq_true (Except.ok.inj o4)
  · obtain ⟨x, e, r⟩ := sub_rep a1 a2 hp hq
    rw [e, R.ok_bind, rep_beq r a7] at o5
    exact of_decide_eq_true (Except.ok.inj o5)

/-! ### `test_ecc` -/

/-- C76: `test_ecc` exits with status 0 for all draws that are not divisible by the group order, for every curve object and
whether or not assertions are compiled in. -/
theorem C76_ecc_ok (env : Env) {c : Option Addr} (hl : LiveGen env c) {k1 k2 : ℤ} (h1 : NZ k1) (h2 : NZ k2) :
    testEcc env c k1 k2 = .ok 0 := by
  obtain ⟨p, q, pq, p10, p99, pb, pm, ⟨hp, hq, f1, f2, f3, f4, f5⟩, hr⟩ := literal_group
  obtain ⟨r1, r2, r3, r4, r5, r6, r7, ⟨S, s1, s2⟩, T, t1, t2⟩ := hr env c hl.live
  obtain ⟨R1, a1, b1⟩ := randomPoint_rep (C := CC) hl k1
  obtain ⟨R2, a2, b2⟩ := randomPoint_rep (C := CC) hl k2
  obtain ⟨e, a3, -, -, a4⟩ := Opprf.encoding_rep (nz_smul h1) b1
  obtain ⟨R3, a5, b3⟩ := a4 R2 (rep_live b2 (nz_smul h2))
  obtain ⟨g, a6, b6⟩ := getDefaultGen_rep (C := CC) hl
  obtain ⟨c1, d1, g1⟩ := add_rep rep_infty r1
  obtain ⟨c2, d2, g2⟩ := add_rep r1 rep_infty
  obtain ⟨c3, d3, g3⟩ := add_rep r1 r1
  obtain ⟨c4, d4, g4, -⟩ := double_rep r1 hp
  obtain ⟨c5, d5, g5⟩ := sub_rep r1 r1 hp hp
  obtain ⟨c6, d6, g6⟩ := smulI_rep (env := env) (rep_infty (C := CC)) 1000
  obtain ⟨c7, d7, g7⟩ := add_rep r1 r2
  obtain ⟨c8, d8, g8⟩ := smulI_rep r1 10
  obtain ⟨c9, d9, g9⟩ := smulI_rep r1 99
  obtain ⟨c10, d10, g10⟩ := smulI_rep r1 90912389
  obtain ⟨c11, d11, g11⟩ := sub_rep r1 r2 hp hq
  simp only [testEcc, a1, a2, a3, a5, a6, R.ok_bind, allChecks, rep_beq b3 b1, isValid_of_rep b6 G_ne_zero, isValid_of_rep r1 hp,
    isValid_of_rep r2 hq, d1, d2, d3, d4, d5, d6, d7, d8, d9, d10, d11, rep_beq g1 r1, rep_beq g2 r1, rep_beq g3 g4,
    rep_beq g5 rep_infty, rep_beq g6 rep_infty, rep_beq g7 r3, rep_beq r4 g8, rep_beq r5 g9, rep_beq r6 g10, rep_beq g11 r7,
    s1, t1, rep_beq r1 s2, rep_beq r2 t2, f1, f2, f3, f4, f5, zero_add, add_zero, sub_self, smul_zero, decide_true]
  rfl

/-- C76: with any other draw `test_ecc` dereferences a null pointer. -/
theorem C76_ecc_null (env : Env) {c : Option Addr} (hl : LiveGen env c) {k1 k2 : ℤ} (h : ¬ NZ k1 ∨ ¬ NZ k2) :
    testEcc env c k1 k2 = .error .nullDeref := by
  obtain ⟨R1, a1, b1⟩ := randomPoint_rep (C := CC) hl k1
  obtain ⟨R2, a2, b2⟩ := randomPoint_rep (C := CC) hl k2
  by_cases h1 : NZ k1
  · obtain ⟨e, a3, -, -, -⟩ := Opprf.encoding_rep (nz_smul h1) b1
    have h2 := randomPoint_zero hl (h.resolve_left (not_not.2 h1))
    have h3 : (Pt.infty CC).setEncodedX env CC e = .error .nullDeref := by
      unfold Pt.setEncodedX
      split_ifs <;> rfl
    simp only [testEcc, a1, h2, a3, R.ok_bind, h3, R.error_bind]
  · have h2 := randomPoint_zero hl h1
    have h3 : (Pt.infty CC).getEncodedX env CC = .error .nullDeref := rfl
    simp only [testEcc, a2, h2, R.ok_bind, h3, R.error_bind]

example : testEcc env0 (some 0) 2 3 = .ok 0 := C76_ecc_ok env0 env0_liveGen (by decide) (by decide)

example : testEcc env0 (some 0) 2 CC.order = .error .nullDeref := C76_ecc_null env0 env0_liveGen (.inr (by decide))

end Tests
end Verif
