import Verif.Model.CurveCopy
import Verif.Lemmas.Ot
import Verif.Props.Ecc

/-!
# C87: copies of curve objects
-/

namespace Verif

open EC

theorem free_dead' (env : Env) (a : Addr) : ¬ Live (env.free a) (some a) := by
  rintro ⟨x, o, h, h'⟩
  obtain rfl := Option.some.inj h
  simp [Env.free] at h'

theorem getDefaultGen_some {env : Env} {C : CurveClass} {a : Addr} {o : CurveObj} (h : env.heap a = some o) :
    Curve.getDefaultGen env C (some a) = .ok (Pt.ofZ C C.gx C.gy (some o.gcurve)) := by
  simp [Curve.getDefaultGen, deref, h]

/-- multiplying by 0 and by 1 does not look at the curve object -/
theorem smulZ_zero_one (env : Env) {C : CurveClass} (hC : IsCurve C) (P : Pt) :
    (∃ Q, P.smulZ env C 0 = .ok Q) ∧ ∃ Q, P.smulZ env C 1 = .ok Q := by
  have h0 : (Fld.mk' C.fn 0).getRawValue = 0 := by rcases hC with rfl | rfl <;> decide +kernel
  have h1 : (Fld.mk' C.fn 1).getRawValue = 1 := by rcases hC with rfl | rfl <;> decide +kernel
  have e0 : (getStr2 0).reverse = ['0'] := by decide
  have e1 : (getStr2 1).reverse = ['1'] := by decide
  unfold Pt.smulZ Pt.smul
  rw [h0, h1, e0, e1]
  split_ifs
  · exact ⟨⟨_, rfl⟩, ⟨_, rfl⟩⟩
  · exact ⟨⟨_, rfl⟩, ⟨_, rfl⟩⟩

theorem mk'_value_of_lt {C : CurveClass} (hC : IsCurve C) {k : ℤ} (h0 : 0 ≤ k) (hk : k < C.order) :
    (Fld.mk' C.fn k).value = k := by
  have : (C.fn : ℤ) = C.order := by rcases hC with rfl | rfl <;> rfl
  simp only [Fld.mk']
  exact Int.emod_eq_of_lt h0 (by omega)

/-- C87, exactly: on a live curve object, `getRandomPoint` returns for the drawn number `k` **if and only if** the
object its generator refers to is alive, or `k` is 0 or 1. -/
theorem C87_exact (env : Env) {C : CurveClass} (hC : IsCurve C) {c : Option Addr} (hc : Live env c) {k : ℤ}
    (h0 : 0 ≤ k) (hk : k < C.order) :
    Ends (Curve.getRandomPoint env C c k) (fun _ => True) ↔ LiveGen env c ∨ k = 0 ∨ k = 1 := by
  haveI := hC.good
  obtain ⟨a, o, rfl, ho⟩ := hc
  have e : Curve.getRandomPoint env C (some a) k = (Pt.ofZ C C.gx C.gy (some o.gcurve)).smulZ env C k := by
    rw [Curve.getRandomPoint, getDefaultGen_some ho, R.ok_bind]
  constructor
  · rintro ⟨P, h, -⟩
    by_contra hn
    rw [not_or, not_or] at hn
    have hd : ¬ Live env (Pt.ofZ C C.gx C.gy (some o.gcurve)).curve := by
      rintro ⟨x, o', hx, ho'⟩
      obtain rfl := Option.some.inj hx
      exact hn.1 ⟨a, o, rfl, ho, o', ho'⟩
    obtain ⟨f, hf⟩ := smul_dead (C := C) (P := Pt.ofZ C C.gx C.gy (some o.gcurve)) rfl hd (k := Fld.mk' C.fn k)
      (by rw [mk'_value_of_lt hC h0 hk]; omega)
    rw [e, Pt.smulZ, hf] at h
    cases h
  · rintro (h | rfl | rfl)
    · obtain ⟨P, h1, -⟩ := getRandomPoint_rep (C := C) h k
      exact ⟨P, h1, trivial⟩
    · rw [e]
      obtain ⟨Q, h⟩ := (smulZ_zero_one env hC (Pt.ofZ C C.gx C.gy (some o.gcurve))).1
      exact ⟨Q, h, trivial⟩
    · rw [e]
      obtain ⟨Q, h⟩ := (smulZ_zero_one env hC (Pt.ofZ C C.gx C.gy (some o.gcurve))).2
      exact ⟨Q, h, trivial⟩

/-- C87 (part): as long as the original lives, a copy behaves exactly like it: same generator, same random points for
the same draws (all of them referring to the original).
Missing: the original is destroyed first, where it is false (see below). -/
theorem C87_copy_partial (env : Env) (C : CurveClass) {a b : Addr} (ha : env.heap a = some ⟨a⟩) (hab : a ≠ b) :
    LiveGen (env.copyCurve a b) (some b) ∧
    (∀ k, Curve.getRandomPoint (env.copyCurve a b) C (some b) k = Curve.getRandomPoint (env.copyCurve a b) C (some a) k) ∧
    (∀ k, Curve.generateKeyPair (env.copyCurve a b) C (some b) k =
      Curve.generateKeyPair (env.copyCurve a b) C (some a) k) := by
  have h1 : (env.copyCurve a b).heap a = some ⟨a⟩ := by simp [Env.copyCurve, hab, ha]
  have h2 : (env.copyCurve a b).heap b = some ⟨a⟩ := by simp [Env.copyCurve, ha]
  refine ⟨⟨b, ⟨a⟩, rfl, h2, ⟨a⟩, h1⟩, fun k => ?_, fun k => ?_⟩
  · rw [Curve.getRandomPoint, Curve.getRandomPoint, getDefaultGen_some h1, getDefaultGen_some h2]
  · rw [Curve.generateKeyPair, Curve.generateKeyPair, getDefaultGen_some h1, getDefaultGen_some h2]

/-- C87 is false: once the original is destroyed, `getRandomPoint`, `generateKeyPair` and `ElGamal::encrypt` on the copy
are use after free for all draws except two, in both builds and whatever the key and the message. -/
theorem C87_dangling_counterexample (env : Env) {C : CurveClass} (hC : IsCurve C) {a b : Addr}
    (ha : env.heap a = some ⟨a⟩) (hab : a ≠ b) {k : ℤ} (h2 : 2 ≤ k) (hk : k < C.order) :
    let env' := (env.copyCurve a b).free a
    Live env' (some b) ∧ Faults (Curve.getRandomPoint env' C (some b) k) ∧
    Faults (Curve.generateKeyPair env' C (some b) k) ∧
    (k < ElGamal.CC.order → ∀ pk msg, Faults (ElGamal.encryptP env' (some b) pk msg k)) := by
  intro env'
  have hb : env'.heap b = some ⟨a⟩ := by simp [env', Env.copyCurve, Env.free, Ne.symm hab, ha]
  have hd : ¬ Live env' (some a) := free_dead' _ a
  obtain ⟨f, hf⟩ := smul_dead (C := C) (P := Pt.ofZ C C.gx C.gy (some a)) rfl hd (k := Fld.mk' C.fn k)
    (by rw [mk'_value_of_lt hC (by omega) hk]; omega)
  refine ⟨⟨b, _, rfl, hb⟩, ⟨f, ?_⟩, ⟨f, ?_⟩, fun hk' pk msg => ?_⟩
  · rw [Curve.getRandomPoint, getDefaultGen_some hb, R.ok_bind, Pt.smulZ, hf]
  · rw [Curve.generateKeyPair, getDefaultGen_some hb, R.ok_bind, Pt.smulZ, hf]
    rfl
  · obtain ⟨f', hf'⟩ := smul_dead (C := ElGamal.CC) (P := Pt.ofZ ElGamal.CC ElGamal.CC.gx ElGamal.CC.gy (some a)) rfl hd
      (k := Fld.mk' ElGamal.CC.fn k) (by rw [mk'_value_of_lt (.inr rfl) (by omega) hk']; omega)
    refine ⟨f', ?_⟩
    have hs : Curve.getRandomScalar env' ElGamal.CC (some b) k = .ok (Fld.mk' ElGamal.CC.fn k) := by
      simp [Curve.getRandomScalar, deref, hb]
    rw [ElGamal.encryptP, hs, R.ok_bind, getDefaultGen_some hb, R.ok_bind, hf']
    rfl

/-- what does not need the generator still works on the copy: `evaluateP`, `evaluatePneg` and `getRandomScalar` give the
same as before the original was destroyed -/
theorem C87_rest (env : Env) (C : CurveClass) {a b : Addr} (ha : env.heap a = some ⟨a⟩) (hab : a ≠ b) (x : Fld) (k : ℤ) :
    Curve.evaluateP ((env.copyCurve a b).free a) C (some b) x = Curve.evaluateP (env.copyCurve a b) C (some b) x ∧
    Curve.evaluatePneg ((env.copyCurve a b).free a) C (some b) x = Curve.evaluatePneg (env.copyCurve a b) C (some b) x ∧
    Curve.getRandomScalar ((env.copyCurve a b).free a) C (some b) k =
      Curve.getRandomScalar (env.copyCurve a b) C (some b) k := by
  have h1 : deref ((env.copyCurve a b).free a) (some b) = .ok ⟨a⟩ := by
    simp [deref, Env.copyCurve, Env.free, Ne.symm hab, ha]
  have h2 : deref (env.copyCurve a b) (some b) = .ok ⟨a⟩ := by
    simp [deref, Env.copyCurve, ha]
  refine ⟨?_, ?_, ?_⟩
  · unfold Curve.evaluateP Curve.evaluatePy2
    rw [h1, h2]
    rfl
  · unfold Curve.evaluatePneg Curve.evaluatePy2
    rw [h1, h2]
    rfl
  · unfold Curve.getRandomScalar
    rw [h1, h2]

/-- object 0 is copied to 1 and destroyed: the draw 1 still gives the generator, 2 is use after free, and the point with
abscissa -1 can still be found -/
example : env0.heap 0 = some ⟨0⟩ ∧
    Curve.getRandomPoint ((env0.copyCurve 0 1).free 0) bn254 (some 1) 1 = .ok (Pt.ofZ bn254 bn254.gx bn254.gy (some 0)) ∧
    Curve.getRandomPoint ((env0.copyCurve 0 1).free 0) bn254 (some 1) 2 = .error .useAfterFree ∧
    (do let P ← Curve.evaluateP ((env0.copyCurve 0 1).free 0) bn254 (some 1) (Fld.mk' bn254.fp (-1))
        P.isValid ((env0.copyCurve 0 1).free 0) bn254) = .ok true := by
  decide +kernel

end Verif
