import Verif.Lemmas.EccSpec

/-!
# C06, C08 – C18: curves and points
-/

namespace Verif

open EC

/-! ## C06 -/

/-- C06: the four moduli are prime. -/
theorem C06_primes : bn254N.Prime ∧ bn254P.Prime ∧ secpN.Prime ∧ secpP.Prime :=
  ⟨bn254N_prime, bn254P_prime, secpN_prime, secpP_prime⟩

/-- C06: the curve constants agree with the field classes, allow the square-root formula, define a
non-singular curve, and the generator is on it. -/
theorem C06_constants {C : CurveClass} (hC : IsCurve C) :
    IsModulus C.fp ∧ IsModulus C.fn ∧ C.prime = C.fp ∧ C.order = C.fn ∧ C.prime % 4 = 3 ∧ C.cofactor = 1 ∧
    ¬ (4 * C.a ^ 3 + 27 * C.b ^ 2 ≡ 0 [ZMOD C.prime]) ∧
    CurveEq C C.gx C.gy ∧ 0 ≤ C.gx ∧ C.gx < C.prime ∧ 0 < C.gy ∧ C.gy < C.prime := by
  unfold IsModulus CurveEq
  rcases hC with rfl | rfl
  · refine ⟨.inr (.inl rfl), .inl rfl, ?_, ?_, ?_, ?_, ?_, ?_, ?_, ?_, ?_, ?_⟩ <;> decide +kernel
  · refine ⟨.inr (.inr (.inr rfl)), .inr (.inr (.inl rfl)), ?_, ?_, ?_, ?_, ?_, ?_, ?_, ?_, ?_, ?_⟩ <;>
      decide +kernel

/-! ## C08 -/

/-- C08: on a point built from integer coordinates and a live curve, `isValid` decides the curve
equation on those integers. -/
theorem C08_isValid (env : Env) {C : CurveClass} (hC : IsCurve C) (x y : ℤ) {c : Option Addr}
    (hc : Live env c) :
    ∃ b, Pt.isValid env C (Pt.ofZ C x y c) = .ok b ∧ (b = true ↔ CurveEq C x y) := by
  haveI := hC.good
  refine ⟨decide ((y : ZMod C.fp) * y = rhs C x), ?_, ?_⟩
  · rw [Pt.ofZ, Fld.mk'_eq, Fld.mk'_eq]; exact isValid_ofZ hc
  · rw [decide_eq_true_eq, CurveEq, GoodCurve0.prime_eq, ← ZMod.intCast_eq_intCast_iff]
    unfold rhs
    push_cast
    constructor
    · intro h; rw [h]; ring
    · intro h; rw [h]; ring

/-- C08: on a point object with canonical coordinates whose curve object is alive, `isValid` is true exactly
for the points of the curve. -/
theorem C08_isValid_object (env : Env) {C : CurveClass} (hC : IsCurve C) {P : Pt} (hx : IsElem C.fp P.x)
    (hy : IsElem C.fp P.y) (hc : Live env P.curve) :
    ∃ b, Pt.isValid env C P = .ok b ∧
      (b = true ↔ P.inf = true ∨ CurveEq C P.x.value P.y.value) := by
  haveI := hC.good
  by_cases hi : P.inf = true
  · exact ⟨true, by simp [Pt.isValid, hi], by simp [hi]⟩
  · rcases P with ⟨px, py, pi, pc⟩
    simp only at hx hy hc hi
    obtain ⟨x, rfl⟩ := isElem_iff.1 hx
    obtain ⟨y, rfl⟩ := isElem_iff.1 hy
    rw [Bool.not_eq_true] at hi
    subst hi
    refine ⟨_, isValid_ofZ hc, ?_⟩
    rw [decide_eq_true_eq, curveEq_iff, On, sq, rhs]
    simp

/-- C08: infinity is valid, a finite point without curve is not, and neither dereferences anything. -/
theorem C08_special (env : Env) (C : CurveClass) (P : Pt) :
    (P.inf = true → Pt.isValid env C P = .ok true) ∧
    (P.inf = false → P.curve = none → Pt.isValid env C P = .ok false) := by
  constructor
  · intro h; simp [Pt.isValid, h]
  · intro h h'; simp [Pt.isValid, h, h']

theorem isValid_raw {env : Env} {C : CurveClass} [GoodCurve0 C] {P : Pt} (hi : P.inf = false)
    (hc : Live env P.curve) (hx : P.x.p = C.prime) (hy : P.y.p = C.prime) :
    Pt.isValid env C P = Pt.isValid env C (Pt.ofZ C P.x.value P.y.value P.curve) := by
  obtain ⟨⟨xv, xp⟩, ⟨yv, yp⟩, inf, c⟩ := P
  simp only at hi hc hx hy
  rw [GoodCurve0.prime_eq] at hx hy
  subst hi hx hy
  have hne : (C.fp : ℤ) ≠ 0 := by
    have := (inferInstance : NeZero C.fp).out
    exact_mod_cast this
  have hm : ∀ v w : ℤ, Fld.mul env C.fp ⟨v, C.fp⟩ ⟨w, C.fp⟩ =
      .ok (Fld.ofZ ((v : ZMod C.fp) * (w : ZMod C.fp))) := fun v w => by
    simp only [Fld.mul, Fld.sameField, cassert, mpzMod, if_neg hne, Fld.mk'_eq, decide_true]
    cases env.ndebug <;> simp [R.ok_bind]
  have hm' : ∀ (z : ZMod C.fp) (w : ℤ), Fld.mul env C.fp (Fld.ofZ z) ⟨w, C.fp⟩ =
      .ok (Fld.ofZ (z * (w : ZMod C.fp))) := fun z w => by
    have h := hm (z.val : ℤ) w
    rw [Int.cast_natCast, ZMod.natCast_zmod_val] at h
    exact h
  have hz : ∀ v k : ℤ, Fld.mulZ C.fp ⟨v, C.fp⟩ k = .ok (Fld.ofZ ((v : ZMod C.fp) * (k : ZMod C.fp))) := fun v k => by
    simp only [Fld.mulZ, mpzMod, if_neg hne, Fld.mk'_eq]
    simp [R.ok_bind]
  rw [Pt.ofZ, Fld.mk'_eq, Fld.mk'_eq, isValid_ofZ hc]
  obtain ⟨a, o, rfl, ho⟩ := hc
  have hd : deref env (some a) = .ok o := by simp [deref, ho]
  simp only [Pt.isValid, Bool.false_eq_true, if_false, Fld.getField, hd, R.ok_bind, hm, hm', hz,
    Fld.add_ofZ, Fld.mk'_eq, Fld.beq_ofZ, GoodCurve0.prime_eq, decide_true, Bool.true_and]
  congr 1
  rw [decide_eq_decide]
  unfold rhs
  constructor
  · intro h; rw [← h]; ring
  · intro h; rw [h]; ring

/-- C08: whatever the point object: `isValid` returns true exactly when it is infinity, or its curve object is
alive, both coordinates are labelled with the prime of the curve, and their values satisfy the equation.  The
values need not be reduced. -/
theorem C08_exact (env : Env) {C : CurveClass} (hC : IsCurve C) (P : Pt) :
    Pt.isValid env C P = .ok true ↔
      P.inf = true ∨ (Live env P.curve ∧ P.x.getField = C.prime ∧ P.y.getField = C.prime ∧
        CurveEq C P.x.value P.y.value) := by
  haveI := hC.good
  by_cases hi : P.inf = true
  · simp [Pt.isValid, hi]
  rw [Bool.not_eq_true] at hi
  simp only [hi, Bool.false_eq_true, false_or]
  constructor
  · intro h
    have hl : Live env P.curve ∧ P.x.p = C.prime ∧ P.y.p = C.prime := by
      obtain ⟨x, y, inf, c⟩ := P
      simp only at hi
      subst hi
      rcases c with _ | a
      · simp [Pt.isValid] at h
      · simp only [Pt.isValid, Bool.false_eq_true, if_false, R.bind_eq_ok, Fld.getField] at h
        obtain ⟨o, ho, _, -, _, -, _, -, _, -, _, -, _, -, h⟩ := h
        simp only [Except.ok.injEq, Bool.and_eq_true, decide_eq_true_eq] at h
        have e1 : x.p = y.p := of_decide_eq_true h.1.1
        have e2 : x.p = C.prime := of_decide_eq_true h.1.2
        refine ⟨⟨a, o, rfl, ?_⟩, e2, e1 ▸ e2⟩
        rcases hh : env.heap a with _ | o'
        · simp [deref, hh] at ho
        · simpa [deref, hh] using ho
    obtain ⟨hl, hx, hy⟩ := hl
    refine ⟨hl, hx, hy, ?_⟩
    rw [isValid_raw hi hl hx hy] at h
    obtain ⟨b, hb, hb'⟩ := C08_isValid env hC P.x.value P.y.value hl
    rw [h] at hb
    exact hb'.1 (Except.ok.inj hb).symm
  · rintro ⟨hl, hx, hy, he⟩
    rw [isValid_raw hi hl hx hy]
    obtain ⟨b, hb, hb'⟩ := C08_isValid env hC P.x.value P.y.value hl
    rw [hb, hb'.2 he]

/-- an environment with one curve object alive at address 0, asserts on -/
def env0 : Env := ⟨false, fun a => if a = 0 then some ⟨0⟩ else none⟩

theorem env0_live : Live env0 (some 0) := ⟨0, ⟨0⟩, rfl, rfl⟩
theorem env0_liveGen : LiveGen env0 (some 0) := ⟨0, ⟨0⟩, rfl, rfl, ⟨0⟩, rfl⟩

/-- C08: an unreduced abscissa is accepted, a coordinate labelled with another modulus is not. -/
example : Pt.isValid env0 bn254 ⟨⟨bn254.gx + bn254.prime, bn254.prime⟩, ⟨1, bn254.prime⟩, false, some 0⟩ = .ok true ∧
    Pt.isValid env0 bn254 ⟨⟨bn254.gx, bn254.order⟩, ⟨1, bn254.order⟩, false, some 0⟩ ≠ .ok true := by
  decide +kernel

example : Pt.isValid env0 bn254 (Pt.ofZ bn254 (-1) 1 (some 0)) = .ok true := by decide +kernel
example : Pt.isValid env0 bn254 (Pt.ofZ bn254 3 1 (some 0)) = .ok false := by decide +kernel

/-- the generator of bn254 as a point object -/
def gBn : Pt := Pt.ofZ bn254 (-1) 1 (some 0)

theorem gBn_finite : IsFinite env0 bn254 gBn :=
  ⟨rfl, ⟨rfl, by decide +kernel, by decide +kernel⟩, ⟨rfl, by decide +kernel, by decide +kernel⟩,
    by unfold CurveEq; decide +kernel, env0_live⟩

theorem gBn_valid : Valid env0 bn254 gBn := .inr gBn_finite

theorem infty_valid (env : Env) (C : CurveClass) : Valid env C (Pt.infty C) := .inl ⟨rfl, rfl, rfl⟩

/-! ## C09 -/

/-- C09: addition of valid points is total and closed (`P += Q` assigns this result). -/
theorem C09_add (env : Env) {C : CurveClass} (hC : IsCurve C) {P Q : Pt} (hP : Valid env C P)
    (hQ : Valid env C Q) : Ends (P.add env C Q) (Valid env C) := by
  haveI := hC.good
  obtain ⟨A, hA⟩ := valid_iff.1 hP
  obtain ⟨B, hB⟩ := valid_iff.1 hQ
  obtain ⟨S, h1, h2⟩ := add_rep hA hB
  exact ⟨S, h1, h2.valid⟩

/-- C09: multiplication by any integer and by any scalar-field element is total and closed. -/
theorem C09_smul (env : Env) {C : CurveClass} (hC : IsCurve C) {P : Pt} (hP : Valid env C P) (k : ℤ)
    {s : Fld} (hs : IsElem C.fn s) :
    Ends (P.smulZ env C k) (Valid env C) ∧ Ends (P.smul env C s) (Valid env C) := by
  haveI := hC.good
  obtain ⟨A, hA⟩ := valid_iff.1 hP
  obtain ⟨S, h1, h2⟩ := smulZ_rep hA k
  obtain ⟨S', h1', h2'⟩ := smul_rep hA s hs.nonneg
  exact ⟨⟨S, h1, h2.valid⟩, ⟨S', h1', h2'.valid⟩⟩

/-- C09: doubling a finite point is total, closed and finite (no point has order two). -/
theorem C09_double (env : Env) {C : CurveClass} (hC : IsCurve C) {P : Pt} (hP : IsFinite env C P) :
    Ends (P.double env C) (IsFinite env C) := by
  haveI := hC.good
  obtain ⟨A, h0, hA⟩ := isFinite_iff.1 hP
  obtain ⟨S, h1, h2, -⟩ := double_rep hA h0
  exact ⟨S, h1, h2.finite fun e => h0 (eq_zero_of_double e)⟩

example : Pt.add env0 bn254 gBn gBn = Pt.double env0 bn254 gBn := by decide +kernel

/-! ## C10 -/

/-- C10: addition is associative. -/
theorem C10_assoc (env : Env) {C : CurveClass} (hC : IsCurve C) {P Q S : Pt} (hP : Valid env C P)
    (hQ : Valid env C Q) (hS : Valid env C S) :
    EqP env C (do (← P.add env C Q).add env C S) (do P.add env C (← Q.add env C S)) := by
  haveI := hC.good
  obtain ⟨a, ha⟩ := valid_iff.1 hP
  obtain ⟨b, hb⟩ := valid_iff.1 hQ
  obtain ⟨c, hc⟩ := valid_iff.1 hS
  obtain ⟨u, h1, h2⟩ := add_rep ha hb
  obtain ⟨v, h3, h4⟩ := add_rep hb hc
  refine eqP_of_rep ?_ ?_ (add_assoc a b c)
  · rw [h1]; exact add_rep h2 hc
  · rw [h3]; exact add_rep ha h4

/-- C10: addition is commutative. -/
theorem C10_comm (env : Env) {C : CurveClass} (hC : IsCurve C) {P Q : Pt} (hP : Valid env C P)
    (hQ : Valid env C Q) : EqP env C (P.add env C Q) (Q.add env C P) := by
  haveI := hC.good
  obtain ⟨a, ha⟩ := valid_iff.1 hP
  obtain ⟨b, hb⟩ := valid_iff.1 hQ
  exact eqP_of_rep (add_rep ha hb) (add_rep hb ha) (add_comm a b)

/-- C10: the default point is neutral on both sides. -/
theorem C10_neutral (env : Env) {C : CurveClass} (hC : IsCurve C) {P : Pt} (hP : Valid env C P) :
    EqP env C (P.add env C (Pt.infty C)) (.ok P) ∧ EqP env C ((Pt.infty C).add env C P) (.ok P) := by
  haveI := hC.good
  obtain ⟨a, ha⟩ := valid_iff.1 hP
  exact ⟨eqP_of_rep (add_rep ha rep_infty) ⟨_, rfl, ha⟩ (add_zero a),
    eqP_of_rep (add_rep rep_infty ha) ⟨_, rfl, ha⟩ (zero_add a)⟩

/-- C10: every valid point has a valid inverse. -/
theorem C10_inverse (env : Env) {C : CurveClass} (hC : IsCurve C) {P : Pt} (hP : Valid env C P) :
    ∃ N, Valid env C N ∧ EqP env C (P.add env C N) (.ok (Pt.infty C)) := by
  haveI := hC.good
  obtain ⟨a, ha⟩ := valid_iff.1 hP
  obtain ⟨N, -, hN⟩ := smulZ_rep ha (-1)
  exact ⟨N, hN.valid, eqP_of_rep (add_rep ha hN) ⟨_, rfl, rep_infty⟩ (by simp)⟩

/-! ## C11 -/

/-- the sum of `n` copies of `P`, by repeated use of `operator+` -/
def sumCopies (env : Env) (C : CurveClass) (P : Pt) : ℕ → R Pt
  | 0 => .ok (Pt.infty C)
  | n + 1 => do (← sumCopies env C P n).add env C P

theorem sumCopies_rep {env : Env} {C : CurveClass} [GoodCurve C] {P : Pt} {A : Grp C} (h : Rep env P A)
    (n : ℕ) : ∃ S, sumCopies env C P n = .ok S ∧ Rep env S (n • A) := by
  induction n with
  | zero => exact ⟨_, rfl, by simpa using rep_infty⟩
  | succ n ih =>
    obtain ⟨S, h1, h2⟩ := ih
    obtain ⟨T, h3, h4⟩ := add_rep h2 h
    exact ⟨T, by simp only [sumCopies, h1, R.ok_bind, h3], by rwa [succ_nsmul]⟩

/-- C11: `P * k` is the sum of `k` copies of `P`. -/
theorem C11_repeated_addition (env : Env) {C : CurveClass} (hC : IsCurve C) {P : Pt}
    (hP : Valid env C P) (k : ℕ) : EqP env C (P.smulZ env C k) (sumCopies env C P k) := by
  haveI := hC.good
  obtain ⟨a, ha⟩ := valid_iff.1 hP
  exact eqP_of_rep (smulZ_rep ha k) (sumCopies_rep ha k) (natCast_zsmul a k)

/-- C11: `P * (-k)` is the inverse of `P * k`. -/
theorem C11_negative (env : Env) {C : CurveClass} (hC : IsCurve C) {P : Pt} (hP : Valid env C P) (k : ℤ) :
    EqP env C (do (← P.smulZ env C k).add env C (← P.smulZ env C (-k))) (.ok (Pt.infty C)) := by
  haveI := hC.good
  obtain ⟨a, ha⟩ := valid_iff.1 hP
  obtain ⟨u, h1, h2⟩ := smulZ_rep ha k
  obtain ⟨v, h3, h4⟩ := smulZ_rep ha (-k)
  refine eqP_of_rep (A := k • a + (-k) • a) ?_ ⟨_, rfl, rep_infty⟩ (by rw [neg_zsmul, add_neg_cancel])
  rw [h1, h3]; exact add_rep h2 h4

/-- C11: `P * (a + b) == P * a + P * b`. -/
theorem C11_add_scalar (env : Env) {C : CurveClass} (hC : IsCurve C) {P : Pt} (hP : Valid env C P) (a b : ℤ) :
    EqP env C (P.smulZ env C (a + b)) (do (← P.smulZ env C a).add env C (← P.smulZ env C b)) := by
  haveI := hC.good
  obtain ⟨p, hp⟩ := valid_iff.1 hP
  obtain ⟨u, h1, h2⟩ := smulZ_rep hp a
  obtain ⟨v, h3, h4⟩ := smulZ_rep hp b
  refine eqP_of_rep (smulZ_rep hp (a + b)) ?_ (add_zsmul p a b)
  rw [h1, h3]; exact add_rep h2 h4

/-- C11: `(P * a) * b == P * (a * b)`. -/
theorem C11_mul_scalar (env : Env) {C : CurveClass} (hC : IsCurve C) {P : Pt} (hP : Valid env C P) (a b : ℤ) :
    EqP env C (do (← P.smulZ env C a).smulZ env C b) (P.smulZ env C (a * b)) := by
  haveI := hC.good
  obtain ⟨p, hp⟩ := valid_iff.1 hP
  obtain ⟨u, h1, h2⟩ := smulZ_rep hp a
  refine eqP_of_rep ?_ (smulZ_rep hp (a * b)) (B := (a * b) • p) (A := b • (a • p)) ?_
  · rw [h1]; exact smulZ_rep h2 b
  · rw [mul_comm, mul_zsmul]

/-- C11: `(P + Q) * a == P * a + Q * a`. -/
theorem C11_add_point (env : Env) {C : CurveClass} (hC : IsCurve C) {P Q : Pt} (hP : Valid env C P)
    (hQ : Valid env C Q) (a : ℤ) :
    EqP env C (do (← P.add env C Q).smulZ env C a)
      (do (← P.smulZ env C a).add env C (← Q.smulZ env C a)) := by
  haveI := hC.good
  obtain ⟨p, hp⟩ := valid_iff.1 hP
  obtain ⟨q, hq⟩ := valid_iff.1 hQ
  obtain ⟨u, h1, h2⟩ := add_rep hp hq
  obtain ⟨v, h3, h4⟩ := smulZ_rep hp a
  obtain ⟨w, h5, h6⟩ := smulZ_rep hq a
  refine eqP_of_rep (A := a • (p + q)) (B := a • p + a • q) ?_ ?_ (zsmul_add p q a)
  · rw [h1]; exact smulZ_rep h2 a
  · rw [h3, h5]; exact add_rep h4 h6

/-- C11: the scalar-field overload agrees with the integer overload. -/
theorem C11_overloads (env : Env) {C : CurveClass} (hC : IsCurve C) {P : Pt} {s : Fld}
    (hs : IsElem C.fn s) : P.smul env C s = P.smulZ env C s.value := by
  haveI := hC.good
  rw [Pt.smulZ, Fld.mk'_eq, ← hs.eq_ofZ]

example : Pt.smulZ env0 bn254 gBn 5 = sumCopies env0 bn254 gBn 5 := by decide +kernel

/-! ## C12 -/

/-- C12: `P * order` is infinity for every valid point. -/
theorem C12_order (env : Env) {C : CurveClass} (hC : IsCurve C) {P : Pt} (hP : Valid env C P) :
    Ends (P.smulZ env C C.order) (IsInf C) := by
  haveI := hC.good
  obtain ⟨p, hp⟩ := valid_iff.1 hP
  obtain ⟨u, h1, h2⟩ := smulZ_rep hp C.order
  refine ⟨u, h1, (isInf_iff (env := env)).2 ?_⟩
  rwa [GoodCurve0.order_eq, natCast_zsmul, fn_nsmul] at h2

/-- C12: a finite point has order exactly `order`. -/
theorem C12_exact (env : Env) {C : CurveClass} (hC : IsCurve C) {P : Pt} (hP : IsFinite env C P) (k : ℤ) :
    Ends (P.smulZ env C k) fun S => S.inf = true ↔ C.order ∣ k := by
  haveI := hC.good
  obtain ⟨p, h0, hp⟩ := isFinite_iff.1 hP
  obtain ⟨u, h1, h2⟩ := smulZ_rep hp k
  refine ⟨u, h1, ?_⟩
  change u.inf = true ↔ _
  rw [rep_inf h2, GoodCurve0.order_eq, zsmul_eq_zero_iff h0]

example : Pt.smulZ env0 bn254 gBn bn254.order = .ok (Pt.infty bn254) := by decide +kernel

/-! ## C13 -/

/-- C13: a random point is valid, and every valid point comes from exactly one value of the draw. -/
theorem C13_bijection (env : Env) {C : CurveClass} (hC : IsCurve C) {c : Option Addr}
    (hc : LiveGen env c) :
    (∀ coin, Ends (Curve.getRandomPoint env C c coin) (Valid env C)) ∧
    ∀ Q, Valid env C Q → ∃! k : ℤ, (0 ≤ k ∧ k < C.order) ∧
      Ends (Curve.getRandomPoint env C c k) (SamePoint Q) := by
  haveI := hC.good
  refine ⟨fun coin => ?_, fun Q hQ => ?_⟩
  · obtain ⟨P, h1, h2⟩ := getRandomPoint_rep (C := C) hc coin
    exact ⟨P, h1, h2.valid⟩
  · obtain ⟨q, hq⟩ := valid_iff.1 hQ
    have hG : (G : Grp C) ≠ 0 := pt_ne_zero _
    obtain ⟨k, hk, hqk⟩ := exists_zsmul hG q
    have hord : C.order = (C.fn : ℤ) := GoodCurve0.order_eq
    refine ⟨k, ⟨⟨by positivity, by rw [hord]; exact_mod_cast hk⟩, ?_⟩, ?_⟩
    · obtain ⟨P, h1, h2⟩ := getRandomPoint_rep (C := C) hc k
      refine ⟨P, h1, (samePoint_iff hq h2).2 ?_⟩
      rw [hqk, natCast_zsmul]
    · rintro j ⟨⟨hj0, hj1⟩, S, hS, hsame⟩
      obtain ⟨P, h1, h2⟩ := getRandomPoint_rep (C := C) hc j
      rw [hS] at h1
      cases h1
      have := (samePoint_iff hq h2).1 hsame
      rw [hqk, ← natCast_zsmul, ← sub_eq_zero, sub_eq_add_neg, ← sub_zsmul, zsmul_eq_zero_iff hG] at this
      rw [hord] at hj1
      have hk' : (k : ℤ) < C.fn := by exact_mod_cast hk
      have := Int.emod_emod_of_dvd (k : ℤ) (dvd_refl (C.fn : ℤ))
      have h3 : (j : ℤ) ≡ k [ZMOD C.fn] := by
        rw [Int.modEq_iff_dvd]; assumption
      unfold Int.ModEq at h3
      rwa [Int.emod_eq_of_lt hj0 hj1, Int.emod_eq_of_lt (by positivity) hk'] at h3

/-- C13: `generateKeyPair` returns its draw as secret key and the generator times that draw. -/
theorem C13_keyPair (env : Env) {C : CurveClass} (hC : IsCurve C) {c : Option Addr}
    (hc : LiveGen env c) (coin : ℤ) :
    Ends (Curve.generateKeyPair env C c coin) fun kp =>
      kp.1 = coin ∧ Valid env C kp.2 ∧ Ends (Curve.getRandomPoint env C c coin) (SamePoint kp.2) := by
  haveI := hC.good
  obtain ⟨g, hg, hgr⟩ := getDefaultGen_rep (C := C) hc
  obtain ⟨P, h1, h2⟩ := smulZ_rep hgr coin
  refine ⟨(coin, P), by simp only [Curve.generateKeyPair, hg, R.ok_bind, h1], rfl, h2.valid, P, ?_, ?_⟩
  · simp only [Curve.getRandomPoint, hg, R.ok_bind, h1]
  · exact (samePoint_iff h2 h2).2 rfl

example : LiveGen env0 (some 0) ∧ Curve.getRandomPoint env0 bn254 (some 0) 1 = .ok gBn :=
  ⟨env0_liveGen, by decide +kernel⟩

/-! ## C14 -/

/-- C14 (part): for finite points `P - Q` is total, valid, and `(P - Q) + Q == P`.
Missing: infinity operands, for which the property fails (see below). -/
theorem C14_sub_partial (env : Env) {C : CurveClass} (hC : IsCurve C) {P Q : Pt} (hP : IsFinite env C P)
    (hQ : IsFinite env C Q) :
    Ends (P.sub env C Q) fun D => Valid env C D ∧ EqP env C (D.add env C Q) (.ok P) := by
  haveI := hC.good
  obtain ⟨a, ha0, ha⟩ := isFinite_iff.1 hP
  obtain ⟨b, hb0, hb⟩ := isFinite_iff.1 hQ
  obtain ⟨D, h1, h2⟩ := sub_rep ha hb ha0 hb0
  exact ⟨D, h1, h2.valid, eqP_of_rep (add_rep h2 hb) ⟨_, rfl, ha⟩ (sub_add_cancel a b)⟩

/-- C14 is false: with assertions on, subtracting from or by the default (infinity) point
dereferences a null pointer. -/
theorem C14_debug_counterexample (env : Env) (hd : env.ndebug = false) (C : CurveClass) (P : Pt) :
    Faults (P.sub env C (Pt.infty C)) ∧ Faults ((Pt.infty C).sub env C P) := by
  constructor
  · have : ∃ e, Pt.curveEq env C P.curve (Pt.infty C).curve = .error e := by
      unfold Pt.curveEq
      rcases hd' : deref env P.curve with e | o
      · exact ⟨e, rfl⟩
      · exact ⟨.nullDeref, rfl⟩
    obtain ⟨e, he⟩ := this
    exact ⟨e, by simp [Pt.sub, cassert, hd, he]⟩
  · exact ⟨.nullDeref, by simp [Pt.sub, cassert, hd, Pt.curveEq, Pt.infty, deref]⟩

/-- C14 is false: without assertions `P - Infinity` returns something other than `P`, for **every** finite
valid point `P`. -/
theorem C14_minus_infinity_counterexample (env : Env) (hd : env.ndebug = true) {C : CurveClass}
    (hC : IsCurve C) {P I : Pt} (hP : IsFinite env C P) (hI : IsInf C I) :
    ¬ Ends (P.sub env C I) (SamePoint P) := by
  haveI := hC.good
  obtain ⟨a, ha0, ha⟩ := isFinite_iff.1 hP
  rcases cases_pt a with rfl | ⟨x, y, h, rfl⟩
  · exact absurd rfl ha0
  obtain ⟨h1, h2, h3, h4⟩ := (rep_pt_iff h).1 ha
  have hy := y_ne_zero h
  have e0 : I.x = Fld.ofZ (0 : ZMod C.fp) := by rw [hI.x]; simp [Fld.ofZ]
  have e1 : I.y = Fld.ofZ (0 : ZMod C.fp) := by rw [hI.y]; simp [Fld.ofZ]
  rintro ⟨S, hS, hs⟩
  rw [Pt.sub] at hS
  simp only [cassert, hd, if_true, R.ok_bind, e0, e1, Fld.mk'_eq, Fld.sub_ofZ, Int.cast_zero,
    sub_zero] at hS
  by_cases hx : x = 0
  · subst hx
    simp [Pt.add, h1, Pt.ofFld, cassert, hd, h2, h3, Fld.beq_ofZ, hy] at hS
    subst hS
    simp [SamePoint, h1, Pt.infty] at hs
  · simp [Pt.add, h1, Pt.ofFld, cassert, hd, h2, h3, Fld.beq_ofZ, hx, Fld.div_ofZ env y hx] at hS
    subst hS
    simp only [SamePoint, h1, h2, h3, Fld.ofZ_injective.eq_iff, true_and, Bool.false_eq_true, false_and,
      false_or] at hs
    obtain ⟨hs1, hs2⟩ := hs
    rw [← hs1] at hs2
    have : y * 2 = 0 := by linear_combination hs2
    rcases mul_eq_zero.1 this with h' | h'
    · exact hy h'
    · exact two_ne C h'

/-- C14 is false: without assertions `Infinity - Q` is a finite point with a null curve pointer: it fails
`isValid`, and `Infinity - Infinity` is not infinity. -/
theorem C14_infinity_minus_counterexample (env : Env) (hd : env.ndebug = true) {C : CurveClass}
    (hC : IsCurve C) {Q : Pt} (hQ : Valid env C Q) :
    Ends ((Pt.infty C).sub env C Q) fun D =>
      D.inf = false ∧ D.curve = none ∧ Pt.isValid env C D = .ok false ∧ ¬ Valid env C D := by
  haveI := hC.good
  have hy : IsElem C.fp Q.y := by
    rcases hQ with h | h
    · rw [h.y]
      have : (⟨0, C.fp⟩ : Fld) = Fld.ofZ (0 : ZMod C.fp) := by simp [Fld.ofZ]
      rw [this]; exact isElem_ofZ _
    · exact h.y
  obtain ⟨y, hy⟩ := isElem_iff.1 hy
  refine ⟨Pt.ofFld Q.x (Fld.ofZ (-y)) none, ?_, rfl, rfl, rfl, ?_⟩
  · simp [Pt.sub, cassert, hd, hy, Fld.mk'_eq, Pt.add, Pt.infty]
  · rintro (h | h)
    · exact absurd h.flag (by simp [Pt.ofFld])
    · obtain ⟨_, _, h', _⟩ := h.live
      cases h'

example : Pt.sub env0 bn254 gBn gBn = .ok (Pt.infty bn254) := by decide +kernel

/-! ## C15 -/

/-- C15 (part): `P.pointDouble() == P + P` for finite `P`.  Missing: infinity, where it fails. -/
theorem C15_double_partial (env : Env) {C : CurveClass} (hC : IsCurve C) {P : Pt} (hP : IsFinite env C P) :
    EqP env C (P.double env C) (P.add env C P) := by
  haveI := hC.good
  obtain ⟨a, ha0, ha⟩ := isFinite_iff.1 hP
  obtain ⟨D, h1, h2, -⟩ := double_rep ha ha0
  exact eqP_of_rep ⟨D, h1, h2⟩ (add_rep ha ha) rfl

/-- C15 is false: doubling infinity never returns (null or dead pointer, or an undefined inverse),
whatever curve pointer the infinity point carries. -/
theorem C15_infinity_counterexample (env : Env) {C : CurveClass} (hC : IsCurve C) {P : Pt} (hP : IsInf C P) :
    Faults (P.double env C) := by
  haveI := hC.good
  have e0 : P.x = Fld.ofZ (0 : ZMod C.fp) := by rw [hP.x]; simp [Fld.ofZ]
  have e1 : P.y = Fld.ofZ (0 : ZMod C.fp) := by rw [hP.y]; simp [Fld.ofZ]
  rcases hd : deref env P.curve with e | o
  · exact ⟨e, by simp [Pt.double, e0, hd]⟩
  · refine ⟨.undefInverse, ?_⟩
    simp [Pt.double, e0, e1, hd, Fld.mk'_eq, Fld.div_ofZ_zero]

example : IsInf bn254 (Pt.infty bn254) := ⟨rfl, rfl, rfl⟩

/-! ## C16 -/

/-- C16: `operator==` on valid points is total and decides equality of the points, whatever (live) curve
objects they refer to. -/
theorem C16_eq (env : Env) {C : CurveClass} (hC : IsCurve C) {P Q : Pt} (hP : Valid env C P)
    (hQ : Valid env C Q) : ∃ b, Pt.beq env C P Q = .ok b ∧ (b = true ↔ SamePoint P Q) := by
  haveI := hC.good
  obtain ⟨a, ha⟩ := valid_iff.1 hP
  obtain ⟨b, hb⟩ := valid_iff.1 hQ
  exact ⟨_, rep_beq ha hb, by rw [decide_eq_true_eq, samePoint_iff ha hb]⟩

/-- C16: `operator==` is an equivalence relation on valid points. -/
theorem C16_equivalence (env : Env) {C : CurveClass} (hC : IsCurve C) {P Q S : Pt} (hP : Valid env C P)
    (hQ : Valid env C Q) (hS : Valid env C S) :
    Pt.beq env C P P = .ok true ∧ Pt.beq env C P Q = Pt.beq env C Q P ∧
    (Pt.beq env C P Q = .ok true → Pt.beq env C Q S = .ok true → Pt.beq env C P S = .ok true) := by
  haveI := hC.good
  obtain ⟨a, ha⟩ := valid_iff.1 hP
  obtain ⟨b, hb⟩ := valid_iff.1 hQ
  obtain ⟨c, hc⟩ := valid_iff.1 hS
  rw [rep_beq ha ha, rep_beq ha hb, rep_beq hb ha, rep_beq hb hc, rep_beq ha hc]
  refine ⟨by simp, by simp [eq_comm], ?_⟩
  simp only [Except.ok.injEq, decide_eq_true_eq]
  exact fun h h' => h.trans h'

/-- two different curve objects alive -/
def env2 : Env := ⟨false, fun a => if a < 2 then some ⟨a⟩ else none⟩

example : Pt.beq env2 bn254 (Pt.ofZ bn254 (-1) 1 (some 0)) (Pt.ofZ bn254 (-1) 1 (some 1)) = .ok true := by
  decide +kernel

/-! ## C17 -/

/-- C17: `evaluatePy2(x)` is `x³ + a x + b`. -/
theorem C17_py2 (env : Env) {C : CurveClass} (hC : IsCurve C) {c : Option Addr} (hc : Live env c) {x : Fld}
    (hx : IsElem C.fp x) :
    Returns C.fp (Curve.evaluatePy2 env C c x) (x.value ^ 3 + C.a * x.value + C.b) := by
  haveI := hC.good
  obtain ⟨z, rfl⟩ := isElem_iff.1 hx
  exact returns_ofZ (evaluatePy2_ok hc z) (by push_cast; rw [ofZ_cast]; rfl)

/-- C17: `evaluateP` and `evaluatePneg` return infinity exactly when no point has the abscissa, otherwise the
two points with that abscissa, mutually inverse, and there are no others. -/
theorem C17_evaluate (env : Env) {C : CurveClass} (hC : IsCurve C) {c : Option Addr} (hc : Live env c)
    {x : Fld} (hx : IsElem C.fp x) :
    ∃ P N, Curve.evaluateP env C c x = .ok P ∧ Curve.evaluatePneg env C c x = .ok N ∧
      ((∃ y : ℤ, CurveEq C x.value y) →
        IsFinite env C P ∧ IsFinite env C N ∧ P.x = x ∧ N.x = x ∧
        EqP env C (P.add env C N) (.ok (Pt.infty C)) ∧ ¬ SamePoint P N ∧
        ∀ Q, IsFinite env C Q → Q.x = x → SamePoint Q P ∨ SamePoint Q N) ∧
      ((¬ ∃ y : ℤ, CurveEq C x.value y) → IsInf C P ∧ IsInf C N) := by
  haveI := hC.good
  obtain ⟨z, rfl⟩ := isElem_iff.1 hx
  refine ⟨_, _, evaluateP_ok hc z, evaluatePneg_ok hc z, ?_, ?_⟩
  · rintro ⟨y, hy⟩
    have hy' : CurveEq C (Fld.ofZ z).value (Fld.ofZ (y : ZMod C.fp)).value := by
      unfold CurveEq at hy ⊢
      rw [GoodCurve0.prime_eq, ← ZMod.intCast_eq_intCast_iff] at hy ⊢
      push_cast at hy ⊢
      rw [ofZ_cast, ofZ_cast] at *
      exact hy
    have hsq := (root_sq_iff z).2 ⟨_, curveEq_iff.1 hy'⟩
    rw [if_pos hsq, if_pos hsq]
    have hon := on_root hsq
    have r1 := rep_ofFld (env := env) hon hc
    have r2 := rep_ofFld (env := env) (on_neg hon) hc
    refine ⟨r1.finite (pt_ne_zero _), r2.finite (pt_ne_zero _), rfl, rfl, ?_, ?_, ?_⟩
    · refine eqP_of_rep (add_rep r1 r2) ⟨_, rfl, rep_infty⟩ ?_
      rw [← neg_pt hon, add_neg_cancel]
    · rw [samePoint_iff r1 r2, pt_inj]
      rintro ⟨-, h⟩
      have : root C z * 2 = 0 := by linear_combination h
      rcases mul_eq_zero.1 this with h' | h'
      · exact y_ne_zero hon h'
      · exact two_ne C h'
    · intro Q hQ hQx
      obtain ⟨b, hb0, hb⟩ := isFinite_iff.1 hQ
      rcases cases_pt b with rfl | ⟨x', y', h', rfl⟩
      · exact absurd rfl hb0
      have : x' = z := Fld.ofZ_injective (((rep_pt_iff h').1 hb).2.1.symm.trans hQx)
      subst this
      rcases y_eq_or h' hon with e | e
      · left; exact (samePoint_iff hb r1).2 (pt_inj.2 ⟨rfl, e⟩)
      · right; exact (samePoint_iff hb r2).2 (pt_inj.2 ⟨rfl, e⟩)
  · intro hno
    have hsq : ¬ root C z * root C z = rhs C z := by
      intro h
      exact hno ⟨_, curveEq_iff.2 (on_root h)⟩
    rw [if_neg hsq, if_neg hsq]
    exact ⟨⟨rfl, rfl, rfl⟩, ⟨rfl, rfl, rfl⟩⟩

example : Curve.evaluateP env0 bn254 (some 0) (Fld.mk' bn254P (-1)) = .ok gBn ∨
    Curve.evaluatePneg env0 bn254 (some 0) (Fld.mk' bn254P (-1)) = .ok gBn := by decide +kernel

/-! ## C18 -/

/-- C18: a finite valid point is reproduced by decoding its encoding on any point with a live curve, and the
encoding lies in `[0, 2 * prime)`. -/
theorem C18_roundtrip (env : Env) {C : CurveClass} (hC : IsCurve C) {P T : Pt} (hP : IsFinite env C P)
    (hT : Live env T.curve) :
    Ends (P.getEncodedX env C) fun e => 0 ≤ e ∧ e < 2 * C.prime ∧
      Ends (T.setEncodedX env C e) fun P' => SamePoint P P' ∧ P'.curve = T.curve ∧ IsFinite env C P' := by
  haveI := hC.good
  obtain ⟨a, ha0, ha⟩ := isFinite_iff.1 hP
  rcases cases_pt a with rfl | ⟨x, y, h, rfl⟩
  · exact absurd rfl ha0
  obtain ⟨h1, h2, h3, h4⟩ := (rep_pt_iff h).1 ha
  have hsq := (root_sq_iff x).2 ⟨_, h⟩
  have hval : x.val < C.fp := ZMod.val_lt x
  have hpr : C.prime = (C.fp : ℤ) := GoodCurve0.prime_eq
  have hcast : (((x.val : ℤ) : ℤ) : ZMod C.fp) = x := ofZ_cast x
  by_cases hy : y = root C x
  · refine ⟨(x.val : ℤ) * 2 + 1, ?_, by positivity, by rw [hpr]; omega, ?_⟩
    · simp only [Pt.getEncodedX, h2, evaluateP_ok h4, if_pos hsq, R.ok_bind, Pt.ofFld, h3, Fld.beq_ofZ,
        hy, decide_true, if_true, Fld.getRawValue, Fld.ofZ_value]
    · have e1 : ((x.val : ℤ) * 2 + 1) % 2 = 1 := by omega
      have e2 : ((x.val : ℤ) * 2 + 1) / 2 = x.val := by omega
      refine ⟨Pt.ofFld (Fld.ofZ x) (Fld.ofZ (root C x)) T.curve, ?_, ?_, rfl, ?_⟩
      · rw [Pt.setEncodedX, if_pos e1, e2, Fld.mk'_eq, hcast, evaluateP_ok hT, if_pos hsq]
      · exact (samePoint_iff ha (rep_ofFld (on_root hsq) hT)).2 (pt_inj.2 ⟨rfl, hy⟩)
      · exact (rep_ofFld (on_root hsq) hT).finite (pt_ne_zero _)
  · have hy' : y = -root C x := (y_eq_or h (on_root hsq)).resolve_left hy
    refine ⟨(x.val : ℤ) * 2, ?_, by positivity, by rw [hpr]; omega, ?_⟩
    · simp only [Pt.getEncodedX, h2, evaluateP_ok h4, if_pos hsq, R.ok_bind, Pt.ofFld, h3, Fld.beq_ofZ,
        Ne.symm hy, decide_false, Bool.false_eq_true, if_false, Fld.getRawValue, Fld.ofZ_value]
    · have e1 : ¬ ((x.val : ℤ) * 2) % 2 = 1 := by omega
      have e2 : ((x.val : ℤ) * 2) / 2 = x.val := by omega
      have hon := on_neg (on_root hsq)
      refine ⟨Pt.ofFld (Fld.ofZ x) (Fld.ofZ (-root C x)) T.curve, ?_, ?_, rfl, ?_⟩
      · rw [Pt.setEncodedX, if_neg e1, e2, Fld.mk'_eq, hcast, evaluatePneg_ok hT, if_pos hsq]
      · exact (samePoint_iff ha (rep_ofFld hon hT)).2 (pt_inj.2 ⟨rfl, hy'⟩)
      · exact (rep_ofFld hon hT).finite (pt_ne_zero _)

/-- C18: the encoding is injective on finite valid points. -/
theorem C18_injective (env : Env) {C : CurveClass} (hC : IsCurve C) {P Q : Pt} (hP : IsFinite env C P)
    (hQ : IsFinite env C Q) (h : P.getEncodedX env C = Q.getEncodedX env C) : SamePoint P Q := by
  haveI := hC.good
  obtain ⟨e, he, -, -, P', h1, h2, h2', h2''⟩ := C18_roundtrip env hC hP hP.live
  obtain ⟨e', he', -, -, Q', h3, h4, h4', h4''⟩ := C18_roundtrip env hC hQ hP.live
  rw [h, he'] at he
  cases he
  rw [h1] at h3
  cases h3
  obtain ⟨a, ha0, ha⟩ := isFinite_iff.1 hP
  obtain ⟨b, hb0, hb⟩ := isFinite_iff.1 hQ
  obtain ⟨c, hc0, hc⟩ := isFinite_iff.1 h2''
  rw [samePoint_iff ha hb, (samePoint_iff ha hc).1 h2, (samePoint_iff hb hc).1 h4]

/-- C18 (boundary): infinity has no encoding, the call dereferences its null curve. -/
theorem C18_infinity (env : Env) (C : CurveClass) :
    Pt.getEncodedX env C (Pt.infty C) = .error .nullDeref := by
  simp [Pt.getEncodedX, Pt.infty, Curve.evaluateP, Curve.evaluatePy2, deref]

/-- C18: decoding any integer whatsoever on a point with a live curve returns a valid point. -/
theorem C18_decode_total (env : Env) {C : CurveClass} (hC : IsCurve C) {T : Pt} (hT : Live env T.curve)
    (e : ℤ) : Ends (T.setEncodedX env C e) (Valid env C) := by
  haveI := hC.good
  have hx : IsElem C.fp (Fld.mk' C.fp (e / 2)) := isElem_mk' _
  obtain ⟨P, N, h1, h2, h3, h4⟩ := C17_evaluate env hC hT hx
  rw [Pt.setEncodedX]
  by_cases hex : ∃ y : ℤ, CurveEq C (Fld.mk' C.fp (e / 2)).value y
  · split_ifs
    · exact ⟨P, h1, .inr (h3 hex).1⟩
    · exact ⟨N, h2, .inr (h3 hex).2.1⟩
  · split_ifs
    · exact ⟨P, h1, .inl (h4 hex).1⟩
    · exact ⟨N, h2, .inl (h4 hex).2⟩

example : ∃ e, Pt.getEncodedX env0 bn254 gBn = .ok e ∧ Pt.setEncodedX env0 bn254 gBn e = .ok gBn := by
  refine ⟨2 * ((bn254P : ℤ) - 1) + 1, ?_, ?_⟩ <;>
    decide +kernel

end Verif
