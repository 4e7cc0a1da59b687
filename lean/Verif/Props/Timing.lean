import Verif.Model.Timing
import Verif.Props.Ecc

/-!
# C105: what the order of the point operations tells about a scalar
-/

namespace Verif

open EC

theorem smulLoopT_fst (env : Env) (C : CurveClass) (cs : List Char) (p r : Pt) :
    (Pt.smulLoopT env C cs p r).map Prod.fst = Pt.smulLoop env C cs p r := by
  induction cs generalizing p r with
  | nil => rfl
  | cons c cs ih =>
    rw [Pt.smulLoopT, Pt.smulLoop]
    generalize (if c = '1' then r.add env C p else .ok r) = x
    generalize (if cs.isEmpty then .ok p else p.double env C) = y
    rcases x with e | r'
    · rfl
    rcases y with e | p'
    · rfl
    rw [R.ok_bind, R.ok_bind, R.ok_bind, R.ok_bind, ← ih p' r']
    cases Pt.smulLoopT env C cs p' r' <;> rfl

/-- **C105**: recording the operations does not change the result, whatever it is. -/
theorem C105_same (env : Env) (C : CurveClass) (P : Pt) (k : Fld) :
    (P.smulT env C k).map Prod.fst = P.smul env C k := by
  unfold Pt.smulT Pt.smul
  split
  · rfl
  · exact smulLoopT_fst _ _ _ _ _

/-- The scalar as somebody reads it off the operations, from the last to the first: add one for an addition, double for a doubling. -/
def readScalar (t : List PointOp) : ℕ :=
  t.foldr (fun o n => match o with | .add => n + 1 | .double => 2 * n) 0

/-- the operations for a string of digits -/
def opsOf : List Char → List PointOp
  | [] => []
  | c :: cs => (if c = '1' then [.add] else []) ++ (if cs.isEmpty then [] else [.double]) ++ opsOf cs

theorem smulLoopT_opsOf (env : Env) (C : CurveClass) (cs : List Char) (p r q : Pt) (t : List PointOp)
    (h : Pt.smulLoopT env C cs p r = .ok (q, t)) : t = opsOf cs := by
  induction cs generalizing p r q t with
  | nil => exact (Prod.mk.inj (Except.ok.inj h)).2.symm
  | cons c cs ih =>
    rw [Pt.smulLoopT] at h
    rcases hr : (if c = '1' then r.add env C p else .ok r) with e | r'
    · rw [hr] at h; cases h
    rcases hp : (if cs.isEmpty then .ok p else p.double env C) with e | p'
    · rw [hr, hp] at h; cases h
    rw [hr, hp, R.ok_bind, R.ok_bind] at h
    rcases ht : Pt.smulLoopT env C cs p' r' with e | ⟨q', t'⟩
    · rw [ht] at h; cases h
    rw [ht, R.ok_bind] at h
    rw [opsOf, ← ih _ _ _ _ ht]
    exact (Prod.mk.inj (Except.ok.inj h)).2.symm

theorem opsOf_counts (cs : List Char) :
    readScalar (opsOf cs) = digitsVal cs ∧ (opsOf cs).count .add = cs.count '1' ∧ (opsOf cs).count .double = cs.length - 1 := by
  induction cs with
  | nil => exact ⟨rfl, rfl, rfl⟩
  | cons c cs ih =>
    obtain ⟨i1, i2, i3⟩ := ih
    rcases cs with _ | ⟨d, cs⟩
    · by_cases hc : c = '1'
      · subst hc; exact ⟨rfl, rfl, rfl⟩
      · simp [hc, readScalar, digitsVal, opsOf]
    · unfold readScalar at i1 ⊢
      rw [opsOf, digitsVal, ← i1, List.length_cons, List.count_cons]
      by_cases hc : c = '1'
      · subst hc
        refine ⟨?_, ?_, ?_⟩
        · simp [List.foldr, Nat.add_comm]
        · simp [i2, Nat.add_comm]
        · simp [i3]
      · refine ⟨?_, ?_, ?_⟩
        · simp [hc, List.foldr]
        · simp [hc, i2]
        · simp [hc, i3]

theorem getStr2_digits (f n : ℕ) (acc : List Char) (h : n < f) (hn : 0 < n) :
    (binDigitsAux f n acc).reverse = acc.reverse ++ (Nat.digits 2 n).map fun d => if d = 1 then '1' else '0' := by
  induction f generalizing n acc with
  | zero => omega
  | succ f ih =>
    rw [binDigitsAux, Nat.digits_def' (by norm_num) hn]
    split_ifs with h1 h2 h3
    · subst h2; simp
    · omega
    · rw [ih _ _ (by omega) (by omega)]; simp [h3]
    · rw [ih _ _ (by omega) (by omega)]
      simp [h3]

theorem count_ones (l : List ℕ) (h : ∀ d ∈ l, d < 2) : (l.map fun d => if d = 1 then '1' else '0').count '1' = l.sum := by
  induction l with
  | nil => rfl
  | cons d l ih =>
    have := h d (by simp)
    rw [List.map_cons, List.count_cons, ih fun x hx => h x (by simp [hx]), List.sum_cons]
    interval_cases d <;> simp [Nat.add_comm]

/-- the operations, for every scalar and whatever finite point -/
theorem smulZT_ops (env : Env) (C : CurveClass) (P : Pt) (hP : P.inf = false) (k : ℤ) (h0 : 0 ≤ k) (hk : k < C.fn) (q : Pt)
    (t : List PointOp) (h : P.smulZT env C k = .ok (q, t)) :
    readScalar t = k.toNat ∧ t.count .add = (Nat.digits 2 k.toNat).sum ∧ t.count .double = Nat.log 2 k.toNat := by
  have hv : (Fld.mk' C.fn k).getRawValue = k := by
    simp only [Fld.mk', Fld.getRawValue]
    exact Int.emod_eq_of_lt h0 hk
  rw [Pt.smulZT, Pt.smulT, if_neg (by simp [hP]), hv] at h
  obtain ⟨h1, h2, h3⟩ := opsOf_counts (getStr2 k).reverse
  rw [← smulLoopT_opsOf _ _ _ _ _ _ _ h] at h1 h2 h3
  rw [digitsVal_getStr2 _ h0] at h1
  refine ⟨h1, ?_⟩
  rcases h0.eq_or_lt with rfl | hpos
  · exact ⟨h2, h3⟩
  · have hd : (getStr2 k).reverse = (Nat.digits 2 k.toNat).map fun d => if d = 1 then '1' else '0' := by
      rw [getStr2, if_neg (by omega), getStr2_digits _ _ _ (by omega) (by omega), show k.natAbs = k.toNat by omega]
      rfl
    rw [h2, h3, hd]
    refine ⟨count_ones _ fun d hd => Nat.digits_lt_base (by norm_num) hd, ?_⟩
    rw [List.length_map, Nat.digits_len 2 _ (by norm_num) (by omega), Nat.add_sub_cancel]

/-- **C105** (that the point operations of a multiplication do not depend on the scalar) is false: for every finite valid point the
additions and doublings, read backwards, spell the scalar.  There is one addition for each binary digit 1 and one doubling for
each digit but the first. -/
theorem C105_counterexample (env : Env) {C : CurveClass} (hC : IsCurve C) {P : Pt} (hP : Valid env C P) (hfin : P.inf = false)
    (k : ℤ) (h0 : 0 ≤ k) (hk : k < C.order) :
    ∃ q t, P.smulZT env C k = .ok (q, t) ∧ P.smulZ env C k = .ok q ∧
      ((t.foldr (fun o n => match o with | .add => n + 1 | .double => 2 * n) 0 : ℕ) : ℤ) = k ∧
      t.count .add = (Nat.digits 2 k.toNat).sum ∧ t.count .double = Nat.log 2 k.toNat := by
  haveI := hC.good
  obtain ⟨A, hA⟩ := valid_iff.1 hP
  obtain ⟨S, h1, -⟩ := smulZ_rep hA k
  have hs := C105_same env C P (Fld.mk' C.fn k)
  change _ = P.smulZ env C k at hs
  rw [h1] at hs
  have hk' : k < C.fn := by rw [(C06_constants hC).2.2.2.1] at hk; exact hk
  rcases ht : P.smulT env C (Fld.mk' C.fn k) with e | ⟨q, t⟩
  · rw [ht] at hs; cases hs
  · rw [ht] at hs
    obtain rfl : q = S := Except.ok.inj hs
    obtain ⟨r1, r2, r3⟩ := smulZT_ops env C P hfin k h0 hk' q t ht
    exact ⟨q, t, ht, h1, by change ((readScalar t : ℕ) : ℤ) = k; rw [r1]; omega, r2, r3⟩

/-- **C105**, two scalars: the operations are the same for different scalars never, their numbers exactly if the scalars have as
many binary digits and as many ones among them. -/
theorem C105_differ_counterexample (env : Env) {C : CurveClass} (hC : IsCurve C) {P Q : Pt} (hP : Valid env C P)
    (hQ : Valid env C Q) (hfin : P.inf = false) (hfinQ : Q.inf = false) (k l : ℤ) (h0 : 0 ≤ k) (hk : k < C.order) (l0 : 0 ≤ l)
    (hl : l < C.order) :
    ∃ p s q t, P.smulZT env C k = .ok (p, s) ∧ Q.smulZT env C l = .ok (q, t) ∧ (s = t ↔ k = l) ∧
      ((s.count .add = t.count .add ∧ s.count .double = t.count .double) ↔
        (Nat.digits 2 k.toNat).sum = (Nat.digits 2 l.toNat).sum ∧ Nat.log 2 k.toNat = Nat.log 2 l.toNat) := by
  obtain ⟨p, s, a1, -, a2, a3, a4⟩ := C105_counterexample env hC hP hfin k h0 hk
  obtain ⟨q, t, b1, -, b2, b3, b4⟩ := C105_counterexample env hC hQ hfinQ l l0 hl
  refine ⟨p, s, q, t, a1, b1, ⟨fun h => ?_, ?_⟩, by rw [a3, a4, b3, b4]⟩
  · rw [← a2, ← b2, h]
  · rintro rfl
    rw [Pt.smulZT, Pt.smulT, if_neg (by simp [hfin])] at a1
    rw [Pt.smulZT, Pt.smulT, if_neg (by simp [hfinQ])] at b1
    rw [smulLoopT_opsOf _ _ _ _ _ _ _ a1, smulLoopT_opsOf _ _ _ _ _ _ _ b1]

/-- 13 is 1101: the operations for it -/
example : ∃ q, gBn.smulZT env0 bn254 13 = .ok (q, [.add, .double, .double, .add, .double, .add]) ∧
    gBn.smulZ env0 bn254 13 = .ok q := by
  have h1 : (gBn.smulZT env0 bn254 13).map Prod.snd = .ok [.add, .double, .double, .add, .double, .add] := by decide +kernel
  obtain ⟨q, t, h2, h3, -⟩ := C105_counterexample env0 (.inl rfl) (.inr gBn_finite) rfl 13 (by norm_num) (by decide)
  rw [h2] at h1
  obtain rfl := Except.ok.inj h1
  exact ⟨q, h2, h3⟩

/-- the operations of a multiplication that returns, by a key of the class -/
theorem smulT_key (env : Env) (C : CurveClass) (P w : Pt) (hP : P.inf = false) (sk : Fld) (hs : 0 ≤ sk.value)
    (h : P.smul env C sk = .ok w) : ∃ t, P.smulT env C sk = .ok (w, t) ∧ (readScalar t : ℤ) = sk.value := by
  have h1 := C105_same env C P sk
  rw [h] at h1
  rcases ht : P.smulT env C sk with e | ⟨q, t⟩
  · rw [ht] at h1; cases h1
  · rw [ht] at h1
    obtain rfl : q = w := Except.ok.inj h1
    refine ⟨t, rfl, ?_⟩
    rw [Pt.smulT, if_neg (by simp [hP])] at ht
    have := (opsOf_counts (getStr2 sk.getRawValue).reverse).1
    rw [← smulLoopT_opsOf _ _ _ _ _ _ _ ht, digitsVal_getStr2 sk.getRawValue hs] at this
    rw [this]
    exact Int.toNat_of_nonneg hs

/-- **C105**, secret keys: the operations of a decryption of any ciphertext with a finite first component spell the secret key; the
ciphertext need not be known. -/
theorem C105_dec_counterexample (env : Env) (sk : Fld) (hs : 0 ≤ sk.value) (c : Dme.Ctxt) (hu : c.u.inf = false) (m : Pt)
    (h : Dme.dec env sk c = .ok m) :
    ∃ t, Dme.decT env sk c = .ok (m, t) ∧
      ((t.foldr (fun o n => match o with | .add => n + 1 | .double => 2 * n) 0 : ℕ) : ℤ) = sk.value := by
  rcases hw : c.u.smul env Dme.CC sk with e | w
  · rw [Dme.dec, hw] at h; cases h
  obtain ⟨t, h1, h2⟩ := smulT_key env Dme.CC c.u w hu sk hs hw
  refine ⟨t, ?_, h2⟩
  rw [Dme.dec, hw, R.ok_bind] at h
  rw [Dme.decT, h1, R.ok_bind, h, R.ok_bind]

theorem C105_decrypt_counterexample (env : Env) (sk : Fld) (hs : 0 ≤ sk.value) (c : ElGamal.Ctxt) (hu : c.u.inf = false) (m : ℤ)
    (h : ElGamal.decrypt env sk c = .ok m) :
    ∃ t, ElGamal.decryptT env sk c = .ok (m, t) ∧
      ((t.foldr (fun o n => match o with | .add => n + 1 | .double => 2 * n) 0 : ℕ) : ℤ) = sk.value := by
  rcases hw : c.u.smul env ElGamal.CC sk with e | w
  · rw [ElGamal.decrypt, hw] at h; cases h
  obtain ⟨t, h1, h2⟩ := smulT_key env ElGamal.CC c.u w hu sk hs hw
  refine ⟨t, ?_, h2⟩
  rw [ElGamal.decrypt, hw, R.ok_bind] at h
  rw [ElGamal.decryptT, h1, R.ok_bind]
  rcases hr : c.mv.sub env ElGamal.CC w with e | r
  · rw [hr] at h; cases h
  · rw [hr] at h
    rw [← Except.ok.inj h]
    rfl

/-- the key 13, read off the decryption of some ciphertext -/
example : ∃ t, (Dme.decT env0 (Fld.mk' secpN 13) ⟨Pt.ofZ secp256r1 secp256r1.gx secp256r1.gy (some 0),
      Pt.ofZ secp256r1 secp256r1.gx secp256r1.gy (some 0)⟩).map Prod.snd = .ok t ∧
    t.foldr (fun o n => match o with | .add => n + 1 | .double => 2 * n) 0 = 13 := by
  refine ⟨[.add, .double, .double, .add, .double, .add], by decide +kernel, rfl⟩

end Verif
