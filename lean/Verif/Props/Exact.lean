import Verif.Props.Ot

/-!
# C14, C15, C29, C35: exact conditions, infinity included

`operator-` is right exactly when the subtrahend is finite and the first operand's curve pointer designates a live object;
an infinite first operand may or may not carry such a pointer.
-/

namespace Verif

open EC

section
variable {env : Env} {C : CurveClass} [GoodCurve C]

/-- `P - Q` for a finite `Q` and a `P` with a live curve, infinity or not -/
theorem sub_live_rep {P Q : Pt} {A B : Grp C} (hP : Rep env P A) (hQ : Rep env Q B) (hl : Live env P.curve)
    (hB : B ≠ 0) : ∃ S, P.sub env C Q = .ok S ∧ Rep env S (A - B) := by
  obtain ⟨ny, h1, h2⟩ := neg_rep hQ hB hl
  obtain ⟨S, hS, hr⟩ := add_rep hP h2
  refine ⟨S, ?_, by rwa [sub_eq_add_neg]⟩
  simp only [Pt.sub, cassert_of_eq_true env (curveEq_live (C := C) hl (rep_live hQ hB)), R.ok_bind, h1, hS]

/-- an infinite first operand without a live curve: the result has no live curve either, and `==` does not return -/
theorem sub_dead_ne {P Q m : Pt} (hP : P.inf = true) (hl : ¬ Live env P.curve) :
    ¬ EqP env C (P.sub env C Q) (.ok m) := by
  rintro ⟨x, y, h1, h2, h3⟩
  obtain rfl := Except.ok.inj h2
  rw [Pt.sub] at h1
  obtain ⟨-, -, h1⟩ := R.bind_eq_ok.1 h1
  obtain ⟨ny, -, h1⟩ := R.bind_eq_ok.1 h1
  rw [Pt.add, if_pos hP] at h1
  obtain rfl := Except.ok.inj h1
  have hd : ∀ o, deref env P.curve ≠ .ok o := by
    intro o ho
    apply hl
    unfold deref at ho
    rcases hc : P.curve with _ | a
    · rw [hc] at ho; simp at ho
    · rw [hc] at ho
      simp only at ho
      rcases hh : env.heap a with _ | o'
      · rw [hh] at ho; simp at ho
      · exact ⟨a, o', rfl, hh⟩
  have hxx : (Pt.ofFld Q.x ny P.curve).x = Q.x := rfl
  have hyy : (Pt.ofFld Q.x ny P.curve).y = ny := rfl
  have hcc : (Pt.ofFld Q.x ny P.curve).curve = P.curve := rfl
  have hii : (Pt.ofFld Q.x ny P.curve).inf = false := rfl
  generalize Pt.ofFld Q.x ny P.curve = W at h3 hxx hyy hcc hii
  simp only [Pt.beq, hxx, hyy, hcc, hii, Bool.false_and, Bool.false_eq_true, if_false] at h3
  rcases hx : Q.x.beq m.x with _ | _
  · simp [hx] at h3
  rcases hy : ny.beq m.y with _ | _
  · simp [hx, hy] at h3
  · rw [if_pos hx, if_pos hy] at h3
    obtain ⟨e, h4, -⟩ := R.bind_eq_ok.1 h3
    unfold Pt.curveEq at h4
    obtain ⟨o, h5, -⟩ := R.bind_eq_ok.1 h4
    exact hd o h5

/-- when `P - Q` equals the difference -/
theorem sub_iff {P Q T : Pt} {A B : Grp C} (hP : Rep env P A) (hQ : Rep env Q B) (hT : Rep env T (A - B)) :
    EqP env C (P.sub env C Q) (.ok T) ↔ B ≠ 0 ∧ Live env P.curve := by
  constructor
  · intro h
    have hB : B ≠ 0 := by
      rintro rfl
      rw [sub_zero] at hT
      exact sub_inf_ne hP hQ hT h
    refine ⟨hB, ?_⟩
    by_contra hl
    have hi : P.inf = true := by
      by_contra hi
      exact hl (rep_live hP fun h0 => hi ((rep_inf hP).2 h0))
    exact sub_dead_ne hi hl h
  · rintro ⟨hB, hl⟩
    obtain ⟨S, h1, h2⟩ := sub_live_rep hP hQ hl hB
    exact eqP_of_rep ⟨S, h1, h2⟩ ⟨T, rfl, hT⟩ rfl

end

/-- C14: for valid `P` and `Q`, `P - Q` is a valid point with `(P - Q) + Q == P` **exactly** when `Q` is finite and the
curve pointer of `P` designates a live object (as it does for every finite `P`). -/
theorem C14_exact (env : Env) {C : CurveClass} (hC : IsCurve C) {P Q : Pt} (hP : Valid env C P) (hQ : Valid env C Q) :
    (Ends (P.sub env C Q) fun D => Valid env C D ∧ EqP env C (D.add env C Q) (.ok P)) ↔
      Q.inf = false ∧ Live env P.curve := by
  haveI := hC.good
  obtain ⟨A, hA⟩ := valid_iff.1 hP
  obtain ⟨B, hB⟩ := valid_iff.1 hQ
  constructor
  · rintro ⟨D, h1, h2, h3⟩
    obtain ⟨d, hd⟩ := valid_iff.1 h2
    obtain ⟨S, h4, h5⟩ := add_rep hd hB
    obtain ⟨x, y, h6, h7, h8⟩ := h3
    rw [h4] at h6
    obtain rfl := Except.ok.inj h6
    obtain rfl := Except.ok.inj h7
    rw [rep_beq h5 hA] at h8
    have e : d + B = A := by simpa using h8
    have hd' : Rep env D (A - B) := by rwa [← e, add_sub_cancel_right]
    have h9 := (sub_iff hA hB hd').1 (by rw [h1]; exact eqP_of_rep ⟨D, rfl, hd'⟩ ⟨D, rfl, hd'⟩ rfl)
    exact ⟨rep_inf_false hB h9.1, h9.2⟩
  · rintro ⟨h1, h2⟩
    have hB0 : B ≠ 0 := fun h0 => by
      have := (rep_inf hB).2 h0
      rw [h1] at this
      exact absurd this (by simp)
    obtain ⟨D, h3, h4⟩ := sub_live_rep hA hB h2 hB0
    exact ⟨D, h3, h4.valid, eqP_of_rep (add_rep h4 hB) ⟨_, rfl, hA⟩ (sub_add_cancel A B)⟩

/-- infinity with a live curve pointer minus a finite point -/
example : Valid env0 bn254 { Pt.infty bn254 with curve := some 0 } ∧ Valid env0 bn254 gBn ∧ gBn.inf = false ∧
    Live env0 { Pt.infty bn254 with curve := some 0 }.curve :=
  ⟨.inl ⟨rfl, rfl, rfl⟩, .inr gBn_finite, rfl, env0_live⟩

/-- C15: for valid `P`, `P.pointDouble() == P + P` **exactly** when `P` is finite; for infinity `pointDouble` does not
return. -/
theorem C15_exact (env : Env) {C : CurveClass} (hC : IsCurve C) {P : Pt} (hP : Valid env C P) :
    (EqP env C (P.double env C) (P.add env C P) ↔ P.inf = false) ∧ (Faults (P.double env C) ↔ P.inf = true) := by
  rcases hP with h | h
  · obtain ⟨e, he⟩ := C15_infinity_counterexample env hC h
    rw [h.flag]
    refine ⟨iff_of_false ?_ (by simp), iff_of_true ⟨e, he⟩ rfl⟩
    rintro ⟨x, y, h1, -⟩
    rw [he] at h1
    cases h1
  · have h1 := C15_double_partial env hC h
    rw [h.flag]
    refine ⟨iff_of_true h1 rfl, iff_of_false ?_ (by simp)⟩
    rintro ⟨e, he⟩
    obtain ⟨x, y, h2, -⟩ := h1
    rw [he] at h2
    cases h2

example : Valid env0 bn254 gBn := .inr gBn_finite

namespace Dme

variable {env : Env}

/-- when a ciphertext decrypts -/
theorem dec_live_iff {c : Ctxt} {U V : Grp CC} {k : F} (hU : Rep env c.u U) (hV : Rep env c.mv V) {m : Pt}
    (hm : Rep env m (V - k • U)) :
    EqP env CC (dec env (Fld.ofZ k) c) (.ok m) ↔ c.u.inf = false ∧ k ≠ 0 ∧ Live env c.mv.curve := by
  obtain ⟨w, h3, r3⟩ := smulF_rep hU k
  simp only [dec, h3, R.ok_bind]
  rw [sub_iff hV r3 hm, Ne, smul_eq_zero, not_or, ← rep_inf hU, Bool.not_eq_true]
  tauto

/-- C29: the sum of two ciphertexts decrypts to the sum of the messages **exactly** when the sum of the first components
is finite, the key is not zero, and the curve pointer of the second component designates a live object (it does unless
the second components cancel). -/
theorem C29_exact (env : Env) {d d1 d2 : Inst} (hl : Live env d.curve) (hl1 : Live env d1.curve)
    (hl2 : Live env d2.curve) (hc : ValidCrs env d.crs) (hc1 : ValidCrs env d1.crs) (hc2 : ValidCrs env d2.crs)
    (hs1 : SameCrs d.crs d1.crs) (hs2 : SameCrs d.crs d2.crs) (b : Branch) {m1 m2 : Pt}
    (hm1 : Valid env CC m1) (hm2 : Valid env CC m2) (k s1 t1 s2 t2 : ℤ) :
    Ends (keyGen env d b k) fun kp => Ends (enc env d1 kp.pk b m1 s1 t1) fun c1 =>
      Ends (enc env d2 kp.pk b m2 s2 t2) fun c2 => Ends (eval env c1 c2) fun c =>
        ValidCtxt env c ∧ (EqP env CC (dec env kp.sk c) (m1.add env CC m2) ↔
          c.u.inf = false ∧ kp.sk.value ≠ 0 ∧ Live env c.mv.curve) := by
  obtain ⟨g, h, r⟩ := hc.rep
  obtain ⟨M1, hM1⟩ := valid_iff.1 hm1
  obtain ⟨M2, hM2⟩ := valid_iff.1 hm2
  obtain ⟨pg, ph, e1, r1, r2⟩ := keyGen_rep hl r b k
  refine ⟨_, e1, ?_⟩
  obtain ⟨c1, v1, f1, ru1, -, -, rmv1⟩ := enc_rep (pk := ⟨pg, ph⟩) hl1 (r.congr hs1 hc1) r1 r2 hM1 b s1 t1
  refine ⟨c1, f1, ?_⟩
  obtain ⟨c2, v2, f2, ru2, -, -, rmv2⟩ := enc_rep (pk := ⟨pg, ph⟩) hl2 (r.congr hs2 hc2) r1 r2 hM2 b s2 t2
  refine ⟨c2, f2, ?_⟩
  obtain ⟨c, f3, ru, rmv⟩ := eval_rep ru1 rmv1 ru2 rmv2
  refine ⟨c, f3, ⟨ru.valid, rmv.valid⟩, ?_⟩
  obtain ⟨S, f4, rS⟩ := add_rep hM1 hM2
  rw [f4, ofZ_ne_zero_iff]
  refine dec_live_iff ru rmv ?_
  have e : (s1 : F) • (k : F) • g b + (t1 : F) • (k : F) • h b + M1 +
      ((s2 : F) • (k : F) • g b + (t2 : F) • (k : F) • h b + M2) -
      (k : F) • ((s1 : F) • g b + (t1 : F) • h b + ((s2 : F) • g b + (t2 : F) • h b)) = M1 + M2 := by module
  rw [e]
  exact rS

/-- a sum of two ciphertexts meeting the three conditions -/
example : (do
    let d ← ctorMessy tenv (some 0) ⟨5, 7, 2, 3⟩
    let kp ← keyGen tenv d .b1 11
    let m1 ← Curve.getRandomPoint tenv CC (some 0) 13
    let m2 ← Curve.getRandomPoint tenv CC (some 0) 14
    let c1 ← enc tenv d kp.pk .b1 m1 17 19
    let c2 ← enc tenv d kp.pk .b1 m2 3 4
    let c ← eval tenv c1 c2
    .ok (c.u.inf, kp.sk.value, c.mv.curve)) = .ok (false, 11, some 0) := by decide +kernel

end Dme

namespace Ot

open Dme

/-- C35: the aggregate decrypts to the sum **exactly** when its first component on the receiver's branch is finite, the key
is not zero and the curve pointer of the second component designates a live object. -/
theorem C35_exact (env : Env) {rc : Recv} (hl : Live env rc.dme.curve) (hc : ValidCrs env rc.dme.crs)
    (b : Branch) (coin : ℤ) (a : Answer) (as : List Answer) (has : ∀ x ∈ a :: as, ReadyAns env rc.dme.crs x)
    (old : List Ctxt) :
    Ends (selectMsg env rc b coin) fun sel => Ends (answers env sel.1 (a :: as)) fun cs =>
      Ends (aggregate env old cs) fun c => Ends (index c b) fun x =>
        (EqP env CC (decryptMsg env sel.2 c)
          (sumPts env (pick b a.m0 a.m1) (as.map fun x => pick b x.m0 x.m1)) ↔
          x.u.inf = false ∧ sel.2.sk.value ≠ 0 ∧ Live env x.mv.curve) := by
  obtain ⟨g, h, r⟩ := hc.rep
  obtain ⟨pg, ph, e1, rg, rh⟩ := keyGen_rep hl r b coin
  refine ⟨(⟨pg, ph⟩, { rc with sk := Fld.ofZ (coin : F), b := some b }),
    by simp only [selectMsg, e1, R.ok_bind], ?_⟩
  obtain ⟨x, s, Ua, Ma, f1, hMa, hx⟩ := goodPair_enc (pk := ⟨pg, ph⟩) r rg rh (has a (by simp))
  obtain ⟨c0, c1, rfl, hrest⟩ := hx
  obtain ⟨cs, c, U', M', m', h1, h2, h3, h4, h5⟩ := aggLoop_good (pk := ⟨pg, ph⟩) r rg rh as
    (fun a ha => has a (by simp [ha])) c0 c1 Ua Ma ⟨c0, c1, rfl, hrest⟩ _ hMa
  refine ⟨[c0, c1] :: cs, by simp only [answers, f1, h1, R.ok_bind],
    c, by simp only [aggregate, index_pair, R.ok_bind, h2], ?_⟩
  rw [h4]
  obtain ⟨d0, d1, rfl, v0, v1, ru, rmv⟩ := h3
  simp only [decryptMsg, selected, index_pair, R.ok_bind, ofZ_ne_zero_iff]
  have key : ∀ ct : Ctxt, Rep env ct.u U' → Rep env ct.mv ((coin : F) • U' + M') →
      (EqP env CC (dec env (Fld.ofZ (coin : F)) ct) (.ok m') ↔ ct.u.inf = false ∧ (coin : F) ≠ 0 ∧ Live env ct.mv.curve) :=
    fun ct hu hv => dec_live_iff hu hv (by rwa [add_sub_cancel_left])
  rcases b with _ | _
  · exact ⟨_, rfl, key _ ru rmv⟩
  · exact ⟨_, rfl, key _ ru rmv⟩

/-- two senders whose aggregate meets the three conditions -/
example : (do
    let d ← ctorMessy tenv2 (some 0) ⟨5, 7, 2, 3⟩
    let s := Sndr.ctor (ctorCrs (some 1) d.crs)
    let (pk, r) ← selectMsg tenv2 (Recv.ctor d) .b1 11
    let m0 ← Curve.getRandomPoint tenv2 CC (some 1) 13
    let m1 ← Curve.getRandomPoint tenv2 CC (some 1) 14
    let cs ← answers tenv2 pk [⟨s, m0, m1, ⟨3, 4⟩, ⟨5, 6⟩⟩, ⟨s, m1, m0, ⟨7, 8⟩, ⟨9, 10⟩⟩]
    let c ← aggregate tenv2 [] cs
    let x ← index c .b1
    .ok (x.u.inf, r.sk.value, x.mv.curve)) = .ok (false, 11, some 0) := by decide +kernel

end Ot
end Verif
