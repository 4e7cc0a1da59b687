import Verif.Props.Ot

/-!
# C36: exactly what still works after the sender is gone
-/

namespace Verif
namespace Ot

open EC Dme

variable {env : Env}

/-- without assertions only the doubling looks at the curve object -/
theorem add_free {a : Addr} (hn : env.ndebug = true) {P Q : Pt}
    (h : P.inf = true ∨ Q.inf = true ∨ ¬ (P.x.beq Q.x = true ∧ P.y.beq Q.y = true)) :
    P.add (env.free a) CC Q = P.add env CC Q := by
  have hf : (env.free a).ndebug = env.ndebug := rfl
  unfold Pt.add
  split_ifs with h1 h2 h3 h4
  · rfl
  · rfl
  · exact absurd (And.intro h3 h4) (by tauto)
  · rw [cassert, cassert, hf, if_pos hn, if_pos hn]
  · rw [cassert, cassert, hf, if_pos hn, if_pos hn]; rfl

theorem double_free {a : Addr} {P : Pt} (h : Live env P.curve) (hne : P.curve ≠ some a) :
    P.double (env.free a) CC = P.double env CC := by
  obtain ⟨x, o, h1, h2⟩ := h
  have hx : x ≠ a := fun e => hne (by rw [h1, e])
  have d1 : deref env P.curve = .ok o := by rw [h1, deref, h2]
  have d2 : deref (env.free a) P.curve = .ok o := by rw [h1, deref]; simp [Env.free, hx, h2]
  unfold Pt.double
  simp only [d1, d2, R.ok_bind]
  rfl

theorem smul_one_any (env : Env) {P : Pt} {k : Fld} (hk : k.value = 1) : P.smul env CC k = .ok P := by
  unfold Pt.smul
  split_ifs with h
  · rfl
  · rw [Fld.getRawValue, hk, show (getStr2 1).reverse = ['1'] from rfl, Pt.smulLoop, if_pos rfl]
    rw [Pt.add, if_pos (by rfl), R.ok_bind, List.isEmpty_nil, if_pos rfl, R.ok_bind, Pt.smulLoop]

/-- the first component of a ciphertext refers to the sender's curve object -/
theorem encMsgs_u_curve {a : Addr} {crs : Crs} {old : List Ctxt} {pk : PKey} {m0 m1 : Pt} {k0 k1 : EncCoins} {c : List Ctxt}
    {s' : Sndr} (he : encMsgs env ⟨ctorCrs (some a) crs, old⟩ pk m0 m1 k0 k1 = .ok (c, s')) {b : Branch} {ct : Ctxt}
    (hct : index c b = .ok ct) (hfin : ct.u.inf = false) : ct.u.curve = some a := by
  simp only [encMsgs] at he
  obtain ⟨c0, h0, he⟩ := R.bind_eq_ok.1 he
  obtain ⟨c1, h1, he⟩ := R.bind_eq_ok.1 he
  obtain ⟨rfl, -⟩ := Prod.mk.inj (Except.ok.inj he)
  rw [index_pair] at hct
  obtain rfl := Except.ok.inj hct
  rcases b with _ | _
  · rcases enc_u_curve rfl rfl h0 with h | h
    · simp [h] at hfin
    · exact h
  · rcases enc_u_curve rfl rfl h1 with h | h
    · simp [h] at hfin
    · exact h

/-- C36, exactly: let a sender constructed from a CRS, its curve object at `a`, have made a valid ciphertext with finite
components, and let the receiver's secret key not be 0. After the sender's destruction decryption returns what it returned
before if assertions are off, the key is 1, and the components do not cancel or the second one refers to another object; in
all other cases it is undefined. -/
theorem C36_exact (env : Env) (a : Addr) (crs : Crs) (old : List Ctxt) {pk : PKey}
    {m0 m1 : Pt} {k0 k1 : EncCoins} {c : List Ctxt} {s' : Sndr}
    (he : encMsgs env ⟨ctorCrs (some a) crs, old⟩ pk m0 m1 k0 k1 = .ok (c, s'))
    {r : Recv} (hsk : IsElem CC.fn r.sk) {b : Branch} (hb : r.b = some b)
    {ct : Ctxt} (hct : index c b = .ok ct) (hv : ValidCtxt env ct) (hnd : NonDegenerate r c b) :
    (env.ndebug = true ∧ r.sk.value = 1 ∧
        (ct.mv.curve = some a → ¬ Ends (ct.mv.add env CC ct.u) fun s => s.inf = true) →
      Ends (decryptMsg env r c) fun m => decryptMsg (env.free a) r c = .ok m) ∧
    (¬ (env.ndebug = true ∧ r.sk.value = 1 ∧
        (ct.mv.curve = some a → ¬ Ends (ct.mv.add env CC ct.u) fun s => s.inf = true)) →
      Faults (decryptMsg (env.free a) r c)) := by
  have hdec : ∀ e : Env, decryptMsg e r c = dec e r.sk ct := fun e => by
    simp only [decryptMsg, selected, hb, hct, R.ok_bind]
  rw [hdec, hdec]
  obtain ⟨ct', h1, h2, h3, h4⟩ := hnd
  obtain rfl := Except.ok.inj (hct.symm.trans h1)
  have hcur := encMsgs_u_curve he hct h2
  obtain ⟨U, hU⟩ := valid_iff.1 hv.u
  obtain ⟨V, hV⟩ := valid_iff.1 hv.mv
  have hU0 : U ≠ 0 := fun h => by rw [(rep_inf hU).2 h] at h2; simp at h2
  have hV0 : V ≠ 0 := fun h => by rw [(rep_inf hV).2 h] at h4; simp at h4
  have hf : (env.free a).ndebug = env.ndebug := rfl
  have hcancel : (Ends (ct.mv.add env CC ct.u) fun s => s.inf = true) ↔ V = -U := by
    obtain ⟨S, s1, s2⟩ := add_rep hV hU
    constructor
    · rintro ⟨S', e1, e2⟩
      obtain rfl := Except.ok.inj (s1.symm.trans e1)
      exact eq_neg_of_add_eq_zero_left ((rep_inf s2).1 e2)
    · intro h
      exact ⟨S, s1, (rep_inf s2).2 (by rw [h, neg_add_cancel])⟩
  rw [hcancel]
  obtain ⟨ny, n1, n2⟩ := neg_rep hU hU0 (rep_live hV hV0)
  have hbeq : (ct.mv.x.beq ct.u.x = true ∧ ct.mv.y.beq ny = true) ↔ V = -U := by
    have := rep_beq hV n2
    have hl := rep_live hV hV0
    simp only [Pt.beq, h4, Pt.ofFld, Bool.and_false, Bool.false_eq_true, if_false] at this
    rw [curveEq_live (C := CC) hl hl, R.ok_bind] at this
    by_cases hx : ct.mv.x.beq ct.u.x = true
    · by_cases hy : ct.mv.y.beq ny = true
      · simp only [hx, hy, if_true] at this
        simpa [hx, hy] using this
      · simp only [hx, hy, if_true] at this
        simpa [hx, hy] using this
    · simp only [hx] at this
      simpa [hx] using this
  have hvalue : r.sk.value = 1 ∨ 2 ≤ r.sk.value := by
    obtain ⟨-, g1, -⟩ := hsk
    omega
  constructor
  · rintro ⟨hn, h1, h⟩
    obtain ⟨S, s1, -⟩ := sub_rep hV hU hV0 hU0
    refine ⟨S, by rw [dec, smul_one_any env h1, R.ok_bind, s1], ?_⟩
    change dec (env.free a) r.sk ct = .ok S
    rw [dec, smul_one_any _ h1, R.ok_bind, ← s1]
    have hsub : ∀ e : Env, e.ndebug = true → ct.mv.sub e CC ct.u =
        (Fld.mk' CC.fp 0).sub e CC.fp ct.u.y >>= fun ny => ct.mv.add e CC (Pt.ofFld ct.u.x ny ct.mv.curve) := by
      intro e he
      rw [Pt.sub, cassert, if_pos he, R.ok_bind]
    have n1' : (Fld.mk' CC.fp 0).sub (env.free a) CC.fp ct.u.y = .ok ny := n1
    rw [hsub _ hn, hsub _ (hf.trans hn), n1, n1', R.ok_bind, R.ok_bind]
    by_cases hc : V = -U
    · have hne : ct.mv.curve ≠ some a := fun e => h e hc
      obtain ⟨b1, b2⟩ := hbeq.2 hc
      have hadd : ∀ e : Env, e.ndebug = true →
          ct.mv.add e CC (Pt.ofFld ct.u.x ny ct.mv.curve) = ct.mv.double e CC := by
        intro e he
        rw [Pt.add, if_neg (by simp [h4]), if_neg (by simp [Pt.ofFld]), cassert, if_pos he, R.ok_bind,
          if_pos (by exact b1), if_pos (by exact b2)]
      rw [hadd _ hn, hadd _ (hf.trans hn), double_free (rep_live hV hV0) hne]
    · exact add_free hn (.inr (.inr (by rw [Pt.ofFld]; exact fun h => hc (hbeq.1 h))))
  · intro h
    rcases hvalue with h1 | h1
    · rw [dec, smul_one_any _ h1, R.ok_bind]
      by_cases hn : env.ndebug = true
      · have h' : ct.mv.curve = some a ∧ V = -U := by
          by_contra hh
          exact h ⟨hn, h1, fun x y => hh ⟨x, y⟩⟩
        have n1' : (Fld.mk' CC.fp 0).sub (env.free a) CC.fp ct.u.y = .ok ny := n1
        obtain ⟨b1, b2⟩ := hbeq.2 h'.2
        rw [Pt.sub, cassert, if_pos (hf.trans hn), R.ok_bind, n1', R.ok_bind, Pt.add, if_neg (by simp [h4]),
          if_neg (by simp [Pt.ofFld]), cassert, if_pos (hf.trans hn), R.ok_bind]
        rw [if_pos (by exact b1), if_pos (by exact b2)]
        exact double_dead (by rw [h'.1]; exact free_dead env a)
      · obtain ⟨e, he⟩ := deref_not_live (env := env.free a) (c := ct.u.curve) (by rw [hcur]; exact free_dead env a)
        rw [Pt.sub, cassert, if_neg (by rw [hf]; exact hn), Pt.curveEq]
        rcases hd : deref (env.free a) ct.mv.curve with e' | o
        · exact ⟨e', rfl⟩
        · exact ⟨e, by rw [R.ok_bind, he]; rfl⟩
    · obtain ⟨e, he⟩ := smul_dead (env := env.free a) (C := CC) (k := r.sk) h2 (by rw [hcur]; exact free_dead env a) h1
      exact ⟨e, by rw [dec, he, R.error_bind]⟩

/-- the exception is real: with assertions off and the secret key 1, decryption works after the sender is gone -/
example : (do
    let env : Env := { tenv2 with ndebug := true }
    let d ← ctorMessy env (some 0) ⟨5, 7, 2, 3⟩
    let s := Sndr.ctor (ctorCrs (some 1) d.crs)
    let (pk, r) ← selectMsg env (Recv.ctor d) .b1 1
    let m ← Curve.getRandomPoint env CC (some 0) 13
    let (c, _) ← encMsgs env s pk m m ⟨17, 18⟩ ⟨19, 20⟩
    let m' ← decryptMsg (env.free 1) r c
    m'.beq env CC m) = .ok true := by decide +kernel

end Ot
end Verif
