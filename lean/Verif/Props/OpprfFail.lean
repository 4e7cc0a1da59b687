import Verif.Props.Opprf
import Verif.Model.OpprfState

/-!
# C66, C67: what happens when the client cannot decrypt
-/

namespace Verif
namespace Opprf

open EC Dme Ot Aes BytesSpec

attribute [local irreducible] Rep

/-! ## C66 -/

/-- C66 (part): if the draws do not mislead the client, an evaluation completes exactly when the 15 sealed keys and the mask
meant for the client open; otherwise the client stops with its exception (with its assertion, if compiled in).
Missing: misleading draws (see `NotMisled`). -/
theorem C66_completes_iff_partial {W : World} {s : Server} {c : Client} (hP : Parties W.env s c) {x : Msg} {d : Draws}
    (hu : NotMisled W s c x d) :
    (Ends (evaluate W s c x d) (fun _ => True) ↔ AllOpen W s x d) ∧
    (¬ AllOpen W s x d → evaluate W s c x d = .error (if W.env.ndebug then .exception else .assertFail)) := by
  obtain ⟨A, hA⟩ := valid_iff.1 hP.ga
  obtain ⟨R0, hR⟩ := valid_iff.1 hP.result
  rcases evaluate_gen hP hu hA hR with ⟨h1, h2⟩ | ⟨s', c', h1, -, -, -, -, -, -, -, -, h2⟩
  · refine ⟨⟨?_, fun h => absurd h h2⟩, fun _ => h1⟩
    rintro ⟨r, h, -⟩
    rw [h1] at h
    cases h
  · exact ⟨⟨fun _ => h2, fun _ => ⟨_, h1, trivial⟩⟩, fun h => absurd h2 h⟩

/-- C66 (part): if the draws do not mislead the client and an evaluation with a fresh or cleaned client completes, the result
is right: `kopprf + ga * x` for an input at most the threshold, `R + ga * x + r * sum(ok)` with the decoy `R` above it.
Missing: misleading draws (see `NotMisled`). -/
theorem C66_right_if_completes_partial {W : World} {s s' : Server} {c c' : Client} (hP : Parties W.env s c)
    (hc : c.result = Pt.infty CC) {x : Msg} {d : Draws} (hu : NotMisled W s c x d)
    (h : evaluate W s c x d = .ok (s', c')) :
    (x.toNat ≤ s.theta.toNat → EqP W.env CC (.ok c'.result)
      (do let t ← s.ga.smulZ W.env CC x.toNat; s'.kopprf.add W.env CC t)) ∧
    (s.theta.toNat < x.toNat → EqP W.env CC (.ok c'.result)
      (aboveResult W s.curve d.mask.rnd s.ga x s'.r d.okSum)) := by
  have ho := (C66_completes_iff_partial hP hu).1.1 ⟨_, h, trivial⟩
  constructor
  · intro hx
    obtain ⟨r, h1, h2⟩ := C53_partial hP hc hx ⟨hu, ho⟩
    rw [h] at h1
    obtain rfl := Except.ok.inj h1
    exact h2
  · intro hx
    obtain ⟨r, h1, h2⟩ := C54_partial hP hc hx ⟨hu, ho⟩
    rw [h] at h1
    obtain rfl := Except.ok.inj h1
    exact h2

/-! ## C67 -/

/-- not an exception -/
def NoExc {α : Type} (r : R α) : Prop := r ≠ .error .exception

theorem NoExc.bind {α β : Type} {r : R α} {f : α → R β} (h : NoExc r) (h' : ∀ a, NoExc (f a)) : NoExc (r >>= f) := by
  cases r with
  | ok a => exact h' a
  | error e =>
    rw [R.error_bind]
    exact fun he => h (by rw [Except.error.inj he])

theorem NoExc.ok {α : Type} (a : α) : NoExc (.ok a : R α) := fun h => nomatch h

theorem NoExc.ite {α : Type} {p : Prop} [Decidable p] {r r' : R α} (h : NoExc r) (h' : NoExc r') :
    NoExc (if p then r else r') := by
  split_ifs
  exacts [h, h']

theorem NoExc.error {α : Type} {e : Fault} (h : e ≠ .exception) : NoExc (.error e : R α) :=
  fun he => h (Except.error.inj he)

theorem noExc_cassert (env : Env) {r : R Bool} (h : NoExc r) : NoExc (cassert env r) :=
  NoExc.ite (NoExc.ok _) (h.bind fun _ => NoExc.ite (NoExc.ok _) (NoExc.error (by decide)))

theorem noExc_deref (env : Env) (a : Option Addr) : NoExc (deref env a) := by
  unfold deref
  split
  · exact NoExc.error (by decide)
  · split
    · exact NoExc.ok _
    · exact NoExc.error (by decide)

theorem noExc_mpzMod (n d : ℤ) : NoExc (mpzMod n d) :=
  NoExc.ite (NoExc.error (by decide)) (NoExc.ok _)

theorem noExc_mpzInvert (n d : ℤ) : NoExc (mpzInvert n d) := by
  unfold mpzInvert
  split_ifs
  · exact NoExc.error (by decide)
  · exact NoExc.ok _
  · exact NoExc.error (by decide)

theorem noExc_same (env : Env) (a b : Fld) : NoExc (a.sameField env b) := noExc_cassert _ (NoExc.ok _)

theorem noExc_fadd (env : Env) (m : ℕ) (a b : Fld) : NoExc (a.add env m b) :=
  (noExc_same _ _ _).bind fun _ => (noExc_mpzMod _ _).bind fun _ => NoExc.ok _

theorem noExc_fsub (env : Env) (m : ℕ) (a b : Fld) : NoExc (a.sub env m b) :=
  (noExc_same _ _ _).bind fun _ => (noExc_mpzMod _ _).bind fun _ => NoExc.ok _

theorem noExc_fmul (env : Env) (m : ℕ) (a b : Fld) : NoExc (a.mul env m b) :=
  (noExc_same _ _ _).bind fun _ => (noExc_mpzMod _ _).bind fun _ => NoExc.ok _

theorem noExc_fmulZ (m : ℕ) (a : Fld) (k : ℤ) : NoExc (a.mulZ m k) := (noExc_mpzMod _ _).bind fun _ => NoExc.ok _

theorem noExc_square (m : ℕ) (a : Fld) : NoExc (a.square m) := (noExc_mpzMod _ _).bind fun _ => NoExc.ok _

theorem noExc_invert (m : ℕ) (a : Fld) : NoExc (a.invert m) := (noExc_mpzInvert _ _).bind fun _ => NoExc.ok _

theorem noExc_fdiv (env : Env) (m : ℕ) (a b : Fld) : NoExc (a.div env m b) :=
  (noExc_same _ _ _).bind fun _ => (noExc_invert _ _).bind fun _ => noExc_fmul _ _ _ _

theorem noExc_curveEq (env : Env) (C : CurveClass) (a b : Option Addr) : NoExc (Pt.curveEq env C a b) :=
  (noExc_deref _ _).bind fun _ => (noExc_deref _ _).bind fun _ => NoExc.ok _

theorem noExc_double (env : Env) (C : CurveClass) (P : Pt) : NoExc (P.double env C) :=
  (noExc_square _ _).bind fun _ => (noExc_fmulZ _ _ _).bind fun _ => (noExc_deref _ _).bind fun _ =>
  (noExc_fadd _ _ _ _).bind fun _ => (noExc_fmulZ _ _ _).bind fun _ => (noExc_fdiv _ _ _ _).bind fun _ =>
  (noExc_fmul _ _ _ _).bind fun _ => (noExc_fmulZ _ _ _).bind fun _ => (noExc_fsub _ _ _ _).bind fun _ =>
  (noExc_fsub _ _ _ _).bind fun _ => (noExc_fmul _ _ _ _).bind fun _ => (noExc_fsub _ _ _ _).bind fun _ => NoExc.ok _

theorem noExc_add (env : Env) (C : CurveClass) (P Q : Pt) : NoExc (P.add env C Q) := by
  unfold Pt.add
  refine NoExc.ite (NoExc.ok _) (NoExc.ite (NoExc.ok _) ((noExc_cassert _ (noExc_curveEq _ _ _ _)).bind fun _ =>
    NoExc.ite (NoExc.ite (noExc_double _ _ _) (NoExc.ok _)) ?_))
  exact (noExc_fsub _ _ _ _).bind fun _ => (noExc_fsub _ _ _ _).bind fun _ => (noExc_fdiv _ _ _ _).bind fun _ =>
    (noExc_fmul _ _ _ _).bind fun _ => (noExc_fsub _ _ _ _).bind fun _ => (noExc_fsub _ _ _ _).bind fun _ =>
    (noExc_fsub _ _ _ _).bind fun _ => (noExc_fmul _ _ _ _).bind fun _ => (noExc_fsub _ _ _ _).bind fun _ => NoExc.ok _

theorem noExc_sub (env : Env) (C : CurveClass) (P Q : Pt) : NoExc (P.sub env C Q) :=
  (noExc_cassert _ (noExc_curveEq _ _ _ _)).bind fun _ => (noExc_fsub _ _ _ _).bind fun _ => noExc_add _ _ _ _

theorem noExc_smulLoop (env : Env) (C : CurveClass) (l : List Char) (p r : Pt) : NoExc (Pt.smulLoop env C l p r) := by
  induction l generalizing p r with
  | nil => exact NoExc.ok _
  | cons c l ih =>
    exact (NoExc.ite (noExc_add _ _ _ _) (NoExc.ok _)).bind fun _ =>
      (NoExc.ite (NoExc.ok _) (noExc_double _ _ _)).bind fun _ => ih _ _

theorem noExc_smul (env : Env) (C : CurveClass) (P : Pt) (k : Fld) : NoExc (P.smul env C k) :=
  NoExc.ite (NoExc.ok _) (noExc_smulLoop _ _ _ _ _)

theorem noExc_selected (r : Recv) (c : List Ctxt) : NoExc (selected r c) := by
  unfold selected Ot.index
  split
  · exact NoExc.error (by decide)
  · split
    · exact NoExc.ok _
    · exact NoExc.error (by decide)

theorem noExc_decryptMsg (env : Env) (r : Recv) (c : List Ctxt) : NoExc (decryptMsg env r c) :=
  (noExc_selected _ _).bind fun _ => (noExc_smul _ _ _ _).bind fun _ => noExc_sub _ _ _ _

/-- the functions that track the state give the same outcome as `Client.finish` and `Client.unmaskResult` -/
theorem finishState_eq (W : World) (c : Client) (round : ℤ) (m : OtCtxts) :
    c.finish W round m = (c.finishState W round m).2.map fun _ => (c.finishState W round m).1 := by
  unfold Client.finish Client.finishState
  split_ifs
  · cases decryptMsgDecode W.env c.otr m.ctxt.e0 with
    | error e => rfl
    | ok k =>
      simp only [R.ok_bind]
      cases decryptMsg W.env c.otr m.cprf with
      | error e => rfl
      | ok p =>
        simp only [R.ok_bind]
        cases c.result.add W.env CC p <;> rfl
  · cases searchKey W c m.ctxt.toList with
    | error e => rfl
    | ok f =>
      simp only [R.ok_bind]
      cases cassert W.env (.ok f.isSome) with
      | error e => rfl
      | ok u =>
        cases f with
        | none => rfl
        | some k =>
          simp only [R.ok_bind]
          cases decryptMsg W.env c.otr m.cprf with
          | error e => rfl
          | ok p =>
            simp only [R.ok_bind]
            cases c.result.add W.env CC p <;> rfl

theorem unmaskState_eq (W : World) (c : Client) (m : Arr3 ℤ) (coin : ℤ) :
    c.unmaskResult W m coin = (c.unmaskState W m coin).2.map fun _ => (c.unmaskState W m coin).1 := by
  unfold Client.unmaskResult Client.unmaskState
  cases searchMask W c.key m.toList with
  | error e => rfl
  | ok f =>
    simp only [R.ok_bind]
    cases cassert W.env (.ok f.isSome) with
    | error e => rfl
    | ok u =>
      simp only [R.ok_bind]
      cases f with
      | none => rfl
      | some x =>
        simp only
        cases Curve.getRandomPoint W.env CC c.curve coin with
        | error e => rfl
        | ok P =>
          simp only [R.ok_bind]
          cases P.setEncodedX W.env CC x with
          | error e => rfl
          | ok Q =>
            simp only [R.ok_bind]
            cases c.result.add W.env CC Q <;> rfl

/-- C67: when `runOTRound_end` or `unmaskResult` ends with an exception, the client is as it was before the call. -/
theorem C67_unchanged (W : World) (c : Client) :
    (∀ round m, (c.finishState W round m).2 = .error .exception → (c.finishState W round m).1 = c) ∧
    (∀ m coin, (c.unmaskState W m coin).2 = .error .exception → (c.unmaskState W m coin).1 = c) := by
  constructor
  · intro round m h
    unfold Client.finishState at h ⊢
    split at h
    · rfl
    · next k hk =>
      have hn : NoExc (do
          let p ← decryptMsg W.env c.otr m.cprf
          c.result.add W.env CC p) := (noExc_decryptMsg _ _ _).bind fun _ => noExc_add _ _ _ _
      simp only at h
      split at h
      · next e he =>
        rw [Except.error.inj h] at he
        exact absurd he hn
      · cases h
  · intro m coin h
    unfold Client.unmaskState at h ⊢
    split at h
    · rfl
    · cases h

/-- one call on a client whose caller catches exceptions -/
def CCall.runCatch (W : World) (c : Client) (k : CCall) : R Client :=
  match k with
  | .finish i m =>
    match c.finishState W i m with
    | (c', .error .exception) => .ok c'
    | (_, .error e) => .error e
    | (c', .ok ()) => .ok c'
  | .unmask m coin =>
    match c.unmaskState W m coin with
    | (c', .error .exception) => .ok c'
    | (_, .error e) => .error e
    | (c', .ok ()) => .ok c'
  | k => k.run W c

theorem runCatch_cases {W : World} {c c' : Client} {k : CCall} (h : k.runCatch W c = .ok c') :
    k.run W c = .ok c' ∨ c' = c := by
  obtain ⟨u1, u2⟩ := C67_unchanged W c
  cases k with
  | finish i m =>
    have e := finishState_eq W c i m
    have u := u1 i m
    change (match c.finishState W i m with
      | (c', .error .exception) => .ok c'
      | (_, .error e) => .error e
      | (c', .ok ()) => .ok c' : R Client) = .ok c' at h
    change c.finish W i m = .ok c' ∨ c' = c
    rw [e]
    rcases hs : c.finishState W i m with ⟨t, r⟩
    rw [hs] at h u
    rcases r with r | r
    · cases r <;> first | (cases h; done) | exact .inr ((Except.ok.inj h).symm.trans (u rfl))
    · exact .inl h
  | unmask m coin =>
    have e := unmaskState_eq W c m coin
    have u := u2 m coin
    change (match c.unmaskState W m coin with
      | (c', .error .exception) => .ok c'
      | (_, .error e) => .error e
      | (c', .ok ()) => .ok c' : R Client) = .ok c' at h
    change c.unmaskResult W m coin = .ok c' ∨ c' = c
    rw [e]
    rcases hs : c.unmaskState W m coin with ⟨t, r⟩
    rw [hs] at h u
    rcases r with r | r
    · cases r <;> first | (cases h; done) | exact .inr ((Except.ok.inj h).symm.trans (u rfl))
    · exact .inl h
  | message x => exact .inl h
  | start i coin => exact .inl h
  | clean => exact .inl h

/-- C67: a history of client calls in which exceptions are caught leaves the client as the history without the calls that
threw. -/
theorem C67_history {W : World} {c c' : Client} (ks : List CCall) (h : runAll (CCall.runCatch W) c ks = .ok c') :
    ∃ ks', ks'.Sublist ks ∧ runAll (CCall.run W) c ks' = .ok c' := by
  induction ks generalizing c with
  | nil => exact ⟨[], List.Sublist.refl _, h⟩
  | cons k ks ih =>
    rw [runAll] at h
    obtain ⟨c1, h1, h2⟩ := R.bind_eq_ok.1 h
    obtain ⟨ks', h3, h4⟩ := ih h2
    rcases runCatch_cases h1 with h5 | rfl
    · exact ⟨k :: ks', h3.cons_cons k, by rw [runAll, h5, R.ok_bind, h4]⟩
    · exact ⟨ks', h3.cons k, h4⟩

end Opprf
end Verif
