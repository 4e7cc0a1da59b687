import Verif.Props.Ot
import Verif.Props.CurveCopy
import Verif.Props.OpprfSampleA

/-!
# C121: the result of an OPPRF evaluation when both parties are gone

`getResult()` (`includes/opprf.hpp:120`) returns a copy of the point, hence of its curve pointer.  `~DME_DDH`
(`src/dme/dme.cpp:187-193`), run for the members `otr` and `ots` of client and server, deletes the curve object.
-/

namespace Verif
namespace Opprf

open Dme Ot

section Track

variable {env : Env} {T : Option Addr → Prop}

theorem add_in (h0 : T none) {P Q S : Pt} (hP : T P.curve) (hQ : T Q.curve) (h : P.add env CC Q = .ok S) : T S.curve := by
  rw [Pt.add] at h
  split_ifs at h with h1 h2
  · rwa [← Except.ok.inj h]
  · rwa [← Except.ok.inj h]
  · obtain ⟨_, -, h⟩ := R.bind_eq_ok.1 h
    rw [Pt.double] at h
    simp only [R.bind_eq_ok] at h
    obtain ⟨_, -, _, -, _, -, _, -, _, -, _, -, _, -, _, -, _, -, _, -, _, -, _, -, h⟩ := h
    rwa [← Except.ok.inj h]
  · obtain ⟨_, -, h⟩ := R.bind_eq_ok.1 h
    rwa [← Except.ok.inj h]
  · simp only [R.bind_eq_ok] at h
    obtain ⟨_, -, _, -, _, -, _, -, _, -, _, -, _, -, _, -, _, -, _, -, h⟩ := h
    rwa [← Except.ok.inj h]

theorem sub_in (h0 : T none) {P Q S : Pt} (hP : T P.curve) (h : P.sub env CC Q = .ok S) : T S.curve := by
  rw [Pt.sub] at h
  obtain ⟨_, -, h⟩ := R.bind_eq_ok.1 h
  obtain ⟨_, -, h⟩ := R.bind_eq_ok.1 h
  exact add_in (Q := Pt.ofFld Q.x _ P.curve) h0 hP hP h

theorem smulLoop_in (h0 : T none) (cs : List Char) {P Q S : Pt} (hP : T P.curve) (hQ : T Q.curve)
    (h : Pt.smulLoop env CC cs P Q = .ok S) : T S.curve := by
  induction cs generalizing P Q with
  | nil => rw [Pt.smulLoop] at h; rwa [← Except.ok.inj h]
  | cons a cs ih =>
    rw [Pt.smulLoop] at h
    obtain ⟨Q', h1, h⟩ := R.bind_eq_ok.1 h
    have hQ' : T Q'.curve := by
      split_ifs at h1
      · exact add_in h0 hQ hP h1
      · rwa [← Except.ok.inj h1]
    split_ifs at h
    · exact ih hP hQ' h
    · obtain ⟨P', h2, h⟩ := R.bind_eq_ok.1 h
      exact ih (by rwa [double_curve h2]) hQ' h

theorem smul_in (h0 : T none) {P S : Pt} {k : Fld} (hP : T P.curve) (h : P.smul env CC k = .ok S) : T S.curve := by
  rw [Pt.smul] at h
  split_ifs at h with hi
  · rwa [← Except.ok.inj h]
  · exact smulLoop_in h0 _ hP h0 h

theorem random_in (h0 : T none) {a : Addr} (ha : env.heap a = some ⟨a⟩) (hT : T (some a)) {z : ℤ} {S : Pt}
    (h : Curve.getRandomPoint env CC (some a) z = .ok S) : T S.curve := by
  rw [Curve.getRandomPoint, getDefaultGen_some ha, R.ok_bind] at h
  exact smul_in h0 hT h

theorem setEncodedX_in (h0 : T none) {P S : Pt} (hP : T P.curve) {z : ℤ} (h : P.setEncodedX env CC z = .ok S) : T S.curve := by
  rw [Pt.setEncodedX, Curve.evaluateP, Curve.evaluatePneg] at h
  split_ifs at h
  all_goals
    obtain ⟨_, -, h⟩ := R.bind_eq_ok.1 h
    obtain ⟨_, -, h⟩ := R.bind_eq_ok.1 h
    obtain ⟨_, -, h⟩ := R.bind_eq_ok.1 h
    split_ifs at h
    · rw [← Except.ok.inj h]; exact hP
    · rw [← Except.ok.inj h]; exact h0

theorem enc_in (h0 : T none) {d : Inst} {pk : PKey} {b : Branch} {m : Pt} {ks kt : ℤ} {c : Ctxt} (hg : T pk.g.curve)
    (hh : T pk.h.curve) (hm : T m.curve) (h : enc env d pk b m ks kt = .ok c) : T c.mv.curve := by
  rw [enc] at h
  obtain ⟨_, -, h⟩ := R.bind_eq_ok.1 h
  obtain ⟨_, -, h⟩ := R.bind_eq_ok.1 h
  obtain ⟨_, h1, h⟩ := R.bind_eq_ok.1 h
  obtain ⟨_, h2, h⟩ := R.bind_eq_ok.1 h
  obtain ⟨_, h3, h⟩ := R.bind_eq_ok.1 h
  obtain ⟨_, -, h⟩ := R.bind_eq_ok.1 h
  obtain ⟨_, -, h⟩ := R.bind_eq_ok.1 h
  obtain ⟨_, -, h⟩ := R.bind_eq_ok.1 h
  obtain ⟨_, h4, h⟩ := R.bind_eq_ok.1 h
  rw [← Except.ok.inj h]
  exact add_in h0 (add_in h0 (smul_in h0 hg h1) (smul_in h0 hh h2) h3) hm h4

theorem encMsgs_in (h0 : T none) {s : Sndr} {pk : PKey} {m0 m1 : Pt} {k0 k1 : EncCoins} {r : List Ctxt × Sndr}
    (hg : T pk.g.curve) (hh : T pk.h.curve) (hm0 : T m0.curve) (hm1 : T m1.curve)
    (h : encMsgs env s pk m0 m1 k0 k1 = .ok r) : ∀ c ∈ r.1, T c.mv.curve := by
  rw [encMsgs] at h
  obtain ⟨_, h1, h⟩ := R.bind_eq_ok.1 h
  obtain ⟨_, h2, h⟩ := R.bind_eq_ok.1 h
  rw [← Except.ok.inj h]
  simp only [List.mem_cons, List.not_mem_nil, or_false, forall_eq_or_imp, forall_eq]
  exact ⟨enc_in h0 hg hh hm0 h1, enc_in h0 hg hh hm1 h2⟩

theorem decryptMsg_in (h0 : T none) {r : Recv} {l : List Ctxt} {S : Pt} (hl : ∀ c ∈ l, T c.mv.curve)
    (h : decryptMsg env r l = .ok S) : T S.curve := by
  rw [decryptMsg] at h
  obtain ⟨c, h1, h⟩ := R.bind_eq_ok.1 h
  rw [dec] at h
  obtain ⟨_, -, h⟩ := R.bind_eq_ok.1 h
  refine sub_in h0 (hl c ?_) h
  rw [selected] at h1
  split at h1
  · cases h1
  · rw [index.eq_def] at h1
    split at h1
    · rename_i h2
      obtain rfl := Except.ok.inj h1
      exact List.mem_of_getElem? h2
    · cases h1

end Track

/-- the points of the server that reach the client refer to curve objects in `T` -/
structure STrack (T : Option Addr → Prop) (s : Server) : Prop where
  l0 : T s.Sl0.prf.curve
  l1 : T s.Sl1.prf.curve
  i0 : ∀ e ∈ s.Si0, T e.prf.curve
  i1 : ∀ e ∈ s.Si1, T e.prf.curve

/-- so do those of the client -/
structure CTrack (T : Option Addr → Prop) (c : Client) : Prop where
  g : ∀ b, T (c.otr.dme.crs.g b).curve
  h : ∀ b, T (c.otr.dme.crs.h b).curve
  result : T c.result.curve

section Track

variable {W : World} {T : Option Addr → Prop}

theorem start_in (h0 : T none) {c : Client} (hc : CTrack T c) {n z : ℤ} {r : PKey × Client} (h : c.start W n z = .ok r) :
    T r.1.g.curve ∧ T r.1.h.curve ∧ CTrack T r.2 ∧ r.2.curve = c.curve := by
  rw [Client.start] at h
  rcases hx : c.x with _ | x
  · rw [hx] at h; exact absurd h (by simp)
  · rw [hx] at h
    simp only at h
    split_ifs at h
    obtain ⟨y, h1, h⟩ := R.bind_eq_ok.1 h
    rw [selectMsg] at h1
    obtain ⟨kp, h2, h1⟩ := R.bind_eq_ok.1 h1
    rw [keyGen] at h2
    obtain ⟨_, -, h2⟩ := R.bind_eq_ok.1 h2
    obtain ⟨_, h3, h2⟩ := R.bind_eq_ok.1 h2
    obtain ⟨_, h4, h2⟩ := R.bind_eq_ok.1 h2
    obtain rfl := Except.ok.inj h2
    obtain rfl := Except.ok.inj h1
    obtain rfl := Except.ok.inj h
    exact ⟨smul_in h0 (hc.g _) h3, smul_in h0 (hc.h _) h4, ⟨hc.g, hc.h, hc.result⟩, rfl⟩

theorem atShort_mem {α : Type} {v : List α} {i : ℤ} {x : α} (h : atShort v i = .ok x) : x ∈ v := by
  rw [atShort] at h
  split_ifs at h
  rw [at'] at h
  split at h
  · rename_i h2
    rw [← Except.ok.inj h]
    exact List.mem_of_getElem? h2
  · exact absurd h (by simp)

theorem runOTRound_in (h0 : T none) {s : Server} (hs : STrack T s) {n : ℤ} {pk : PKey} (hg : T pk.g.curve) (hh : T pk.h.curve)
    {k : RoundCoins} {r : OtCtxts × Server} (h : s.runOTRound W n pk k = .ok r) :
    (∀ c ∈ r.1.cprf, T c.mv.curve) ∧ STrack T r.2 := by
  rw [Server.runOTRound] at h
  split_ifs at h
  · obtain ⟨_, -, h⟩ := R.bind_eq_ok.1 h
    obtain ⟨_, h1, h⟩ := R.bind_eq_ok.1 h
    obtain rfl := Except.ok.inj h
    exact ⟨encMsgs_in h0 hg hh hs.l0 hs.l1 h1, hs.l0, hs.l1, hs.i0, hs.i1⟩
  · obtain ⟨x0, hx0, h⟩ := R.bind_eq_ok.1 h
    obtain ⟨x1, hx1, h⟩ := R.bind_eq_ok.1 h
    obtain ⟨_, -, h⟩ := R.bind_eq_ok.1 h
    obtain ⟨_, -, h⟩ := R.bind_eq_ok.1 h
    obtain ⟨_, -, h⟩ := R.bind_eq_ok.1 h
    obtain ⟨_, h1, h⟩ := R.bind_eq_ok.1 h
    obtain rfl := Except.ok.inj h
    exact ⟨encMsgs_in h0 hg hh (hs.i0 _ (atShort_mem hx0)) (hs.i1 _ (atShort_mem hx1)) h1, hs.l0, hs.l1, hs.i0, hs.i1⟩

theorem finish_in (h0 : T none) {c c' : Client} (hc : CTrack T c) {n : ℤ} {m : OtCtxts} (hm : ∀ x ∈ m.cprf, T x.mv.curve)
    (h : c.finish W n m = .ok c') : CTrack T c' ∧ c'.curve = c.curve := by
  have key : ∀ {z : ℤ}, ((do
      let p ← decryptMsg W.env c.otr m.cprf
      let result ← c.result.add W.env CC p
      .ok { c with key := z, result := result }) : R Client) = .ok c' → CTrack T c' ∧ c'.curve = c.curve := by
    intro z h
    obtain ⟨_, h1, h⟩ := R.bind_eq_ok.1 h
    obtain ⟨_, h2, h⟩ := R.bind_eq_ok.1 h
    obtain rfl := Except.ok.inj h
    exact ⟨⟨hc.g, hc.h, add_in h0 hc.result (decryptMsg_in h0 hm h1) h2⟩, rfl⟩
  rw [Client.finish] at h
  split_ifs at h
  · obtain ⟨_, -, h⟩ := R.bind_eq_ok.1 h
    exact key h
  · obtain ⟨f, -, h⟩ := R.bind_eq_ok.1 h
    obtain ⟨_, -, h⟩ := R.bind_eq_ok.1 h
    rcases f with _ | f
    · cases h
    · exact key h

theorem runRounds_in (h0 : T none) {d : ℕ → RoundDraws} (n : ℕ) {s : Server} {c : Client} (hs : STrack T s) (hc : CTrack T c)
    {r : Server × Client} (h : runRounds W d n s c = .ok r) : CTrack T r.2 ∧ r.2.curve = c.curve := by
  induction n generalizing s c with
  | zero => obtain rfl := Except.ok.inj h; exact ⟨hc, rfl⟩
  | succ n ih =>
    rw [runRounds] at h
    obtain ⟨⟨pk, c1⟩, h1, h⟩ := R.bind_eq_ok.1 h
    obtain ⟨⟨m, s1⟩, h2, h⟩ := R.bind_eq_ok.1 h
    obtain ⟨c2, h3, h⟩ := R.bind_eq_ok.1 h
    obtain ⟨hg, hh, hc1, e1⟩ := start_in h0 hc h1
    obtain ⟨hm, hs1⟩ := runOTRound_in h0 hs hg hh h2
    obtain ⟨hc2, e2⟩ := finish_in h0 hc1 hm h3
    obtain ⟨hc3, e3⟩ := ih hs1 hc2 h
    exact ⟨hc3, e3.trans (e2.trans e1)⟩

theorem pushKeys_keep {env : Env} (l : List BitCoins) {s s' : Server} (h : pushKeys env s l = .ok s') :
    s'.r = s.r ∧ s'.ga = s.ga ∧ s'.Si0 = s.Si0 ∧ s'.Si1 = s.Si1 := by
  induction l generalizing s with
  | nil => obtain rfl := Except.ok.inj h; exact ⟨rfl, rfl, rfl, rfl⟩
  | cons k l ih =>
    rw [pushKeys] at h
    obtain ⟨_, -, h⟩ := R.bind_eq_ok.1 h
    have := ih h
    exact this

theorem entries_in (h0 : T none) {s : Server} (hr : T s.r.curve) (hg : T s.ga.curve) {i : ℕ} {e : InputI × InputI}
    (h : entries W s i = .ok e) : T e.1.prf.curve ∧ T e.2.prf.curve := by
  rw [entries] at h
  simp only [R.bind_eq_ok] at h
  obtain ⟨_, -, _, -, _, -, _, -, _, -, _, -, _, -, h⟩ := h
  split_ifs at h
  all_goals
    simp only [R.bind_eq_ok] at h
    obtain ⟨_, -, _, -, _, -, _, h1, _, -, _, -, _, -, _, h2, _, h3, _, h4, h⟩ := h
    obtain rfl := Except.ok.inj h
    exact ⟨smul_in h0 hr h1, add_in h0 (smul_in h0 hg h2) (smul_in h0 hr h3) h4⟩

theorem put_mem {α : Type} {v v' : List α} {i : ℕ} {x y : α} (h : put v i x = .ok v') (hy : y ∈ v') : y ∈ v ∨ y = x := by
  rw [put] at h
  split_ifs at h
  obtain rfl := Except.ok.inj h
  exact List.mem_or_eq_of_mem_set hy

theorem tableLoop_in (h0 : T none) (n : ℕ) {s s' : Server} (hs : STrack T s) (hr : T s.r.curve) (hg : T s.ga.curve)
    (h : tableLoop W n s = .ok s') : STrack T s' := by
  induction n generalizing s with
  | zero => obtain rfl := Except.ok.inj h; exact hs
  | succ n ih =>
    rw [tableLoop] at h
    obtain ⟨⟨x0, x1⟩, h1, h⟩ := R.bind_eq_ok.1 h
    obtain ⟨si0, h2, h⟩ := R.bind_eq_ok.1 h
    obtain ⟨si1, h3, h⟩ := R.bind_eq_ok.1 h
    obtain ⟨t0, t1⟩ := entries_in h0 hr hg h1
    refine ih (s := { s with Si0 := si0, Si1 := si1 }) ⟨hs.l0, hs.l1, fun e he => ?_, fun e he => ?_⟩ hr hg h
    · rcases put_mem h2 he with h | rfl
      · exact hs.i0 e h
      · exact t0
    · rcases put_mem h3 he with h | rfl
      · exact hs.i1 e h
      · exact t1

theorem prepare_in (h0 : T none) {s s' : Server} {a : Addr} (ha : W.env.heap a = some ⟨a⟩) (hT : T (some a))
    (hc : s.curve = some a) (hg : T s.ga.curve) (hi0 : ∀ e ∈ s.Si0, T e.prf.curve) (hi1 : ∀ e ∈ s.Si1, T e.prf.curve)
    {k : PrepCoins} (h : s.prepare W k = .ok s') : STrack T s' := by
  rw [Server.prepare, hc] at h
  obtain ⟨_, -, h⟩ := R.bind_eq_ok.1 h
  obtain ⟨r, h1, h⟩ := R.bind_eq_ok.1 h
  obtain ⟨s1, h2, h⟩ := R.bind_eq_ok.1 h
  obtain ⟨s2, h3, h⟩ := R.bind_eq_ok.1 h
  obtain ⟨e1, e2, e3, e4⟩ := pushKeys_keep _ h2
  have hr1 : T s1.r.curve := by rw [e1]; exact random_in h0 ha hT h1
  have hg1 : T s1.ga.curve := by rw [e2]; exact hg
  have hs2 : STrack T s2 ∧ T s2.r.curve ∧ T s2.ga.curve := by
    have key : ∀ {k0 k1 : ℤ} {o : Fld} {prf0 g ro prf1 : Pt}, s1.r.smul W.env CC o = .ok prf0 →
        s1.ga.smulZ W.env CC (2 ^ 15) = .ok g → s1.r.smul W.env CC o = .ok ro → g.add W.env CC ro = .ok prf1 →
        (.ok { s1 with Sl0 := ⟨k0, prf0⟩, Sl1 := ⟨k1, prf1⟩ } : R Server) = .ok s2 →
        STrack T s2 ∧ T s2.r.curve ∧ T s2.ga.curve := by
      intro k0 k1 o prf0 g ro prf1 h4 h5 h6 h7 h3
      obtain rfl := Except.ok.inj h3
      refine ⟨⟨smul_in h0 hr1 h4, add_in h0 (smul_in h0 hg1 h5) (smul_in h0 hr1 h6) h7, ?_, ?_⟩, hr1, hg1⟩
      · change ∀ e ∈ s1.Si0, _
        rw [e3]; exact hi0
      · change ∀ e ∈ s1.Si1, _
        rw [e4]; exact hi1
    rw [prepareTop] at h3
    split_ifs at h3
    all_goals
      simp only [R.bind_eq_ok] at h3
      obtain ⟨_, -, _, -, _, h4, _, -, _, h5, _, h6, _, h7, h3⟩ := h3
      exact key h4 h5 h6 h7 h3
  exact tableLoop_in h0 15 hs2.1 hs2.2.1 hs2.2.2 h

theorem unmask_in (h0 : T none) {c c' : Client} {b : Addr} (hb : W.env.heap b = some ⟨b⟩) (hT : T (some b)) (hcb : c.curve = some b)
    (hc : T c.result.curve) {m : Arr3 ℤ} {z : ℤ} (h : c.unmaskResult W m z = .ok c') : T c'.result.curve := by
  rw [Client.unmaskResult, hcb] at h
  obtain ⟨f, -, h⟩ := R.bind_eq_ok.1 h
  obtain ⟨_, -, h⟩ := R.bind_eq_ok.1 h
  rcases f with _ | f
  · exact absurd h (by simp)
  · simp only at h
    obtain ⟨_, h1, h⟩ := R.bind_eq_ok.1 h
    obtain ⟨_, h2, h⟩ := R.bind_eq_ok.1 h
    obtain ⟨_, h3, h⟩ := R.bind_eq_ok.1 h
    obtain rfl := Except.ok.inj h
    exact add_in h0 hc (setEncodedX_in h0 (random_in h0 hb hT h1) h2) h3

end Track

theorem not_live_none (env : Env) : ¬ Live env none := by
  rintro ⟨x, o, h, -⟩
  cases h

/-- C121 is false: once the curve objects of both parties are gone, comparing a finite result with itself and multiplying it by any
scalar but 0 and 1 are use after free, in both builds. -/
theorem C121_counterexample {W : World} {a b : Addr} (ha : W.env.heap a = some ⟨a⟩) (hb : W.env.heap b = some ⟨b⟩)
    {theta x : Msg} {crs crs' : Crs} {z : ℤ} {ga ga' : Pt} {s0 s s' : Server} {c' : Client} {d : Draws}
    (h0 : Server.ctor W.env (some a) theta crs z = .ok s0) (h1 : s0.setSecret W.env ga = .ok (ga', s))
    (h : evaluate W s (Client.ctor (some b) crs') x d = .ok (s', c')) (hf : c'.result.inf = false)
    {env' : Env} (da : ¬ Live env' (some a)) (db : ¬ Live env' (some b)) :
    Faults (c'.result.beq env' CC c'.result) ∧
      ∀ k : ℤ, 2 ≤ k → k < CC.order → Faults (c'.result.smulZ env' CC k) := by
  have hr : ¬ Live env' c'.result.curve := by
    rw [Server.ctor] at h0
    obtain ⟨gk, -, h0⟩ := R.bind_eq_ok.1 h0
    obtain rfl := Except.ok.inj h0
    rw [Server.setSecret] at h1
    obtain ⟨_, -, h1⟩ := R.bind_eq_ok.1 h1
    obtain ⟨-, rfl⟩ := Prod.mk.inj (Except.ok.inj h1)
    rw [evaluate] at h
    obtain ⟨s1, e1, h⟩ := R.bind_eq_ok.1 h
    obtain ⟨⟨s2, c2⟩, e2, h⟩ := R.bind_eq_ok.1 h
    obtain ⟨m, -, h⟩ := R.bind_eq_ok.1 h
    obtain ⟨c3, e3, h⟩ := R.bind_eq_ok.1 h
    obtain ⟨-, rfl⟩ := Prod.mk.inj (Except.ok.inj h)
    have n0 := not_live_none env'
    have hd : ∀ e ∈ List.replicate 16 InputI.default, ¬ Live env' e.prf.curve := by
      intro e he
      rw [List.eq_of_mem_replicate he]
      exact n0
    have hs := prepare_in (T := fun p => ¬ Live env' p) n0 ha da rfl da hd hd e1
    obtain ⟨hc, e⟩ := runRounds_in (T := fun p => ¬ Live env' p) n0 16 hs
      ⟨fun b => by cases b <;> exact db, fun b => by cases b <;> exact db, n0⟩ e2
    exact unmask_in (T := fun p => ¬ Live env' p) n0 hb db e hc.result e3
  obtain ⟨e, he⟩ := deref_not_live hr
  refine ⟨⟨e, ?_⟩, fun k hk hk' => smul_dead hf hr (by rw [mk'_value_of_lt (.inr rfl) (by omega) hk']; exact hk)⟩
  have h1 : c'.result.x.beq c'.result.x = true := by simp [Fld.beq]
  have h2 : c'.result.y.beq c'.result.y = true := by simp [Fld.beq]
  rw [Pt.beq, if_neg (by simp [hf]), if_pos h1, if_pos h2, Pt.curveEq, he]
  rfl

namespace Sample

open EC

/-- the evaluation of `OpprfSampleA` meets the hypotheses: there is a finite result, and the heap without both objects exists -/
example : ∃ s0 s' c', Server.ctor W.env (some 0) 1000#16 crs 3 = .ok s0 ∧ s0.setSecret W.env ga = .ok (ga, srv0) ∧
    evaluate W srv0 (Client.ctor (some 1) crs) 700#16 draws = .ok (s', c') ∧ c'.result.inf = false ∧
    ¬ Live ((W.env.free 0).free 1) (some 0) ∧ ¬ Live ((W.env.free 0).free 1) (some 1) ∧
    ∀ k : ℤ, 2 ≤ k → k < CC.order → Faults (c'.result.smulZ ((W.env.free 0).free 1) CC k) := by
  obtain ⟨s0, e1, e2⟩ := R.bind_eq_ok.1 ctor_eq
  obtain ⟨P, p1, p2⟩ := randomPoint_rep (env := W.env) (C := CC) (c := some 0) liveGen0 12
  have p3 : Curve.getRandomPoint W.env CC (some 0) 12 = .ok ga := by decide +kernel
  obtain rfl : ga = P := Except.ok.inj (p3.symm.trans p1)
  obtain ⟨s', c', h, -, -, -, -, -, -, -, hr⟩ :=
    evaluate_ok parties (undisturbed (by decide) _ (a_fine _)) (A := ((12 : ℤ) : F) • (G : Grp CC)) p2 (rep_infty (C := CC))
  have hf : c'.result.inf = false := by
    rw [Bool.eq_false_iff, Ne, rep_inf hr, zero_add, smul_smul, smul_smul, ← add_smul, ← add_smul,
      if_neg (by decide), smul_eq_zero, or_iff_left G_ne_zero]
    decide +kernel
  have da : ¬ Live ((W.env.free 0).free 1) (some 0) := by
    rintro ⟨x, o, h, h'⟩
    obtain rfl := Option.some.inj h
    simp [Env.free] at h'
  have db : ¬ Live ((W.env.free 0).free 1) (some 1) := free_dead' _ _
  have ha : W.env.heap 0 = some ⟨0⟩ := rfl
  have hb : W.env.heap 1 = some ⟨1⟩ := rfl
  exact ⟨s0, s', c', e1, e2, h, hf, da, db, (C121_counterexample (W := W) (a := 0) (b := 1) ha hb e1 e2 h hf da db).2⟩

end Sample

end Opprf
end Verif
