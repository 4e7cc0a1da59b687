import Verif.Model.Tests
import Verif.Props.OpprfStream
import Verif.Props.OpprfSampleF

/-!
# C80: `test_opprf`
-/

namespace Verif
namespace Tests

open EC Dme Ot Opprf

/-- the draws of one iteration as those of an evaluation -/
def OpprfIter.draws (k : OpprfIter) : Draws := ⟨k.prep, fun n => ⟨(k.rounds n).1, (k.rounds n).2⟩, k.mask, k.un⟩

/-- the input of iteration `j` -/
def OpprfTestDraws.x (k : OpprfTestDraws) (j : ℕ) : Msg := BitVec.ofInt 16 ((k.rand j).tmod 1000)

/-- the value drawn for the `gk` in use in iteration `j` -/
def OpprfTestDraws.key (k : OpprfTestDraws) : ℕ → ℤ
  | 0 => k.gk
  | j + 1 => (k.iter j).gk

/-- a new server with threshold 1000 after `setSecret(ga)` -/
def newServer (W : World) (a : Option Addr) (crs : Crs) (g : ℤ) (ga : Pt) : R (Pt × Server) := do
  let s ← Server.ctor W.env a 1000#16 crs g
  s.setSecret W.env ga

theorem runAll_append {σ κ : Type} {step : σ → κ → R σ} {s s' s'' : σ} (l l' : List κ) (h : runAll step s l = .ok s')
    (h' : runAll step s' l' = .ok s'') : runAll step s (l ++ l') = .ok s'' := by
  induction l generalizing s with
  | nil => obtain rfl := Except.ok.inj h; exact h'
  | cons k l ih =>
    rw [runAll] at h
    obtain ⟨t, h1, h2⟩ := R.bind_eq_ok.1 h
    rw [List.cons_append, runAll, h1, R.ok_bind]
    exact ih h2

theorem rounds_history {W : World} {d : ℕ → RoundDraws} (n : ℕ) {s s' : Server} {c c' : Client}
    (h : runRounds W d n s c = .ok (s', c')) :
    ∃ hs hc, runAll (SCall.run W) s hs = .ok s' ∧ runAll (CCall.run W) c hc = .ok c' := by
  induction n generalizing s c with
  | zero =>
    obtain ⟨rfl, rfl⟩ := Prod.mk.inj (Except.ok.inj h)
    exact ⟨[], [], rfl, rfl⟩
  | succ n ih =>
    rw [runRounds] at h
    obtain ⟨⟨pk, c1⟩, h1, h⟩ := R.bind_eq_ok.1 h
    obtain ⟨⟨m, s1⟩, h2, h⟩ := R.bind_eq_ok.1 h
    obtain ⟨c2, h3, h⟩ := R.bind_eq_ok.1 h
    obtain ⟨hs, hc, e1, e2⟩ := ih h
    refine ⟨.round (n + 1 : ℕ) pk (d (n + 1)).enc :: hs,
      .start (n + 1 : ℕ) (d (n + 1)).sk :: .finish (n + 1 : ℕ) m :: hc, ?_, ?_⟩
    · rw [runAll, SCall.run, h2, R.ok_bind]; exact e1
    · rw [runAll, CCall.run, h1, R.ok_bind]
      simp only [R.ok_bind]
      rw [runAll, CCall.run, h3, R.ok_bind]; exact e2

theorem evaluate_history {W : World} {s s' : Server} {c c' : Client} {x : Msg} {d : Draws}
    (h : evaluate W s c x d = .ok (s', c')) :
    ∃ hs hc, runAll (SCall.run W) s hs = .ok s' ∧ runAll (CCall.run W) c hc = .ok c' := by
  unfold evaluate at h
  obtain ⟨s1, h1, h⟩ := R.bind_eq_ok.1 h
  obtain ⟨⟨s2, c2⟩, h2, h⟩ := R.bind_eq_ok.1 h
  obtain ⟨m, h3, h⟩ := R.bind_eq_ok.1 h
  obtain ⟨c3, h4, h⟩ := R.bind_eq_ok.1 h
  obtain ⟨rfl, rfl⟩ := Prod.mk.inj (Except.ok.inj h)
  obtain ⟨hs, hc, e1, e2⟩ := rounds_history 16 h2
  refine ⟨.prepare d.prep :: hs, .message x :: (hc ++ [.unmask m d.un]), ?_, ?_⟩
  · rw [runAll, SCall.run, h1, R.ok_bind]; exact e1
  · rw [runAll, CCall.run, R.ok_bind]
    refine runAll_append hc _ e2 ?_
    rw [runAll, CCall.run, h4, R.ok_bind, runAll]

theorem opprfRounds_eq (W : World) (k : OpprfIter) (n : ℕ) (s : Server) (c : Client) :
    opprfRounds W k.rounds n s c = runRounds W k.draws.rounds n s c := by
  induction n generalizing s c with
  | zero => rfl
  | succ n ih =>
    rw [opprfRounds, runRounds]
    simp only [ih]
    rfl

/-- an iteration is `setSecret`, an evaluation, the check and `clean()` -/
theorem opprfIter_eq (W : World) (ga : Pt) (s : Server) (c : Client) (x : Msg) (k : OpprfIter) :
    opprfIter W ga s c x k = (do
      let (ga, s) ← s.setSecret W.env ga
      let (s, c) ← evaluate W s c x k.draws
      let t ← (do let t ← ga.smulZ W.env CC x.toNat; s.kopprf.add W.env CC t)
      let e ← c.result.beq W.env CC t
      let s ← s.clean W.env k.gk
      .ok (e, ga, s, c.clean)) := by
  unfold opprfIter evaluate
  simp only [opprfRounds_eq]
  cases h1 : s.setSecret W.env ga with
  | error e => rfl
  | ok r =>
    simp only [R.ok_bind]
    change _ = ((do
      let s ← r.2.prepare W k.prep
      let (s, c) ← runRounds W k.draws.rounds 16 s (c.setMessage x)
      let m ← s.sendEncryptedMasks W k.mask
      let c ← c.unmaskResult W m k.un
      .ok (s, c)) >>= _)
    cases h2 : r.2.prepare W k.prep with
    | error e => rfl
    | ok s1 =>
      simp only [R.ok_bind]
      cases h3 : runRounds W k.draws.rounds 16 s1 (c.setMessage x) with
      | error e => rfl
      | ok q =>
        simp only [R.ok_bind]
        cases h4 : q.1.sendEncryptedMasks W k.mask with
        | error e => rfl
        | ok m =>
          simp only [R.ok_bind]
          cases h5 : q.2.unmaskResult W m k.un with
          | error e => rfl
          | ok c1 =>
            simp only [R.ok_bind]
            cases h6 : r.1.smulZ W.env CC x.toNat with
            | error e => rfl
            | ok g =>
              simp only [R.ok_bind]
              cases h7 : q.1.kopprf.add W.env CC g <;> rfl

theorem setSecret_ok {env : Env} {s : Server} {ga ga' : Pt} {a : Option Addr} (hs : s.curve = a)
    (hg : ({ ga' with curve := a } : Pt) = { ga with curve := a }) (hv : Pt.isValid env CC { ga with curve := a } = .ok true) :
    s.setSecret env ga' = .ok ({ ga with curve := a }, { s with ga := { ga with curve := a } }) := by
  unfold Server.setSecret
  subst hs
  simp only [hg, cassert_of_eq_true env hv, R.ok_bind]

/-- server and client at the beginning of an iteration: what follows is as with new objects -/
structure Start (W : World) (a a' : Option Addr) (crs : Crs) (g : ℤ) (ga : Pt) (s : Server) (c : Client) : Prop where
  curve : s.curve = a
  same : ∀ p s2 f, s.setSecret W.env ga = .ok (p, s2) → newServer W a crs g ga = .ok f →
    ∀ x d, evaluate W s2 c x d = evaluate W f.2 (Client.ctor a' crs) x d

theorem loop_ok {W : World} {a a' : Option Addr} (ha : LiveGen W.env a) (ha' : LiveGen W.env a') {crs : Crs}
    (hcrs : OnCurve CC crs.g0 ∧ OnCurve CC crs.g1 ∧ OnCurve CC crs.h0 ∧ OnCurve CC crs.h1) {ga : Pt} (hga : OnCurve CC ga)
    {x : ℕ → Msg} (hx : ∀ j, (x j).toNat ≤ 1000) {k : ℕ → OpprfIter} {g : ℕ → ℤ} (hg : ∀ j, g (j + 1) = (k j).gk)
    (left j : ℕ) {ga' : Pt} (hga' : ({ ga' with curve := a } : Pt) = { ga with curve := a }) {s : Server} {c : Client}
    (hs : Start W a a' crs (g j) ga s c)
    (hm : ∀ i, j ≤ i → i < j + left → ∀ f, newServer W a crs (g i) ga = .ok f →
      NotMisled W f.2 (Client.ctor a' crs) (x i) (k i).draws) :
    ((∀ i, j ≤ i → i < j + left → ∀ f, newServer W a crs (g i) ga = .ok f → AllShow W f.2 (x i) (k i).draws) ∧
      opprfLoop W x k left j ga' s c = .ok (List.replicate left true)) ∨
    ((∃ i, j ≤ i ∧ i < j + left ∧ ∃ f, newServer W a crs (g i) ga = .ok f ∧ ¬ AllShow W f.2 (x i) (k i).draws) ∧
      opprfLoop W x k left j ga' s c = .error (noDecryption W.env)) := by
  have hv : Pt.isValid W.env CC { ga with curve := a } = .ok true := by
    obtain ⟨h2, -⟩ := rep_setCurve (env := W.env) hga ha.live
    rcases h2 with h2 | h2
    · rw [Pt.isValid, if_pos h2.flag]
    · obtain ⟨b, h3, h4⟩ := C08_isValid_object W.env (C := CC) (.inr rfl) h2.x h2.y h2.live
      rw [h3, h4.2 (.inr h2.on)]
  induction left generalizing j ga' s c with
  | zero => exact .inl ⟨fun i h1 h2 => by omega, rfl⟩
  | succ left ih =>
    obtain ⟨f, f1, hP, fth, fcu, fga, fp⟩ := parties_of_ctor W.env ha ha' hcrs 1000#16 (g j) hga
    have f1' : newServer W a crs (g j) ga = .ok f := f1
    have e1 := setSecret_ok (env := W.env) (s := s) hs.curve hga' hv
    have e2 := setSecret_ok (env := W.env) (s := s) hs.curve (ga := ga) (ga' := ga) rfl hv
    have e3 := hs.same _ _ _ e2 f1' (x j) (k j).draws
    have hmj := hm j le_rfl (by omega) f f1'
    have hend := C66_completes_iff_partial hP hmj
    have hsh := C74_completes_iff_partial hP hmj
    by_cases hA : AllShow W f.2 (x j) (k j).draws
    · obtain ⟨⟨s3, c3⟩, e4, -⟩ := hsh.2 hA
      obtain ⟨r1, -⟩ := C66_right_if_completes_partial hP rfl hmj e4
      obtain ⟨x1, t, q1, q2, q3⟩ := r1 (by rw [fth]; exact hx j)
      obtain rfl := Except.ok.inj q1
      rw [fga] at q2
      obtain ⟨s0, h0, hsec⟩ := R.bind_eq_ok.1 f1
      obtain ⟨hs', hc', y1, y2⟩ := evaluate_history e4
      have y3 : runAll (SCall.run W) s0 (.secret ga :: hs') = .ok s3 := by
        rw [runAll, SCall.run, hsec, R.ok_bind]; exact y1
      have hfr : s3.frozen = s0.frozen :=
        runAll_inv (I := fun t => t.frozen = s0.frozen) (fun _ _ _ hI h => (SCall.frozen h).trans hI) _ rfl y3
      have hcu0 : s0.curve = a := by
        obtain ⟨gk, -, h0⟩ := R.bind_eq_ok.1 h0
        obtain rfl := (Except.ok.inj h0).symm
        rfl
      have hcu : s3.curve = a := by
        have := congrArg (fun p => p.2.1) hfr
        exact this.trans hcu0
      obtain ⟨gk, z1, -⟩ := randomPoint_rep (C := CC) ha (k j).gk
      have hcl : s3.clean W.env (k j).gk = .ok { s3 with
          kopprf := Pt.infty CC, r := Pt.infty CC, gk := gk, Si0 := List.replicate 16 .default,
          Si1 := List.replicate 16 .default, k_lt := [], k_eq := [], k_gt := [], ok := [] } := by
        unfold Server.clean
        rw [hcu, z1, R.ok_bind]
      generalize hs4 : ({ s3 with
          kopprf := Pt.infty CC, r := Pt.infty CC, gk := gk, Si0 := List.replicate 16 .default,
          Si1 := List.replicate 16 .default, k_lt := [], k_eq := [], k_gt := [], ok := [] } : Server) = s4 at hcl
      have hcu4 : s4.curve = a := by rw [← hs4]; exact hcu
      have hstart : Start W a a' crs (g (j + 1)) ga s4 c3.clean := by
        refine ⟨hcu4, ?_⟩
        intro p s5 f' w1 w2 x' d'
        obtain ⟨f0, w3, w4⟩ := R.bind_eq_ok.1 w2
        rw [hg] at w3
        exact C55_clean h0 y3 y2 hcl w1 w3 w4 x' d'
      have hit : opprfIter W ga' s c (x j) (k j) = .ok (true, { ga with curve := a }, s4, c3.clean) := by
        rw [opprfIter_eq, e1]
        simp only [R.ok_bind]
        rw [e3, e4]
        simp only [R.ok_bind]
        rw [q2]
        simp only [R.ok_bind]
        rw [q3]
        simp only [R.ok_bind]
        rw [hcl]
        rfl
      have hrest := ih (j + 1) (ga' := { ga with curve := a }) rfl hstart (fun i i1 i2 => hm i (by omega) (by omega))
      rw [opprfLoop, hit]
      simp only [R.ok_bind]
      rcases hrest with ⟨u1, u2⟩ | ⟨⟨i, i1, i2, i3⟩, u2⟩
      · refine .inl ⟨?_, by rw [u2]; rfl⟩
        intro i i1 i2
        rcases Nat.eq_or_lt_of_le i1 with rfl | i3
        · intro f' hf'
          rw [f1'] at hf'
          obtain rfl := Except.ok.inj hf'
          exact hA
        · exact u1 i i3 (by omega)
      · exact .inr ⟨⟨i, by omega, by omega, i3⟩, by rw [u2]; rfl⟩
    · refine .inr ⟨⟨j, le_rfl, by omega, f, f1', hA⟩, ?_⟩
      have hn : ¬ AllOpen W f.2 (x j) (k j).draws := fun h => hA (hsh.1 (hend.1.2 h))
      have e4 := hend.2 hn
      have hit : opprfIter W ga' s c (x j) (k j) = .error (noDecryption W.env) := by
        rw [opprfIter_eq, e1]
        simp only [R.ok_bind]
        rw [e3, e4]
        rfl
      rw [opprfLoop, hit]
      rfl

theorem x_le (k : OpprfTestDraws) (hr : ∀ j, 0 ≤ k.rand j) (j : ℕ) : (k.x j).toNat ≤ 1000 := by
  have h := hr j
  unfold OpprfTestDraws.x
  rw [BitVec.toNat_ofInt]
  have h1 : (k.rand j).tmod 1000 = k.rand j % 1000 := Int.tmod_eq_emod_of_nonneg h
  rw [h1]
  omega

theorem onCurve_of_valid {env : Env} {P : Pt} (h : Valid env CC P) : OnCurve CC P := by
  rcases h with h | h
  · exact .inl h
  · exact .inr ⟨h.flag, h.x, h.y, h.on⟩

/-- C80 (part): let the draws be such that in none of the three evaluations, seen with new objects, the client is misled.  Then
`test_opprf` exits with status 0 if in each evaluation none of the 15 keys on the client's path and not the mask starts with the
first keystream byte of the key it is sealed with; otherwise it is stopped by the client's assertion or exception.  It never
reports a failure.  The curve objects of the temporaries in lines 18 and 19 need not live beyond these lines.
Missing: misleading draws (see `NotMisled`). -/
theorem C80_opprf_partial {W : World} {env' : Env} {t t' a a' : Option Addr} (ht : LiveGen env' t) (ht' : LiveGen env' t')
    (ha : LiveGen W.env a) (ha' : LiveGen W.env a') (k : OpprfTestDraws) (hr : ∀ j, 0 ≤ k.rand j) :
    Ends (Curve.getRandomPoint env' CC t k.ga) fun ga => Ends (ctorRandom env' t' k.g0 k.h0 k.g1 k.h1) fun d =>
      (∀ j < 3, ∀ f, newServer W a d.crs (k.key j) ga = .ok f →
        NotMisled W f.2 (Client.ctor a' d.crs) (k.x j) (k.iter j).draws) →
      ((∀ j < 3, Ends (newServer W a d.crs (k.key j) ga) fun f => AllShow W f.2 (k.x j) (k.iter j).draws) →
        testOpprf W env' t t' a a' k = .ok 0) ∧
      (¬ (∀ j < 3, Ends (newServer W a d.crs (k.key j) ga) fun f => AllShow W f.2 (k.x j) (k.iter j).draws) →
        testOpprf W env' t t' a a' k = .error (if W.env.ndebug then .exception else .assertFail)) := by
  obtain ⟨ga, e1, r1⟩ := randomPoint_rep (C := CC) ht k.ga
  obtain ⟨g0, e2, r2⟩ := randomPoint_rep (C := CC) ht' k.g0
  obtain ⟨h0, e3, r3⟩ := randomPoint_rep (C := CC) ht' k.h0
  obtain ⟨g1, e4, r4⟩ := randomPoint_rep (C := CC) ht' k.g1
  obtain ⟨h1, e5, r5⟩ := randomPoint_rep (C := CC) ht' k.h1
  have hga := onCurve_of_valid (valid_iff.2 ⟨_, r1⟩)
  have hcrs : OnCurve CC g0 ∧ OnCurve CC g1 ∧ OnCurve CC h0 ∧ OnCurve CC h1 :=
    ⟨onCurve_of_valid (valid_iff.2 ⟨_, r2⟩), onCurve_of_valid (valid_iff.2 ⟨_, r4⟩), onCurve_of_valid (valid_iff.2 ⟨_, r3⟩),
      onCurve_of_valid (valid_iff.2 ⟨_, r5⟩)⟩
  have e6 : ctorRandom env' t' k.g0 k.h0 k.g1 k.h1 =
      .ok ⟨t', none, Fld.zero CC.fn, Fld.zero CC.fn, Fld.zero CC.fn, ⟨g0, g1, h0, h1⟩⟩ := by
    simp only [ctorRandom, e2, e3, e4, e5, R.ok_bind]
  refine ⟨ga, e1, _, e6, ?_⟩
  intro hm
  generalize hcrs' : (⟨g0, g1, h0, h1⟩ : Crs) = crs at hm ⊢ e6
  have hcrs : OnCurve CC crs.g0 ∧ OnCurve CC crs.g1 ∧ OnCurve CC crs.h0 ∧ OnCurve CC crs.h1 := by
    rw [← hcrs']; exact hcrs
  obtain ⟨f, f1, -⟩ := parties_of_ctor W.env ha ha' hcrs 1000#16 k.gk hga
  obtain ⟨s0, f2, f3⟩ := R.bind_eq_ok.1 f1
  have hcu : s0.curve = a := by
    obtain ⟨gk, -, h0⟩ := R.bind_eq_ok.1 f2
    obtain rfl := (Except.ok.inj h0).symm
    rfl
  have hstart : Start W a a' crs (k.key 0) ga s0 (Client.ctor a' crs) := by
    refine ⟨hcu, ?_⟩
    intro p s2 f' w1 w2 x d
    obtain ⟨f0, w3, w4⟩ := R.bind_eq_ok.1 w2
    have w3 : Server.ctor W.env a 1000#16 crs k.gk = .ok f0 := w3
    rw [f2] at w3
    obtain rfl := Except.ok.inj w3
    rw [w1] at w4
    rw [← Except.ok.inj w4]
  have hmain : testOpprf W env' t t' a a' k = (do
      let bs ← opprfLoop W k.x k.iter 3 0 ga s0 (Client.ctor a' crs)
      .ok (verdict bs)) := by
    unfold testOpprf
    simp only [e1, e6, R.ok_bind, f2]
    rfl
  rw [hmain]
  have hx := x_le k hr
  rcases loop_ok ha ha' hcrs hga hx (k := k.iter) (g := k.key) (fun _ => rfl) 3 0 rfl hstart
    (fun i _ i2 => hm i (by omega)) with ⟨u1, u2⟩ | ⟨⟨i, -, i2, f', i3, i4⟩, u2⟩
  · refine ⟨fun _ => by rw [u2]; rfl, fun hcon => absurd ?_ hcon⟩
    intro j hj
    obtain ⟨fj, j1, -⟩ := parties_of_ctor W.env ha ha' hcrs 1000#16 (k.key j) hga
    exact ⟨fj, j1, u1 j (Nat.zero_le _) (by omega) fj j1⟩
  · refine ⟨fun hall => absurd ?_ i4, fun _ => by rw [u2]; rfl⟩
    obtain ⟨f'', j1, j2⟩ := hall i (by omega)
    rw [i3] at j1
    obtain rfl := Except.ok.inj j1
    exact j2

/-- draws of a run in which the client's input is 700 three times -/
def sampleOpprf : OpprfTestDraws where
  ga := 12
  g0 := 5
  h0 := 6
  g1 := 7
  h1 := 8
  rand := fun _ => 1700
  gk := 3
  iter := fun _ => ⟨Sample.draws.prep, fun n => ((Sample.draws.rounds n).sk, (Sample.draws.rounds n).enc), Sample.draws.mask,
    Sample.draws.un, 3⟩

theorem sampleOpprf_ga : Curve.getRandomPoint env2 CC (some 0) 12 = .ok Sample.ga := by decide +kernel
theorem sampleOpprf_crs : (do
    let d ← ctorRandom env2 (some 0) 5 6 7 8
    .ok d.crs) = .ok Sample.crs := by decide +kernel

/-- C80: the hypotheses of `C80_opprf_partial` and its first case are met by a concrete run. -/
example : testOpprf Sample.W env2 (some 0) (some 0) (some 0) (some 1) sampleOpprf = .ok 0 := by
  obtain ⟨ga, h1, d, h2, h⟩ := C80_opprf_partial (W := Sample.W) Sample.liveGen0 Sample.liveGen0 Sample.liveGen0
    Sample.liveGen1 sampleOpprf (fun _ => by simp [sampleOpprf])
  have hga : ga = Sample.ga := by
    have h1 : Curve.getRandomPoint env2 CC (some 0) 12 = .ok ga := h1
    rw [sampleOpprf_ga] at h1
    exact (Except.ok.inj h1).symm
  have hd : d.crs = Sample.crs := by
    have h2 : ctorRandom env2 (some 0) 5 6 7 8 = .ok d := h2
    have h3 := sampleOpprf_crs
    rw [h2, R.ok_bind] at h3
    exact Except.ok.inj h3
  have hx : ∀ j, sampleOpprf.x j = 700#16 := fun _ =>
    (by decide : BitVec.ofInt 16 ((1700 : ℤ).tmod 1000) = 700#16)
  have hk : ∀ j, sampleOpprf.key j = 3 := fun j => by cases j <;> rfl
  have hi : ∀ j, (sampleOpprf.iter j).draws = Sample.draws := fun j => rfl
  have hn : newServer Sample.W (some 0) Sample.crs 3 Sample.ga = .ok (Sample.ga, Sample.srv0) := Sample.ctor_eq
  have hm := (Sample.plain.undisturbed Sample.parties.server).1
  rw [hd, hga] at h
  simp only [hx, hk, hi, hn] at h
  refine (h ?_).1 ?_
  · intro j _ f hf
    rw [← Except.ok.inj hf]
    exact hm
  · intro j _
    refine ⟨_, rfl, (C74_completes_iff_partial Sample.parties hm).1 ?_⟩
    obtain ⟨r, hr, -⟩ := C74_right_partial Sample.parties rfl Sample.plain
    exact ⟨r, hr, trivial⟩

end Tests
end Verif
