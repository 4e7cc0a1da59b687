import Verif.Props.OpprfDebug
import Verif.Props.TestsOpprf

/-!
# C66, C80: when exactly a completed evaluation is right, without assumptions about the draws
-/

namespace Verif
namespace Opprf

open EC Dme Ot Aes BytesSpec

attribute [local irreducible] Rep

/-- `kopprf - r * sum` as the operators compute it: the point whose encoding the server masks -/
def maskPoint (W : World) (kopprf r : Pt) (sum : ℤ) : R Pt := do
  let v ← r.smulZ W.env CC (-sum)
  kopprf.add W.env CC v

/-- the first element that the key opens contains `e` -/
def FirstOpened (W : World) (key : ℤ) (l : List ℤ) (e : ℤ) : Prop :=
  e ≠ 0 ∧ ∃ l1 v l2, l = l1 ++ v :: l2 ∧ W.unseal key v = .ok e ∧ ∀ w ∈ l1, W.unseal key w = .ok 0

theorem firstOpened_cons {W : World} {key v e : ℤ} {l : List ℤ} (h : FirstOpened W key (v :: l) e) :
    (W.unseal key v = .ok e) ∨ (W.unseal key v = .ok 0 ∧ FirstOpened W key l e) := by
  obtain ⟨h0, l1, w, l2, h1, h2, h3⟩ := h
  cases l1 with
  | nil =>
    obtain ⟨rfl, -⟩ := List.cons.inj h1
    exact .inl h2
  | cons u l1 =>
    obtain ⟨rfl, h4⟩ := List.cons.inj h1
    exact .inr ⟨h3 v (by simp), h0, l1, w, l2, h4, h2, fun x hx => h3 x (by simp [hx])⟩

theorem firstOpened_unique {W : World} {key e e' : ℤ} (l : List ℤ) (h : FirstOpened W key l e)
    (h' : FirstOpened W key l e') : e = e' := by
  induction l with
  | nil =>
    obtain ⟨-, l1, v, l2, h1, -⟩ := h
    simp at h1
  | cons v l ih =>
    rcases firstOpened_cons h with a | ⟨a, b⟩ <;> rcases firstOpened_cons h' with a' | ⟨a', b'⟩
    · exact Except.ok.inj (a.symm.trans a')
    · exact absurd (Except.ok.inj (a.symm.trans a')) h.1
    · exact absurd (Except.ok.inj (a'.symm.trans a)) h'.1
    · exact ih b b'

/-- the result is the expected one exactly if the point of the opened mask is the server's -/
theorem right_iff {W : World} {s s' : Server} {c c' : Client} (hP : Parties W.env s c) (hc : c.result = Pt.infty CC)
    {x : Msg} {d : Draws} (hb : d.prep.bits.length = 16)
    (hf : ∀ s1, s.prepare W d.prep = .ok s1 → FinePoints W d.rounds x 16 s1 (c.setMessage x))
    (h : evaluate W s c x d = .ok (s', c')) :
    EqP W.env CC (.ok c'.result) (do let t ← s.ga.smulZ W.env CC x.toNat; s'.kopprf.add W.env CC t) ↔
    ∃ m e T P M, s'.sendEncryptedMasks W d.mask = .ok m ∧ FirstOpened W c'.key m.toList e ∧
      Curve.getRandomPoint W.env CC c.curve d.un = .ok T ∧ T.setEncodedX W.env CC e = .ok P ∧
      maskPoint W s'.kopprf s'.r d.okSum = .ok M ∧ EqP W.env CC (.ok P) (.ok M) := by
  obtain ⟨A, hA⟩ := valid_iff.1 hP.ga
  obtain ⟨-, -, -, e4⟩ := hP.noKeys
  unfold evaluate at h
  simp only at h
  obtain ⟨s1, h1, h⟩ := R.bind_eq_ok.1 h
  obtain ⟨⟨s2, c2⟩, h2, h⟩ := R.bind_eq_ok.1 h
  obtain ⟨m, h3, h⟩ := R.bind_eq_ok.1 h
  obtain ⟨c3, h4, h⟩ := R.bind_eq_ok.1 h
  obtain ⟨rfl, rfl⟩ := Prod.mk.inj (Except.ok.inj h)
  obtain ⟨p1, p2, p3, p4, p5⟩ := prepare_pts hP.server hA e4 hb h1
  have hcR : Ready W.env ⟨(c.setMessage x).otr, s1.ots⟩ := Ready.of_dme hP.ready rfl (by rw [p2])
  obtain ⟨⟨ots, rfl⟩, q2, q3⟩ := rounds_any (x := x) d.rounds 16 le_rfl p1 hcR rfl (Rn := 0)
    (by change Rep W.env c.result 0; rw [hc]; exact rep_infty) (hf s1 h1) h2
  have hsum : ∑ j ∈ Finset.range 16, (((d.prep.bits.getD j ⟨0, 0, 0, 0⟩).ok : ℤ) : F) = (d.okSum : F) := by
    rw [← hb]
    exact sum_getD _ _
  rw [hsum, Nat.mod_eq_of_lt x.isLt, zero_add] at q3
  have hr := p1.r
  have hk := p1.kopprf
  generalize (d.prep.r : F) • (G : Grp CC) = B at hr q3
  generalize (d.prep.kopprf : F) • (G : Grp CC) = Q at hk
  obtain ⟨X, x1, x2⟩ := smulI_rep hA (x.toNat : ℤ)
  obtain ⟨V, v1, v2⟩ := smulI_rep hr (-d.okSum)
  obtain ⟨M, m1, m2⟩ := add_rep hk v2
  have hmp : maskPoint W s1.kopprf s1.r d.okSum = .ok M := by simp only [maskPoint, v1, m1, R.ok_bind]
  obtain ⟨U, u1, u2⟩ := add_rep hk x2
  have hU : (do let t ← s.ga.smulZ W.env CC x.toNat; s1.kopprf.add W.env CC t) = .ok U := by rw [x1, R.ok_bind, u1]
  unfold Client.unmaskResult at h4
  obtain ⟨f, t1, h4⟩ := R.bind_eq_ok.1 h4
  obtain ⟨-, -, h4⟩ := R.bind_eq_ok.1 h4
  cases f with
  | none => cases h4
  | some e =>
    simp only at h4
    obtain ⟨T, t2, h4⟩ := R.bind_eq_ok.1 h4
    obtain ⟨P, t3, h4⟩ := R.bind_eq_ok.1 h4
    obtain ⟨r, t4, h4⟩ := R.bind_eq_ok.1 h4
    obtain rfl := Except.ok.inj h4
    dsimp only
    have hT : Live W.env T.curve := by
      unfold Pt.setEncodedX Curve.evaluateP Curve.evaluatePneg Curve.evaluatePy2 at t3
      split_ifs at t3
      all_goals
        obtain ⟨_, t3, -⟩ := R.bind_eq_ok.1 t3
        obtain ⟨o, t3, -⟩ := R.bind_eq_ok.1 t3
        by_contra hn
        obtain ⟨_, t3'⟩ := deref_not_live hn
        rw [t3'] at t3
        cases t3
    obtain ⟨P', w1, w2⟩ := C18_decode_total W.env (C := CC) (.inr rfl) hT e
    rw [t3] at w1
    obtain rfl := Except.ok.inj w1
    obtain ⟨D, hD⟩ := valid_iff.1 w2
    obtain ⟨r', r1, r2⟩ := add_rep q3 hD
    rw [t4] at r1
    obtain rfl := Except.ok.inj r1
    have hfo : FirstOpened W c2.key m.toList e := searchMask_inv _ t1
    rw [q2] at t2
    have key : EqP W.env CC (.ok r) (.ok U) ↔ EqP W.env CC (.ok P) (.ok M) := by
      rw [eqP_ok_iff r2 u2, eqP_ok_iff hD m2, Int.cast_natCast, Int.cast_neg]
      generalize (d.okSum : F) = o
      generalize (x.toNat : F) = xx
      constructor
      · intro h
        have : D = (xx • A + o • B + D) - xx • A - o • B := by module
        rw [this, h]
        module
      · rintro rfl
        module
    rw [hU, key]
    constructor
    · intro h
      exact ⟨m, e, T, P, M, h3, hfo, t2, t3, hmp, h⟩
    · rintro ⟨m', e', T', P', M', a1, a2, a3, a4, a5, a6⟩
      rw [h3] at a1
      obtain rfl := Except.ok.inj a1
      obtain rfl := firstOpened_unique _ hfo a2
      have a3 : Curve.getRandomPoint W.env CC c.curve d.un = .ok T' := a3
      have t2 : Curve.getRandomPoint W.env CC c.curve d.un = .ok T := t2
      rw [t2] at a3
      obtain rfl := Except.ok.inj a3
      rw [t3] at a4
      obtain rfl := Except.ok.inj a4
      rw [hmp] at a5
      obtain rfl := Except.ok.inj a5
      exact a6

/-- C66, exactly: in a debug build, whatever the keys, the cipher, the platform and the draws, if `ga` and the CRS are
finite, a completed evaluation is right exactly if the first mask that the client's last key opens gives the point
`kopprf - r * sum(ok)`. -/
theorem C66_exact {W : World} (hd : W.env.ndebug = false) {s s' : Server} {c c' : Client} (hP : Parties W.env s c)
    (hga : s.ga.inf = false) (hcrs : FiniteCrs c.otr.dme.crs) (hc : c.result = Pt.infty CC) {x : Msg} {d : Draws}
    (hb : d.prep.bits.length = 16) (h : evaluate W s c x d = .ok (s', c')) :
    EqP W.env CC (.ok c'.result) (do let t ← s.ga.smulZ W.env CC x.toNat; s'.kopprf.add W.env CC t) ↔
    ∃ m e T P M, s'.sendEncryptedMasks W d.mask = .ok m ∧ FirstOpened W c'.key m.toList e ∧
      Curve.getRandomPoint W.env CC c.curve d.un = .ok T ∧ T.setEncodedX W.env CC e = .ok P ∧
      maskPoint W s'.kopprf s'.r d.okSum = .ok M ∧ EqP W.env CC (.ok P) (.ok M) := by
  refine right_iff hP hc hb (fun s1 h1 => ?_) h
  obtain ⟨n1, n2⟩ := noPtrs_prepare hP.server hga h1
  refine finePoints_debug hd d.rounds 16 le_rfl n1 hcrs ?_ rfl
  rw [n2]
  exact finiteCrs_congr hP.ready.same hcrs

end Opprf

namespace Tests

open EC Dme Ot Opprf

/-- one evaluation with a new server and a new client, and the check of the test -/
def session (W : World) (a a' : Option Addr) (crs : Crs) (g : ℤ) (ga : Pt) (x : Msg) (d : Draws) : R Bool := do
  let (ga, s) ← newServer W a crs g ga
  let (s, c) ← evaluate W s (Client.ctor a' crs) x d
  let t ← ga.smulZ W.env CC x.toNat
  let u ← s.kopprf.add W.env CC t
  c.result.beq W.env CC u

/-- `n` checks in order -/
def inOrder (f : ℕ → R Bool) : ℕ → ℕ → R (List Bool)
  | 0, _ => .ok []
  | n + 1, j => do
    let b ← f j
    let bs ← inOrder f n (j + 1)
    .ok (b :: bs)

theorem loop_sessions {W : World} {a a' : Option Addr} (ha : LiveGen W.env a) (ha' : LiveGen W.env a') {crs : Crs}
    (hcrs : OnCurve CC crs.g0 ∧ OnCurve CC crs.g1 ∧ OnCurve CC crs.h0 ∧ OnCurve CC crs.h1) {ga : Pt} (hga : OnCurve CC ga)
    {x : ℕ → Msg} {k : ℕ → OpprfIter} {g : ℕ → ℤ} (hg : ∀ j, g (j + 1) = (k j).gk)
    (left j : ℕ) {ga' : Pt} (hga' : ({ ga' with curve := a } : Pt) = { ga with curve := a }) {s : Server} {c : Client}
    (hs : Start W a a' crs (g j) ga s c) :
    opprfLoop W x k left j ga' s c = inOrder (fun i => session W a a' crs (g i) ga (x i) (k i).draws) left j := by
  have hv : Pt.isValid W.env CC { ga with curve := a } = .ok true := by
    obtain ⟨h2, -⟩ := rep_setCurve (env := W.env) hga ha.live
    rcases h2 with h2 | h2
    · rw [Pt.isValid, if_pos h2.flag]
    · obtain ⟨b, h3, h4⟩ := C08_isValid_object W.env (C := CC) (.inr rfl) h2.x h2.y h2.live
      rw [h3, h4.2 (.inr h2.on)]
  induction left generalizing j ga' s c with
  | zero => rfl
  | succ left ih =>
    obtain ⟨f, f1, hP, fth, fcu, fga, fp⟩ := parties_of_ctor W.env ha ha' hcrs 1000#16 (g j) hga
    have f1' : newServer W a crs (g j) ga = .ok f := f1
    have e1 := setSecret_ok (env := W.env) (s := s) hs.curve hga' hv
    have e2 := setSecret_ok (env := W.env) (s := s) hs.curve (ga := ga) (ga' := ga) rfl hv
    have e3 := hs.same _ _ _ e2 f1' (x j) (k j).draws
    have hfg : f.1 = { ga with curve := a } := by
      obtain ⟨s0, h0, hsec⟩ := R.bind_eq_ok.1 f1
      have hcu0 : s0.curve = a := by
        obtain ⟨gk, -, h0⟩ := R.bind_eq_ok.1 h0
        obtain rfl := (Except.ok.inj h0).symm
        rfl
      rw [setSecret_ok hcu0 rfl hv] at hsec
      rw [← Except.ok.inj hsec]
    rw [opprfLoop, inOrder, opprfIter_eq, e1, session, f1']
    simp only [R.ok_bind]
    rw [e3, hfg]
    cases e4 : evaluate W f.2 (Client.ctor a' crs) (x j) (k j).draws with
    | error e => rfl
    | ok r =>
      obtain ⟨s3, c3⟩ := r
      simp only [R.ok_bind]
      obtain ⟨s0, h0, hsec⟩ := R.bind_eq_ok.1 f1
      obtain ⟨hs', hc', y1, y2⟩ := evaluate_history e4
      have y3 : runAll (SCall.run W) s0 (.secret ga :: hs') = .ok s3 := by
        rw [runAll, SCall.run, hsec, R.ok_bind]; exact y1
      have hfr : s3.frozen = s0.frozen :=
        runAll_inv (I := fun t => t.frozen = s0.frozen) (fun _ _ _ hI h => (SCall.frozen h).trans hI) _ rfl y3
      have hcu0 : s0.curve = a := by
        obtain ⟨gk, -, h0⟩ := R.bind_eq_ok.1 h0
        obtain rfl := (Except.ok.inj h0).symm
        rfl
      have hcu : s3.curve = a := by
        have := congrArg (fun p => p.2.1) hfr
        exact this.trans hcu0
      obtain ⟨gk, z1, -⟩ := randomPoint_rep (C := CC) ha (k j).gk
      have hcl : s3.clean W.env (k j).gk = .ok { s3 with
          kopprf := Pt.infty CC, r := Pt.infty CC, gk := gk, Si0 := List.replicate 16 .default,
          Si1 := List.replicate 16 .default, k_lt := [], k_eq := [], k_gt := [], ok := [] } := by
        unfold Server.clean
        rw [hcu, z1, R.ok_bind]
      generalize hs4 : ({ s3 with
          kopprf := Pt.infty CC, r := Pt.infty CC, gk := gk, Si0 := List.replicate 16 .default,
          Si1 := List.replicate 16 .default, k_lt := [], k_eq := [], k_gt := [], ok := [] } : Server) = s4 at hcl
      have hcu4 : s4.curve = a := by rw [← hs4]; exact hcu
      have hstart : Start W a a' crs (g (j + 1)) ga s4 c3.clean := by
        refine ⟨hcu4, ?_⟩
        intro p s5 f' w1 w2 x' d'
        obtain ⟨f0, w3, w4⟩ := R.bind_eq_ok.1 w2
        rw [hg] at w3
        exact C55_clean h0 y3 y2 hcl w1 w3 w4 x' d'
      have hrest := ih (j + 1) (ga' := { ga with curve := a }) rfl hstart
      cases ({ ga with curve := a } : Pt).smulZ W.env CC ((x j).toNat : ℤ) with
      | error e => rfl
      | ok t =>
        simp only [R.ok_bind]
        cases s3.kopprf.add W.env CC t with
        | error e => rfl
        | ok u =>
          simp only [R.ok_bind]
          cases c3.result.beq W.env CC u with
          | error e => rfl
          | ok b =>
            simp only [R.ok_bind]
            rw [hcl]
            simp only [R.ok_bind]
            rw [hrest]

/-- C80, for **all** draws, keystreams, platforms and builds: `test_opprf` does the same as three independent evaluations with
new servers and clients, one after the other, each followed by the check `result == kopprf + ga * x`; it ends with the
first fault of these, and otherwise with status 0 exactly if all three checks succeed. -/
theorem C80_sessions {W : World} {env' : Env} {t t' a a' : Option Addr} (ht : LiveGen env' t) (ht' : LiveGen env' t')
    (ha : LiveGen W.env a) (ha' : LiveGen W.env a') (k : OpprfTestDraws) :
    Ends (Curve.getRandomPoint env' CC t k.ga) fun ga => Ends (ctorRandom env' t' k.g0 k.h0 k.g1 k.h1) fun d =>
      testOpprf W env' t t' a a' k = (do
        let b0 ← session W a a' d.crs (k.key 0) ga (k.x 0) (k.iter 0).draws
        let b1 ← session W a a' d.crs (k.key 1) ga (k.x 1) (k.iter 1).draws
        let b2 ← session W a a' d.crs (k.key 2) ga (k.x 2) (k.iter 2).draws
        .ok (if b0 = true ∧ b1 = true ∧ b2 = true then 0 else -1)) := by
  obtain ⟨ga, e1, r1⟩ := randomPoint_rep (C := CC) ht k.ga
  obtain ⟨g0, e2, r2⟩ := randomPoint_rep (C := CC) ht' k.g0
  obtain ⟨h0, e3, r3⟩ := randomPoint_rep (C := CC) ht' k.h0
  obtain ⟨g1, e4, r4⟩ := randomPoint_rep (C := CC) ht' k.g1
  obtain ⟨h1, e5, r5⟩ := randomPoint_rep (C := CC) ht' k.h1
  have hga := onCurve_of_valid (valid_iff.2 ⟨_, r1⟩)
  have hcrs : OnCurve CC g0 ∧ OnCurve CC g1 ∧ OnCurve CC h0 ∧ OnCurve CC h1 :=
    ⟨onCurve_of_valid (valid_iff.2 ⟨_, r2⟩), onCurve_of_valid (valid_iff.2 ⟨_, r4⟩), onCurve_of_valid (valid_iff.2 ⟨_, r3⟩),
      onCurve_of_valid (valid_iff.2 ⟨_, r5⟩)⟩
  have e6 : ctorRandom env' t' k.g0 k.h0 k.g1 k.h1 =
      .ok ⟨t', none, Fld.zero CC.fn, Fld.zero CC.fn, Fld.zero CC.fn, ⟨g0, g1, h0, h1⟩⟩ := by
    simp only [ctorRandom, e2, e3, e4, e5, R.ok_bind]
  refine ⟨ga, e1, _, e6, ?_⟩
  generalize hcrs' : (⟨g0, g1, h0, h1⟩ : Crs) = crs at ⊢ e6
  have hcrs : OnCurve CC crs.g0 ∧ OnCurve CC crs.g1 ∧ OnCurve CC crs.h0 ∧ OnCurve CC crs.h1 := by
    rw [← hcrs']; exact hcrs
  obtain ⟨f, f1, -⟩ := parties_of_ctor W.env ha ha' hcrs 1000#16 k.gk hga
  obtain ⟨s0, f2, f3⟩ := R.bind_eq_ok.1 f1
  have hcu : s0.curve = a := by
    obtain ⟨gk, -, h0⟩ := R.bind_eq_ok.1 f2
    obtain rfl := (Except.ok.inj h0).symm
    rfl
  have hstart : Start W a a' crs (k.key 0) ga s0 (Client.ctor a' crs) := by
    refine ⟨hcu, ?_⟩
    intro p s2 f' w1 w2 x d
    obtain ⟨f0, w3, w4⟩ := R.bind_eq_ok.1 w2
    have w3 : Server.ctor W.env a 1000#16 crs k.gk = .ok f0 := w3
    rw [f2] at w3
    obtain rfl := Except.ok.inj w3
    rw [w1] at w4
    rw [← Except.ok.inj w4]
  have hmain : testOpprf W env' t t' a a' k = (do
      let bs ← opprfLoop W k.x k.iter 3 0 ga s0 (Client.ctor a' crs)
      .ok (verdict bs)) := by
    unfold testOpprf
    simp only [e1, e6, R.ok_bind, f2]
    rfl
  rw [hmain, loop_sessions ha ha' hcrs hga (k := k.iter) (g := k.key) (fun _ => rfl) 3 0 rfl hstart]
  unfold inOrder inOrder inOrder inOrder
  change ((do
    let bs ← (do
      let b0 ← session W a a' crs (k.key 0) ga (k.x 0) (k.iter 0).draws
      let bs ← (do
        let b1 ← session W a a' crs (k.key 1) ga (k.x 1) (k.iter 1).draws
        let bs ← (do
          let b2 ← session W a a' crs (k.key 2) ga (k.x 2) (k.iter 2).draws
          let bs ← (.ok [] : R (List Bool))
          .ok (b2 :: bs))
        .ok (b1 :: bs))
      .ok (b0 :: bs))
    .ok (verdict bs)) : R ℤ) = _
  cases session W a a' crs (k.key 0) ga (k.x 0) (k.iter 0).draws with
  | error e => rfl
  | ok b0 =>
    simp only [R.ok_bind]
    cases session W a a' crs (k.key 1) ga (k.x 1) (k.iter 1).draws with
    | error e => rfl
    | ok b1 =>
      simp only [R.ok_bind]
      cases session W a a' crs (k.key 2) ga (k.x 2) (k.iter 2).draws with
      | error e => rfl
      | ok b2 => cases b0 <;> cases b1 <;> cases b2 <;> rfl

/-- a session of a debug build ends with a successful check exactly if it completes and the opened mask is the server's -/
theorem session_true_iff {W : World} (hd : W.env.ndebug = false) {a a' : Option Addr} (ha : LiveGen W.env a)
    (ha' : LiveGen W.env a') {crs : Crs}
    (hcrs : OnCurve CC crs.g0 ∧ OnCurve CC crs.g1 ∧ OnCurve CC crs.h0 ∧ OnCurve CC crs.h1) (hfin : FiniteCrs crs)
    {ga : Pt} (hga : OnCurve CC ga) (hgf : ga.inf = false) (g : ℤ) (x : Msg) {d : Draws} (hb : d.prep.bits.length = 16) :
    session W a a' crs g ga x d = .ok true ↔ Ends (newServer W a crs g ga) fun f =>
      Ends (evaluate W f.2 (Client.ctor a' crs) x d) fun r =>
        ∃ m e T P M, r.1.sendEncryptedMasks W d.mask = .ok m ∧ FirstOpened W r.2.key m.toList e ∧
          Curve.getRandomPoint W.env CC a' d.un = .ok T ∧ T.setEncodedX W.env CC e = .ok P ∧
          maskPoint W r.1.kopprf r.1.r d.okSum = .ok M ∧ EqP W.env CC (.ok P) (.ok M) := by
  obtain ⟨f, f1, hP, fth, fcu, fga, fp⟩ := parties_of_ctor W.env ha ha' hcrs 1000#16 g hga
  have f1' : newServer W a crs g ga = .ok f := f1
  have hsec : ∃ s0 : Server, s0.setSecret W.env ga = .ok f := by
    obtain ⟨s0, -, h⟩ := R.bind_eq_ok.1 f1
    exact ⟨s0, h⟩
  have hgf' : f.2.ga.inf = false := by
    obtain ⟨s0, h⟩ := hsec
    unfold Server.setSecret at h
    obtain ⟨-, -, h⟩ := R.bind_eq_ok.1 h
    rw [← Except.ok.inj h]
    exact hgf
  have hg12 : f.1 = f.2.ga := by
    obtain ⟨s0, h⟩ := hsec
    unfold Server.setSecret at h
    obtain ⟨-, -, h⟩ := R.bind_eq_ok.1 h
    rw [← Except.ok.inj h]
  have hfin' : FiniteCrs (Client.ctor a' crs).otr.dme.crs := fun b => by
    cases b
    exacts [hfin .b0, hfin .b1]
  unfold session
  constructor
  · intro h
    rw [f1'] at h
    simp only [R.ok_bind] at h
    obtain ⟨⟨s', c'⟩, h1, h⟩ := R.bind_eq_ok.1 h
    obtain ⟨t, h2, h⟩ := R.bind_eq_ok.1 h
    obtain ⟨u, h3, h⟩ := R.bind_eq_ok.1 h
    refine ⟨f, f1', (s', c'), h1, ?_⟩
    refine (C66_exact hd hP hgf' hfin' rfl hb h1).1 ?_
    rw [hg12] at h2
    rw [h2, R.ok_bind, h3]
    exact ⟨_, _, rfl, rfl, h⟩
  · rintro ⟨f', f2, ⟨s', c'⟩, h1, h⟩
    rw [f1'] at f2
    obtain rfl := Except.ok.inj f2
    obtain ⟨p, q, h2, h3, h4⟩ := (C66_exact hd hP hgf' hfin' rfl hb h1).2 h
    obtain ⟨t, h5, h6⟩ := R.bind_eq_ok.1 h3
    obtain rfl := Except.ok.inj h2
    rw [f1']
    simp only [R.ok_bind]
    rw [h1]
    simp only [R.ok_bind]
    rw [hg12, h5, R.ok_bind, h6, R.ok_bind]
    exact h4

/-- C80, exactly: in a debug build, for all keystreams, platforms and all draws with a finite `ga` and a finite CRS,
`test_opprf` exits with status 0 exactly if each of the three evaluations, seen with new objects, completes and the first
mask that the client's last key opens gives the point `kopprf - r * sum(ok)`. -/
theorem C80_exact {W : World} (hd : W.env.ndebug = false) {env' : Env} {t t' a a' : Option Addr} (ht : LiveGen env' t)
    (ht' : LiveGen env' t') (ha : LiveGen W.env a) (ha' : LiveGen W.env a') (k : OpprfTestDraws)
    (hb : ∀ j < 3, (k.iter j).prep.bits.length = 16) (hga : ¬ CC.order ∣ k.ga)
    (hcrs : ¬ CC.order ∣ k.g0 ∧ ¬ CC.order ∣ k.h0 ∧ ¬ CC.order ∣ k.g1 ∧ ¬ CC.order ∣ k.h1) :
    Ends (Curve.getRandomPoint env' CC t k.ga) fun ga => Ends (ctorRandom env' t' k.g0 k.h0 k.g1 k.h1) fun i =>
      (testOpprf W env' t t' a a' k = .ok 0 ↔ ∀ j < 3, Ends (newServer W a i.crs (k.key j) ga) fun f =>
        Ends (evaluate W f.2 (Client.ctor a' i.crs) (k.x j) (k.iter j).draws) fun r =>
          ∃ m e T P M, r.1.sendEncryptedMasks W (k.iter j).mask = .ok m ∧ FirstOpened W r.2.key m.toList e ∧
            Curve.getRandomPoint W.env CC a' (k.iter j).un = .ok T ∧ T.setEncodedX W.env CC e = .ok P ∧
            maskPoint W r.1.kopprf r.1.r (k.iter j).draws.okSum = .ok M ∧ EqP W.env CC (.ok P) (.ok M)) := by
  obtain ⟨ga, e1, i, e6, hmain⟩ := C80_sessions ht ht' ha ha' k
  refine ⟨ga, e1, i, e6, ?_⟩
  obtain ⟨ga', e1', r1⟩ := randomPoint_rep (C := CC) ht k.ga
  obtain rfl := Except.ok.inj (e1.symm.trans e1')
  obtain ⟨g0, e2, r2⟩ := randomPoint_rep (C := CC) ht' k.g0
  obtain ⟨h0, e3, r3⟩ := randomPoint_rep (C := CC) ht' k.h0
  obtain ⟨g1, e4, r4⟩ := randomPoint_rep (C := CC) ht' k.g1
  obtain ⟨h1, e5, r5⟩ := randomPoint_rep (C := CC) ht' k.h1
  have e6' : ctorRandom env' t' k.g0 k.h0 k.g1 k.h1 =
      .ok ⟨t', none, Fld.zero CC.fn, Fld.zero CC.fn, Fld.zero CC.fn, ⟨g0, g1, h0, h1⟩⟩ := by
    simp only [ctorRandom, e2, e3, e4, e5, R.ok_bind]
  obtain rfl := Except.ok.inj (e6.symm.trans e6')
  have hon := onCurve_of_valid (valid_iff.2 ⟨_, r1⟩)
  have hcrs' : OnCurve CC g0 ∧ OnCurve CC g1 ∧ OnCurve CC h0 ∧ OnCurve CC h1 :=
    ⟨onCurve_of_valid (valid_iff.2 ⟨_, r2⟩), onCurve_of_valid (valid_iff.2 ⟨_, r4⟩), onCurve_of_valid (valid_iff.2 ⟨_, r3⟩),
      onCurve_of_valid (valid_iff.2 ⟨_, r5⟩)⟩
  have fin : ∀ {e : Env} {P : Pt} {n : ℤ}, Rep e P ((n : F) • (G : Grp CC)) → ¬ CC.order ∣ n → P.inf = false :=
    fun h hn => rep_inf_false h fun h0 => hn (smulG_eq_zero_iff.1 h0)
  have hfin : FiniteCrs ⟨g0, g1, h0, h1⟩ := fun b => by
    cases b
    · exact ⟨fin r2 hcrs.1, fin r3 hcrs.2.1⟩
    · exact ⟨fin r4 hcrs.2.2.1, fin r5 hcrs.2.2.2⟩
  have S := fun j (hj : j < 3) => session_true_iff hd ha ha' hcrs' hfin hon (fin r1 hga) (k.key j) (k.x j)
    (d := (k.iter j).draws) (hb j hj)
  rw [hmain]
  constructor
  · intro h
    obtain ⟨b0, s0, h⟩ := R.bind_eq_ok.1 h
    obtain ⟨b1, s1, h⟩ := R.bind_eq_ok.1 h
    obtain ⟨b2, s2, h⟩ := R.bind_eq_ok.1 h
    have hall : b0 = true ∧ b1 = true ∧ b2 = true := by
      by_contra hn
      rw [if_neg hn] at h
      cases h
    obtain ⟨rfl, rfl, rfl⟩ := hall
    intro j hj
    refine (S j hj).1 ?_
    interval_cases j
    exacts [s0, s1, s2]
  · intro h
    have s0 := (S 0 (by norm_num)).2 (h 0 (by norm_num))
    have s1 := (S 1 (by norm_num)).2 (h 1 (by norm_num))
    have s2 := (S 2 (by norm_num)).2 (h 2 (by norm_num))
    dsimp only at s0 s1 s2 ⊢
    rw [s0, R.ok_bind, s1, R.ok_bind, s2, R.ok_bind]
    rfl

end Tests
end Verif
