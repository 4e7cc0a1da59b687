import Verif.Props.OpprfAny

/-!
# C95: completed evaluations in debug builds, without assumptions about the draws
-/

namespace Verif
namespace Opprf

open EC Dme Ot Aes BytesSpec

attribute [local irreducible] Rep

/-! ## Infinity carries no curve pointer -/

/-- if the point is infinity its curve pointer is null, as in `Point()` -/
def NoPtr (P : Pt) : Prop := P.inf = true → P.curve = none

theorem NoPtr.infty : NoPtr (Pt.infty CC) := fun _ => rfl

theorem NoPtr.of_finite {P : Pt} (h : P.inf = false) : NoPtr P := fun h' => by rw [h] at h'; cases h'

theorem noPtr_double {env : Env} {P S : Pt} (h : P.double env CC = .ok S) : NoPtr S := by
  unfold Pt.double at h
  obtain ⟨_, -, h⟩ := R.bind_eq_ok.1 h
  obtain ⟨_, -, h⟩ := R.bind_eq_ok.1 h
  obtain ⟨_, -, h⟩ := R.bind_eq_ok.1 h
  obtain ⟨_, -, h⟩ := R.bind_eq_ok.1 h
  obtain ⟨_, -, h⟩ := R.bind_eq_ok.1 h
  obtain ⟨_, -, h⟩ := R.bind_eq_ok.1 h
  obtain ⟨_, -, h⟩ := R.bind_eq_ok.1 h
  obtain ⟨_, -, h⟩ := R.bind_eq_ok.1 h
  obtain ⟨_, -, h⟩ := R.bind_eq_ok.1 h
  obtain ⟨_, -, h⟩ := R.bind_eq_ok.1 h
  obtain ⟨_, -, h⟩ := R.bind_eq_ok.1 h
  obtain ⟨_, -, h⟩ := R.bind_eq_ok.1 h
  obtain rfl := Except.ok.inj h
  exact .of_finite rfl

theorem NoPtr.add {env : Env} {P Q S : Pt} (hP : NoPtr P) (hQ : NoPtr Q) (h : P.add env CC Q = .ok S) : NoPtr S := by
  unfold Pt.add at h
  split_ifs at h
  · obtain rfl := Except.ok.inj h
    exact hQ
  · obtain rfl := Except.ok.inj h
    exact hP
  all_goals obtain ⟨_, -, h⟩ := R.bind_eq_ok.1 h
  · exact noPtr_double h
  · obtain rfl := Except.ok.inj h
    exact .infty
  · obtain ⟨_, -, h⟩ := R.bind_eq_ok.1 h
    obtain ⟨_, -, h⟩ := R.bind_eq_ok.1 h
    obtain ⟨_, -, h⟩ := R.bind_eq_ok.1 h
    obtain ⟨_, -, h⟩ := R.bind_eq_ok.1 h
    obtain ⟨_, -, h⟩ := R.bind_eq_ok.1 h
    obtain ⟨_, -, h⟩ := R.bind_eq_ok.1 h
    obtain ⟨_, -, h⟩ := R.bind_eq_ok.1 h
    obtain ⟨_, -, h⟩ := R.bind_eq_ok.1 h
    obtain ⟨_, -, h⟩ := R.bind_eq_ok.1 h
    obtain rfl := Except.ok.inj h
    exact .of_finite rfl

theorem noPtr_smulLoop {env : Env} (l : List Char) {P Q S : Pt} (hP : NoPtr P) (hQ : NoPtr Q)
    (h : Pt.smulLoop env CC l P Q = .ok S) : NoPtr S := by
  induction l generalizing P Q with
  | nil =>
    obtain rfl := Except.ok.inj h
    exact hQ
  | cons c l ih =>
    rw [Pt.smulLoop] at h
    obtain ⟨Q', h1, h⟩ := R.bind_eq_ok.1 h
    obtain ⟨P', h2, h⟩ := R.bind_eq_ok.1 h
    refine ih ?_ ?_ h
    · split_ifs at h2
      · obtain rfl := Except.ok.inj h2
        exact hP
      · exact noPtr_double h2
    · split_ifs at h1
      · exact hQ.add hP h1
      · obtain rfl := Except.ok.inj h1
        exact hQ

theorem NoPtr.smul {env : Env} {P S : Pt} (hP : NoPtr P) {k : Fld} (h : P.smul env CC k = .ok S) : NoPtr S := by
  unfold Pt.smul at h
  split_ifs at h
  · obtain rfl := Except.ok.inj h
    exact hP
  · exact noPtr_smulLoop _ hP .infty h

/-- with assertions on, a subtraction that returns had two operands with live curve objects -/
theorem live_of_sub {env : Env} (hd : env.ndebug = false) {P Q S : Pt} (h : P.sub env CC Q = .ok S) :
    P.curve ≠ none ∧ Q.curve ≠ none := by
  unfold Pt.sub at h
  obtain ⟨_, h, -⟩ := R.bind_eq_ok.1 h
  constructor
  · intro e
    simp [cassert, hd, Pt.curveEq, e, deref] at h
  · intro e
    cases hp : deref env P.curve <;> simp [cassert, hd, Pt.curveEq, e, hp, show deref env none = .error .nullDeref from rfl] at h

theorem NoPtr.finite {P : Pt} (h : NoPtr P) (hc : P.curve ≠ none) : P.inf = false := by
  cases hi : P.inf
  · rfl
  · exact absurd (h hi) hc

/-- the components of the CRS are finite -/
def FiniteCrs (crs : Crs) : Prop := ∀ b, (crs.g b).inf = false ∧ (crs.h b).inf = false

theorem noPtr_enc {env : Env} {d : Inst} (hc : FiniteCrs d.crs) {pk : PKey} (hg : NoPtr pk.g) (hh : NoPtr pk.h)
    {b : Branch} {m : Pt} (hm : NoPtr m) {s t : ℤ} {c : Ctxt} (h : enc env d pk b m s t = .ok c) :
    NoPtr c.u ∧ NoPtr c.mv := by
  unfold enc at h
  obtain ⟨_, -, h⟩ := R.bind_eq_ok.1 h
  obtain ⟨_, -, h⟩ := R.bind_eq_ok.1 h
  obtain ⟨_, a1, h⟩ := R.bind_eq_ok.1 h
  obtain ⟨_, a2, h⟩ := R.bind_eq_ok.1 h
  obtain ⟨_, a3, h⟩ := R.bind_eq_ok.1 h
  obtain ⟨_, a4, h⟩ := R.bind_eq_ok.1 h
  obtain ⟨_, a5, h⟩ := R.bind_eq_ok.1 h
  obtain ⟨_, a6, h⟩ := R.bind_eq_ok.1 h
  obtain ⟨_, a7, h⟩ := R.bind_eq_ok.1 h
  obtain rfl := Except.ok.inj h
  exact ⟨((NoPtr.of_finite (hc b).1).smul a4).add ((NoPtr.of_finite (hc b).2).smul a5) a6,
    ((hg.smul a1).add (hh.smul a2) a3).add hm a7⟩

/-- with assertions on, a decryption that returns had finite components and a key other than 0 -/
theorem finite_of_dec {env : Env} (hd : env.ndebug = false) {sk : Fld} {c : Ctxt} (hu : NoPtr c.u) (hm : NoPtr c.mv) {P : Pt}
    (h : dec env sk c = .ok P) : c.u.inf = false ∧ sk.value ≠ 0 ∧ c.mv.inf = false := by
  unfold dec at h
  obtain ⟨w, h1, h2⟩ := R.bind_eq_ok.1 h
  obtain ⟨h3, h4⟩ := live_of_sub hd h2
  have h5 := (hu.smul h1).finite h4
  have h6 : c.u.inf = false := by
    cases hi : c.u.inf
    · rfl
    · rw [Pt.smul, if_pos hi] at h1
      obtain rfl := Except.ok.inj h1
      rw [hi] at h5
      exact h5
  refine ⟨h6, ?_, hm.finite h3⟩
  intro h0
  have e : getStr2 sk.getRawValue = ['0'] := by
    rw [Fld.getRawValue, h0]; decide
  rw [Pt.smul, if_neg (by simp [h6]), e] at h1
  have h7 : w = Pt.infty CC := (Except.ok.inj h1).symm
  rw [h7] at h5
  cases h5

/-! ## The points of a prepared server -/

structure NoPtrs (s : Server) : Prop where
  top : NoPtr s.Sl0.prf ∧ NoPtr s.Sl1.prf
  tab : ∀ i < 15, ∀ e0 e1, s.Si0[i + 1]? = some e0 → s.Si1[i + 1]? = some e1 → NoPtr e0.prf ∧ NoPtr e1.prf

theorem noPtr_entries {W : World} {s : Server} {i : ℕ} {x0 x1 : InputI} (h : entries W s i = .ok (x0, x1))
    (hA : NoPtr s.ga) (hB : NoPtr s.r) : NoPtr x0.prf ∧ NoPtr x1.prf := by
  unfold entries at h
  obtain ⟨_, -, h⟩ := R.bind_eq_ok.1 h
  obtain ⟨_, -, h⟩ := R.bind_eq_ok.1 h
  obtain ⟨_, -, h⟩ := R.bind_eq_ok.1 h
  obtain ⟨_, -, h⟩ := R.bind_eq_ok.1 h
  obtain ⟨_, -, h⟩ := R.bind_eq_ok.1 h
  obtain ⟨_, -, h⟩ := R.bind_eq_ok.1 h
  obtain ⟨_, -, h⟩ := R.bind_eq_ok.1 h
  split_ifs at h
  all_goals
    obtain ⟨_, -, h⟩ := R.bind_eq_ok.1 h
    obtain ⟨_, -, h⟩ := R.bind_eq_ok.1 h
    obtain ⟨_, -, h⟩ := R.bind_eq_ok.1 h
    obtain ⟨_, q0, h⟩ := R.bind_eq_ok.1 h
    obtain ⟨_, -, h⟩ := R.bind_eq_ok.1 h
    obtain ⟨_, -, h⟩ := R.bind_eq_ok.1 h
    obtain ⟨_, -, h⟩ := R.bind_eq_ok.1 h
    obtain ⟨_, q1, h⟩ := R.bind_eq_ok.1 h
    obtain ⟨_, q2, h⟩ := R.bind_eq_ok.1 h
    obtain ⟨_, q3, h⟩ := R.bind_eq_ok.1 h
    obtain ⟨rfl, rfl⟩ := Prod.mk.inj (Except.ok.inj h)
    exact ⟨hB.smul q0, (hA.smul q1).add (hB.smul q2) q3⟩

theorem noPtr_top {env : Env} {s s' : Server} (h : prepareTop env s = .ok s') (hA : NoPtr s.ga) (hB : NoPtr s.r) :
    NoPtr s'.Sl0.prf ∧ NoPtr s'.Sl1.prf := by
  unfold prepareTop at h
  simp only at h
  split_ifs at h
  all_goals
    obtain ⟨_, -, h⟩ := R.bind_eq_ok.1 h
    obtain ⟨_, -, h⟩ := R.bind_eq_ok.1 h
    obtain ⟨_, q0, h⟩ := R.bind_eq_ok.1 h
    obtain ⟨_, -, h⟩ := R.bind_eq_ok.1 h
    obtain ⟨_, q1, h⟩ := R.bind_eq_ok.1 h
    obtain ⟨_, q2, h⟩ := R.bind_eq_ok.1 h
    obtain ⟨_, q3, h⟩ := R.bind_eq_ok.1 h
    obtain rfl := Except.ok.inj h
    exact ⟨hB.smul q0, (hA.smul q1).add (hB.smul q2) q3⟩

theorem noPtrs_prepare {W : World} {s s' : Server} (hc : LiveGen W.env s.curve) (hA : s.ga.inf = false) {k : PrepCoins}
    (h : s.prepare W k = .ok s') : NoPtrs s' ∧ s'.ots = s.ots := by
  unfold Server.prepare at h
  obtain ⟨Q, -, h⟩ := R.bind_eq_ok.1 h
  obtain ⟨B, b1, h⟩ := R.bind_eq_ok.1 h
  have hB : NoPtr B := by
    unfold Curve.getRandomPoint at b1
    obtain ⟨g, g1, b1⟩ := R.bind_eq_ok.1 b1
    obtain ⟨g', g1', g2⟩ := getDefaultGen_rep (C := CC) hc
    obtain rfl := Except.ok.inj (g1.symm.trans g1')
    exact (NoPtr.of_finite (rep_inf_false g2 G_ne_zero)).smul b1
  rw [pushKeys_ok (env := W.env) k.bits (s := { s with kopprf := Q, r := B }) hc.live, R.ok_bind] at h
  obtain ⟨s2, h2, h3⟩ := R.bind_eq_ok.1 h
  have htop := noPtr_top h2 (.of_finite hA) hB
  obtain ⟨⟨l0, l1, rfl⟩, -⟩ := prepareTop_inv h2
  obtain ⟨⟨a, b, rfl, -⟩, hent, -⟩ := tableLoop_inv 15 h3
  refine ⟨⟨htop, ?_⟩, rfl⟩
  intro i hi e0 e1 t0 t1
  obtain ⟨x0, x1, v1, v2, v3⟩ := hent i hi
  obtain rfl := Option.some.inj (v2.symm.trans t0)
  obtain rfl := Option.some.inj (v3.symm.trans t1)
  exact noPtr_entries v1 (.of_finite hA) hB

/-! ## The rounds -/

theorem encMsgsZ_dme {env : Env} {s s' : Sndr} {pk : PKey} {m0 m1 : ℤ} {k0 k1 : EncCoins} {c : List Ctxt}
    (h : encMsgsZ env s pk m0 m1 k0 k1 = .ok (c, s')) : s'.dme = s.dme := by
  unfold encMsgsZ at h
  obtain ⟨c0, -, h⟩ := R.bind_eq_ok.1 h
  obtain ⟨c1, -, h⟩ := R.bind_eq_ok.1 h
  obtain ⟨-, rfl⟩ := Prod.mk.inj (Except.ok.inj h)
  rfl

theorem noPtr_encMsgs {env : Env} {s s' : Sndr} (hc : FiniteCrs s.dme.crs) {pk : PKey} (hg : NoPtr pk.g) (hh : NoPtr pk.h)
    {m0 m1 : Pt} (h0 : NoPtr m0) (h1 : NoPtr m1) {k0 k1 : EncCoins} {c : List Ctxt}
    (h : encMsgs env s pk m0 m1 k0 k1 = .ok (c, s')) :
    s'.dme = s.dme ∧ ∀ b ct, index c b = .ok ct → NoPtr ct.u ∧ NoPtr ct.mv := by
  unfold encMsgs at h
  obtain ⟨c0, e0, h⟩ := R.bind_eq_ok.1 h
  obtain ⟨c1, e1, h⟩ := R.bind_eq_ok.1 h
  obtain ⟨rfl, rfl⟩ := Prod.mk.inj (Except.ok.inj h)
  refine ⟨rfl, fun b ct hb => ?_⟩
  cases b
  · obtain rfl := Except.ok.inj hb
    exact noPtr_enc hc hg hh h0 e0
  · obtain rfl := Except.ok.inj hb
    exact noPtr_enc hc hg hh h1 e1

theorem noPtr_round {W : World} {s s' : Server} (hs : NoPtrs s) (hc : FiniteCrs s.ots.dme.crs) {pk : PKey}
    (hg : NoPtr pk.g) (hh : NoPtr pk.h) {n : ℕ} (hn : n < 16) {k : RoundCoins} {m : OtCtxts}
    (h : s.runOTRound W (n + 1 : ℕ) pk k = .ok (m, s')) :
    (∃ ots, s' = { s with ots := ots } ∧ ots.dme = s.ots.dme) ∧
      ∀ b ct, index m.cprf b = .ok ct → NoPtr ct.u ∧ NoPtr ct.mv := by
  unfold Server.runOTRound at h
  split_ifs at h with h16
  · obtain ⟨⟨_, o1⟩, a1, h⟩ := R.bind_eq_ok.1 h
    obtain ⟨⟨p, o2⟩, a2, h⟩ := R.bind_eq_ok.1 h
    obtain ⟨rfl, rfl⟩ := Prod.mk.inj (Except.ok.inj h)
    have d1 := encMsgsZ_dme a1
    obtain ⟨d2, q⟩ := noPtr_encMsgs (by rw [d1]; exact hc) hg hh hs.top.1 hs.top.2 a2
    exact ⟨⟨_, rfl, d2.trans d1⟩, q⟩
  · obtain ⟨x0, y0, h⟩ := R.bind_eq_ok.1 h
    obtain ⟨x1, y1, h⟩ := R.bind_eq_ok.1 h
    obtain ⟨⟨_, o1⟩, a1, h⟩ := R.bind_eq_ok.1 h
    obtain ⟨⟨_, o2⟩, a2, h⟩ := R.bind_eq_ok.1 h
    obtain ⟨⟨_, o3⟩, a3, h⟩ := R.bind_eq_ok.1 h
    obtain ⟨⟨p, o4⟩, a4, h⟩ := R.bind_eq_ok.1 h
    obtain ⟨rfl, rfl⟩ := Prod.mk.inj (Except.ok.inj h)
    rw [atShort, if_neg (by omega), Int.toNat_natCast, at'_ok] at y0 y1
    obtain ⟨t0, t1⟩ := hs.tab n (by omega) x0 x1 y0 y1
    have d3 : o3.dme = s.ots.dme := (encMsgsZ_dme a3).trans ((encMsgsZ_dme a2).trans (encMsgsZ_dme a1))
    obtain ⟨d4, q⟩ := noPtr_encMsgs (by rw [d3]; exact hc) hg hh t0 t1 a4
    exact ⟨⟨_, rfl, d4.trans d3⟩, q⟩

theorem finish_dec {W : World} {c c' : Client} {n : ℤ} {m : OtCtxts} (h : c.finish W n m = .ok c') :
    (∃ P, decryptMsg W.env c.otr m.cprf = .ok P) ∧ c'.otr = c.otr ∧ c'.x = c.x := by
  obtain ⟨key, h⟩ : ∃ key, (do
      let p ← decryptMsg W.env c.otr m.cprf
      let result ← c.result.add W.env CC p
      Except.ok { c with key := key, result := result } : R Client) = .ok c' := by
    unfold Client.finish at h
    simp only at h
    split_ifs at h
    · obtain ⟨key, -, h⟩ := R.bind_eq_ok.1 h
      exact ⟨key, h⟩
    · obtain ⟨f, -, h⟩ := R.bind_eq_ok.1 h
      obtain ⟨-, -, h⟩ := R.bind_eq_ok.1 h
      cases f with
      | none => cases h
      | some key => exact ⟨key, h⟩
  obtain ⟨P, h1, h⟩ := R.bind_eq_ok.1 h
  obtain ⟨_, -, h⟩ := R.bind_eq_ok.1 h
  obtain rfl := Except.ok.inj h
  exact ⟨⟨P, h1⟩, rfl, rfl⟩

theorem finePoints_debug {W : World} (hd : W.env.ndebug = false) {x : Msg} (d : ℕ → RoundDraws) (n : ℕ) (hn : n ≤ 16)
    {s : Server} {c : Client} (hs : NoPtrs s) (hc : FiniteCrs c.otr.dme.crs) (hc' : FiniteCrs s.ots.dme.crs)
    (hx : c.x = some x) : FinePoints W d x n s c := by
  induction n generalizing s c with
  | zero => trivial
  | succ n ih =>
    intro pk c1 m s1 h1 h2 c2 h3
    unfold Client.start at h1
    rw [hx] at h1
    have e : ((n + 1 : ℕ) : ℤ) - 1 = n := by push_cast; ring
    simp only [e] at h1
    rw [if_neg (by omega), Int.toNat_natCast] at h1
    obtain ⟨⟨pk', otr⟩, hsel, h4⟩ := R.bind_eq_ok.1 h1
    clear h1
    obtain ⟨rfl, rfl⟩ := Prod.mk.inj (Except.ok.inj h4)
    clear h4
    unfold selectMsg at hsel
    obtain ⟨kp, h1, h5⟩ := R.bind_eq_ok.1 hsel
    clear hsel
    obtain ⟨rfl, rfl⟩ := Prod.mk.inj (Except.ok.inj h5)
    have hk : NoPtr kp.pk.g ∧ NoPtr kp.pk.h := by
      unfold keyGen at h1
      obtain ⟨_, -, h1⟩ := R.bind_eq_ok.1 h1
      obtain ⟨_, k1, h1⟩ := R.bind_eq_ok.1 h1
      obtain ⟨_, k2, h1⟩ := R.bind_eq_ok.1 h1
      obtain rfl := Except.ok.inj h1
      exact ⟨(NoPtr.of_finite (hc _).1).smul k1, (NoPtr.of_finite (hc _).2).smul k2⟩
    obtain ⟨⟨ots, rfl, g1⟩, g2⟩ := noPtr_round hs hc' hk.1 hk.2 (by omega) h2
    obtain ⟨⟨P, f1⟩, f2, f3⟩ := finish_dec h3
    unfold decryptMsg at f1
    obtain ⟨ct, i1, i2⟩ := R.bind_eq_ok.1 f1
    obtain ⟨j1, j2⟩ := g2 _ _ i1
    refine ⟨⟨ct, i1, finite_of_dec hd j1 j2 i2⟩, ?_⟩
    refine ih (by omega) ⟨hs.top, hs.tab⟩ ?_ ?_ ?_
    · rw [f2]; exact hc
    · change FiniteCrs ots.dme.crs
      rw [g1]; exact hc'
    · rw [f3]

theorem finiteCrs_congr {c1 c2 : Crs} (h : SameCrs c1 c2) (hf : FiniteCrs c1) : FiniteCrs c2 := by
  have key {P Q : Pt} (h : SamePoint P Q) (hP : P.inf = false) : Q.inf = false := by
    rcases h with ⟨h1, -⟩ | ⟨-, h1, -⟩
    · rw [hP] at h1; cases h1
    · exact h1
  intro b
  cases b
  · exact ⟨key h.g0 (hf .b0).1, key h.h0 (hf .b0).2⟩
  · exact ⟨key h.g1 (hf .b1).1, key h.h1 (hf .b1).2⟩

/-- C95 in debug builds: whatever the keys, the cipher, the platform and the draws, if `ga` and the CRS are finite, the
result of a completed evaluation is `ga * x + r * sum(ok)` plus the point that `setEncodedX` gives for the first of the
three masks that the client's last key opens. -/
theorem C95_debug {W : World} (hd : W.env.ndebug = false) {s s' : Server} {c c' : Client} (hP : Parties W.env s c)
    (hga : s.ga.inf = false) (hcrs : FiniteCrs c.otr.dme.crs) (hc : c.result = Pt.infty CC) {x : Msg} {d : Draws}
    (hb : d.prep.bits.length = 16) (h : evaluate W s c x d = .ok (s', c')) :
    ∃ base m e T P, EqP W.env CC (.ok base) (blinded W s.ga x s'.r d.okSum) ∧ s'.sendEncryptedMasks W d.mask = .ok m ∧
      (e ≠ 0 ∧ ∃ l1 v l2, m.toList = l1 ++ v :: l2 ∧ W.unseal c'.key v = .ok e ∧ ∀ w ∈ l1, W.unseal c'.key w = .ok 0) ∧
      Curve.getRandomPoint W.env CC c.curve d.un = .ok T ∧ T.setEncodedX W.env CC e = .ok P ∧
      base.add W.env CC P = .ok c'.result := by
  refine C95_form hP hc hb (fun s1 h1 => ?_) h
  obtain ⟨n1, n2⟩ := noPtrs_prepare hP.server hga h1
  refine finePoints_debug hd d.rounds 16 le_rfl n1 hcrs ?_ rfl
  rw [n2]
  exact finiteCrs_congr hP.ready.same hcrs

end Opprf
end Verif
