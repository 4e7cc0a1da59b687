import Verif.Props.OpprfTamper
import Verif.Props.OpprfSampleA

/-!
# C112: what the server learns from whether the client completes
-/

namespace Verif
namespace Opprf

open EC Dme Ot Aes BytesSpec

attribute [local irreducible] Rep

/-! ## A server that spoils an entry of its table -/

/-- the server replaces the three sealed keys for bit 1 in the entry of round `t` by `z` -/
def spoil (t : ℕ) (z : ℤ) (s : Server) : Server :=
  { s with Si1 := s.Si1.modify t fun e => { e with k_lt := z, k_eq := z, k_gt := z } }

/-- one evaluation (`testsuit/test_opprf.cpp:42-62`) with a server that changes its state with `f` after
`prepareKeysAndInputs` and otherwise follows the protocol -/
def evaluateWith (f : Server → Server) (W : World) (s : Server) (c : Client) (x : Msg) (d : Draws) : R (Server × Client) := do
  let c := c.setMessage x
  let s ← s.prepare W d.prep
  let (s, c) ← runRounds W d.rounds 16 (f s) c
  let m ← s.sendEncryptedMasks W d.mask
  let c ← c.unmaskResult W m d.un
  .ok (s, c)

theorem evaluateWith_id (W : World) (s : Server) (c : Client) (x : Msg) (d : Draws) :
    evaluateWith id W s c x d = evaluate W s c x d := rfl

/-! ## The other rounds -/

theorem encMsgs_dme {env : Env} {s s' : Sndr} {pk : PKey} {m0 m1 : Pt} {k0 k1 : EncCoins} {c : List Ctxt}
    (h : encMsgs env s pk m0 m1 k0 k1 = .ok (c, s')) : s'.dme = s.dme := by
  unfold encMsgs at h
  obtain ⟨c0, -, h⟩ := R.bind_eq_ok.1 h
  obtain ⟨c1, -, h⟩ := R.bind_eq_ok.1 h
  obtain ⟨-, rfl⟩ := Prod.mk.inj (Except.ok.inj h)
  rfl

theorem runOT_dme {W : World} {s s' : Server} {n : ℤ} {pk : PKey} {k : RoundCoins} {m : OtCtxts}
    (h : s.runOTRound W n pk k = .ok (m, s')) : s'.ots.dme = s.ots.dme := by
  unfold Server.runOTRound at h
  split_ifs at h
  · obtain ⟨⟨_, _⟩, h1, h⟩ := R.bind_eq_ok.1 h
    obtain ⟨⟨_, _⟩, h2, h⟩ := R.bind_eq_ok.1 h
    obtain ⟨-, rfl⟩ := Prod.mk.inj (Except.ok.inj h)
    exact (encMsgs_dme h2).trans (encMsgsZ_dme h1)
  · obtain ⟨_, -, h⟩ := R.bind_eq_ok.1 h
    obtain ⟨_, -, h⟩ := R.bind_eq_ok.1 h
    obtain ⟨⟨_, _⟩, h1, h⟩ := R.bind_eq_ok.1 h
    obtain ⟨⟨_, _⟩, h2, h⟩ := R.bind_eq_ok.1 h
    obtain ⟨⟨_, _⟩, h3, h⟩ := R.bind_eq_ok.1 h
    obtain ⟨⟨_, _⟩, h4, h⟩ := R.bind_eq_ok.1 h
    obtain ⟨-, rfl⟩ := Prod.mk.inj (Except.ok.inj h)
    exact (encMsgs_dme h4).trans ((encMsgsZ_dme h3).trans ((encMsgsZ_dme h2).trans (encMsgsZ_dme h1)))

theorem atShort_modify {α : Type} {l : List α} {n t : ℕ} (h : n ≠ t) (f : α → α) :
    atShort (l.modify t f) (n : ℤ) = atShort l (n : ℤ) := by
  unfold atShort
  rw [if_neg (by omega), if_neg (by omega), Int.toNat_natCast]
  unfold at'
  rw [List.getElem?_modify]
  simp [Ne.symm h]

theorem atShort_modify_same {α : Type} {l : List α} {t : ℕ} {a : α} (h : atShort l (t : ℤ) = .ok a) (f : α → α) :
    atShort (l.modify t f) (t : ℤ) = .ok (f a) := by
  unfold atShort at h ⊢
  rw [if_neg (by omega), Int.toNat_natCast] at h ⊢
  rw [at'_ok] at h ⊢
  rw [List.getElem?_modify, h]
  simp

theorem runOT_spoil {W : World} {s s' : Server} {n t : ℕ} (hn : n ≠ t) {pk : PKey} {k : RoundCoins} {m : OtCtxts} (z : ℤ)
    (h : s.runOTRound W n pk k = .ok (m, s')) : (spoil t z s).runOTRound W n pk k = .ok (m, spoil t z s') := by
  unfold Server.runOTRound at h ⊢
  have e : (spoil t z s).Si1 = s.Si1.modify t fun e => { e with k_lt := z, k_eq := z, k_gt := z } := rfl
  rw [e, atShort_modify hn]
  split_ifs at h ⊢
  · obtain ⟨⟨_, _⟩, h1, h⟩ := R.bind_eq_ok.1 h
    obtain ⟨⟨_, _⟩, h2, h⟩ := R.bind_eq_ok.1 h
    obtain ⟨rfl, rfl⟩ := Prod.mk.inj (Except.ok.inj h)
    have h1' : encMsgsZ W.env (spoil t z s).ots pk (spoil t z s).Sl0.k (spoil t z s).Sl1.k k.lt0 k.lt1 = _ := h1
    have h2' : encMsgs W.env _ pk (spoil t z s).Sl0.prf (spoil t z s).Sl1.prf k.prf0 k.prf1 = _ := h2
    simp only [h1', h2', R.ok_bind]
    rfl
  · obtain ⟨x0, h5, h⟩ := R.bind_eq_ok.1 h
    obtain ⟨x1, h6, h⟩ := R.bind_eq_ok.1 h
    obtain ⟨⟨_, _⟩, h1, h⟩ := R.bind_eq_ok.1 h
    obtain ⟨⟨_, _⟩, h2, h⟩ := R.bind_eq_ok.1 h
    obtain ⟨⟨_, _⟩, h3, h⟩ := R.bind_eq_ok.1 h
    obtain ⟨⟨_, _⟩, h4, h⟩ := R.bind_eq_ok.1 h
    obtain ⟨rfl, rfl⟩ := Prod.mk.inj (Except.ok.inj h)
    have h5' : atShort (spoil t z s).Si0 (n : ℤ) = _ := h5
    have h1' : encMsgsZ W.env (spoil t z s).ots pk x0.k_lt x1.k_lt k.lt0 k.lt1 = _ := h1
    simp only [h5', h6, h1', h2, h3, h4, R.ok_bind]
    rfl

/-! ## The spoiled round -/

theorem encMsgsZ_index {env : Env} {sd1 sd1' sd2 sd2' : Sndr} {pk : PKey} {m0 m1 m1' : ℤ} {k0 k1 k1' : EncCoins}
    {v v' : List Ctxt} (hd : sd1.dme = sd2.dme) (h : encMsgsZ env sd1 pk m0 m1 k0 k1 = .ok (v, sd1'))
    (h' : encMsgsZ env sd2 pk m0 m1' k0 k1' = .ok (v', sd2')) : index v .b0 = index v' .b0 := by
  unfold encMsgsZ at h h'
  obtain ⟨c0, e0, h⟩ := R.bind_eq_ok.1 h
  obtain ⟨c1, -, h⟩ := R.bind_eq_ok.1 h
  obtain ⟨rfl, -⟩ := Prod.mk.inj (Except.ok.inj h)
  obtain ⟨c0', e0', h'⟩ := R.bind_eq_ok.1 h'
  obtain ⟨c1', -, h'⟩ := R.bind_eq_ok.1 h'
  obtain ⟨rfl, -⟩ := Prod.mk.inj (Except.ok.inj h')
  rw [hd, e0'] at e0
  obtain rfl := Except.ok.inj e0
  rfl

theorem encMsgsZ_last {env : Env} {sd sd' : Sndr} {pk : PKey} {m0 m1 : ℤ} {k0 k1 : EncCoins} {v : List Ctxt}
    (h : encMsgsZ env sd pk m0 m1 k0 k1 = .ok (v, sd')) :
    ∃ ct, index v .b1 = .ok ct ∧ encZ env sd.dme pk .b1 m1 k1.s k1.t = .ok ct := by
  unfold encMsgsZ at h
  obtain ⟨c0, -, h⟩ := R.bind_eq_ok.1 h
  obtain ⟨c1, e1, h⟩ := R.bind_eq_ok.1 h
  obtain ⟨rfl, -⟩ := Prod.mk.inj (Except.ok.inj h)
  exact ⟨c1, rfl, e1⟩

theorem rel_shuffle {α : Type} {R : α → α → Prop} {a b c a' b' c' : α} (h1 : R a a') (h2 : R b b') (h3 : R c c')
    (r1 r2 : ℕ) : List.Forall₂ R (Arr3.toList (Arr3.shuffle ⟨a, b, c⟩ r1 r2)) (Arr3.toList (Arr3.shuffle ⟨a', b', c'⟩ r1 r2)) := by
  unfold Arr3.shuffle Arr3.toList
  split_ifs <;> simp [h1, h2, h3]

/-- the answer in the spoiled round: on branch 0 it is the honest one, on branch 1 all three keys are `z` -/
theorem runOT_spoiled {W : World} {s s' : Server} {c : Client} (hR : Ready W.env ⟨c.otr, s.ots⟩) {b : Branch} {coin : ℤ} {t : ℕ}
    (ht : t < 16) {pk : PKey} {rc : Recv} (h1 : selectMsg W.env c.otr b coin = .ok (pk, rc)) {k : RoundCoins} {m : OtCtxts}
    (z : ℤ) (h : s.runOTRound W t pk k = .ok (m, s')) :
    ∃ m', (spoil t z s).runOTRound W t pk k = .ok (m', spoil t z s') ∧ m'.cprf = m.cprf ∧
      List.Forall₂ (fun v v' => index v .b0 = index v' .b0) m.ctxt.toList m'.ctxt.toList ∧
      (b = .b1 → Fits z → (∀ ct, ∀ q ∈ [k.lt1, k.eq1, k.gt1], encZ W.env s.ots.dme pk .b1 z q.s q.t = .ok ct →
          rc.sk.value ≠ 0 ∧ ct.u.inf = false ∧ ct.mv.inf = false) →
        ∀ v ∈ m'.ctxt.toList, decryptMsgDecode W.env rc v = .ok z) := by
  obtain ⟨pk', rc', g1, g2, -, hz⟩ := ot_round hR b coin
  obtain ⟨rfl, rfl⟩ := Prod.mk.inj (Except.ok.inj (h1.symm.trans g1))
  unfold Server.runOTRound at h ⊢
  have e : (spoil t z s).Si1 = s.Si1.modify t fun e => { e with k_lt := z, k_eq := z, k_gt := z } := rfl
  rw [if_neg (by omega)] at h ⊢
  obtain ⟨x0, h5, h⟩ := R.bind_eq_ok.1 h
  obtain ⟨x1, h6, h⟩ := R.bind_eq_ok.1 h
  obtain ⟨⟨v0, o0⟩, q0, h⟩ := R.bind_eq_ok.1 h
  obtain ⟨⟨v1, o1⟩, q1, h⟩ := R.bind_eq_ok.1 h
  obtain ⟨⟨v2, o2⟩, q2, h⟩ := R.bind_eq_ok.1 h
  obtain ⟨⟨p, o3⟩, q3, h⟩ := R.bind_eq_ok.1 h
  obtain ⟨rfl, rfl⟩ := Prod.mk.inj (Except.ok.inj h)
  have d0 : o0.dme = s.ots.dme := encMsgsZ_dme q0
  have d1 : o1.dme = s.ots.dme := (encMsgsZ_dme q1).trans d0
  have d2 : o2.dme = s.ots.dme := (encMsgsZ_dme q2).trans d1
  obtain ⟨w0, f0, -, y0⟩ := hz s.ots rfl x0.k_lt z k.lt0 k.lt1
  obtain ⟨w1, f1, -, y1⟩ := hz { s.ots with c := w0 } rfl x0.k_eq z k.eq0 k.eq1
  obtain ⟨w2, f2, -, y2⟩ := hz { s.ots with c := w1 } rfl x0.k_gt z k.gt0 k.gt1
  have f3 : encMsgs W.env { s.ots with c := w2 } pk x0.prf x1.prf k.prf0 k.prf1 = .ok (p, o3) := by
    have d3 := encMsgs_dme q3
    unfold encMsgs at q3 ⊢
    rw [d2] at q3
    obtain ⟨c0, e0, q3⟩ := R.bind_eq_ok.1 q3
    obtain ⟨c1, e1, q3⟩ := R.bind_eq_ok.1 q3
    obtain ⟨rfl, rfl⟩ := Prod.mk.inj (Except.ok.inj q3)
    simp only [e0, e1, R.ok_bind, d2]
  refine ⟨⟨Arr3.shuffle ⟨w0, w1, w2⟩ k.sh1 k.sh2, p⟩, ?_, rfl,
    rel_shuffle (R := fun v v' => index v .b0 = index v' .b0) (encMsgsZ_index rfl q0 f0) (encMsgsZ_index d0 q1 f1) (encMsgsZ_index d1 q2 f2) _ _, ?_⟩
  · rw [e, atShort_modify_same h6]
    have h5' : atShort (spoil t z s).Si0 (t : ℤ) = _ := h5
    have f0' : encMsgsZ W.env (spoil t z s).ots pk x0.k_lt z k.lt0 k.lt1 = _ := f0
    simp only [h5', R.ok_bind, f0', f1, f2, f3]
    rfl
  · rintro rfl ⟨hz0, hz1, hz2⟩ hfine v hv
    have key : ∀ {w : List Ctxt} {q0 q1 : EncCoins} {m0 : ℤ} {sd sd' : Sndr}, sd.dme = s.ots.dme → q1 ∈ [k.lt1, k.eq1, k.gt1] →
        encMsgsZ W.env sd pk m0 z q0 q1 = .ok (w, sd') → NonDegenerate rc w .b1 := by
      intro w q0 q1 m0 sd sd' hd hq hw
      obtain ⟨ct, i1, i2⟩ := encMsgsZ_last hw
      rw [hd] at i2
      obtain ⟨j1, j2, j3⟩ := hfine ct q1 hq i2
      exact ⟨ct, i1, j2, j1, j3⟩
    rw [mem_shuffle] at hv
    simp only [Arr3.toList, List.mem_cons, List.not_mem_nil, or_false] at hv
    rcases hv with rfl | rfl | rfl
    · exact y0 hz0 hz1 hz2 (key rfl (by simp) f0)
    · exact y1 hz0 hz1 hz2 (key (sd := { s.ots with c := w0 }) rfl (by simp) f1)
    · exact y2 hz0 hz1 hz2 (key (sd := { s.ots with c := w1 }) rfl (by simp) f2)

theorem searchKey_branch {W : World} {c : Client} (hb : c.otr.b = some .b0) {l l' : List (List Ctxt)}
    (h : List.Forall₂ (fun v v' => index v .b0 = index v' .b0) l l') : searchKey W c l' = searchKey W c l := by
  induction h with
  | nil => rfl
  | cons hv _ ih =>
    rw [searchKey, searchKey, ih]
    unfold decryptMsgDecode selected
    simp only [hb, hv]

theorem finish_branch {W : World} {c : Client} (hb : c.otr.b = some .b0) {n : ℤ} (hn : n ≠ 16) {m m' : OtCtxts}
    (h1 : m'.cprf = m.cprf) (h : List.Forall₂ (fun v v' => index v .b0 = index v' .b0) m.ctxt.toList m'.ctxt.toList) :
    c.finish W n m' = c.finish W n m := by
  unfold Client.finish
  rw [if_neg hn, if_neg hn, searchKey_branch hb h, h1]

theorem selectMsg_inv {env : Env} {r r' : Recv} {b : Branch} {coin : ℤ} {pk : PKey} (h : selectMsg env r b coin = .ok (pk, r')) :
    r'.b = some b ∧ r'.dme = r.dme ∧ ∀ r2 : Recv, r2.dme = r.dme → selectMsg env r2 b coin = .ok (pk, r') := by
  unfold selectMsg at h
  obtain ⟨kp, h1, h⟩ := R.bind_eq_ok.1 h
  obtain ⟨rfl, rfl⟩ := Prod.mk.inj (Except.ok.inj h)
  refine ⟨rfl, rfl, fun r2 h2 => ?_⟩
  unfold selectMsg
  rw [h2, h1, R.ok_bind]

theorem start_inv {W : World} {c c' : Client} {x : Msg} (hx : c.x = some x) {n : ℕ} (hn : n < 16) {coin : ℤ} {pk : PKey}
    (h : c.start W (n + 1 : ℕ) coin = .ok (pk, c')) :
    ∃ rc, selectMsg W.env c.otr (branch (x.toNat.testBit n)) coin = .ok (pk, rc) ∧ c' = { c with otr := rc } := by
  unfold Client.start at h
  rw [hx] at h
  have e : ((n + 1 : ℕ) : ℤ) - 1 = n := by push_cast; ring
  simp only [e] at h
  rw [if_neg (by omega), Int.toNat_natCast] at h
  obtain ⟨⟨pk', otr⟩, hsel, h4⟩ := R.bind_eq_ok.1 h
  obtain ⟨rfl, rfl⟩ := Prod.mk.inj (Except.ok.inj h4)
  exact ⟨otr, hsel, by rw [hx]⟩

/-! ## All rounds -/

/-- on branch 0 the client does not notice -/
theorem rounds_same {W : World} {x : Msg} (d : ℕ → RoundDraws) {t : ℕ} (ht : t < 16) (hbit : x.toNat.testBit (t - 1) = false) (z : ℤ)
    (n : ℕ) (hn : n ≤ 16) {s s' : Server} {c c' : Client} (hR : Ready W.env ⟨c.otr, s.ots⟩) (hx : c.x = some x)
    (h : runRounds W d n s c = .ok (s', c')) : runRounds W d n (spoil t z s) c = .ok (spoil t z s', c') := by
  induction n generalizing s c with
  | zero =>
    obtain ⟨rfl, rfl⟩ := Prod.mk.inj (Except.ok.inj h)
    rfl
  | succ n ih =>
    rw [runRounds] at h
    obtain ⟨⟨pk, c1⟩, h1, h⟩ := R.bind_eq_ok.1 h
    obtain ⟨⟨m, s1⟩, h2, h⟩ := R.bind_eq_ok.1 h
    obtain ⟨c2, h3, h⟩ := R.bind_eq_ok.1 h
    obtain ⟨rc, i1, i2⟩ := start_inv hx (by omega) h1
    obtain ⟨j1, j2, -⟩ := selectMsg_inv i1
    obtain ⟨-, f2, f3⟩ := finish_dec h3
    have k := ih (by omega) (Ready.of_dme hR (by rw [f2, i2]; exact j2) (runOT_dme h2)) (by rw [f3, i2]; exact hx) h
    rw [runRounds]
    by_cases hnt : n + 1 = t
    · obtain rfl : n = t - 1 := by omega
      obtain ⟨m', a1, a2, a3, -⟩ := runOT_spoiled hR (t := t - 1 + 1) (by omega) i1 z h2
      have e : t - 1 + 1 = t := by omega
      have a1' : (spoil t z s).runOTRound W ((t - 1 + 1 : ℕ) : ℤ) pk (d (t - 1 + 1)).enc = .ok (m', spoil t z s1) := by
        have := a1
        rw [e] at this ⊢
        exact this
      have a4 : c1.finish W ((t - 1 + 1 : ℕ) : ℤ) m' = .ok c2 := by
        rw [finish_branch (by rw [i2, j1, hbit]; rfl) (by omega) a2 a3]
        exact h3
      simp only [h1, a1', a4, R.ok_bind]
      exact k
    · simp only [h1, runOT_spoil hnt z h2, h3, R.ok_bind]
      exact k

/-- on branch 1 the client finds no key -/
theorem rounds_stop {W : World} {K : Ordering → ℕ → ℤ} {A B Q : Grp CC} {o : ℕ → F} {x : Msg} (d : ℕ → RoundDraws)
    (hiv : IvReadable W.iv) (hsl : ∀ n, n + 4 ≤ W.pf.usable n) (hfull : ∀ sy, ∀ j < 16, 2 ^ 120 ≤ K sy j ∧ K sy j < 2 ^ 128)
    {t : ℕ} (ht1 : 1 ≤ t) (ht : t < 16) (hbit : x.toNat.testBit (t - 1) = true) {z : ℤ} (hz : Fits z)
    (hrej : ∀ sy, W.unseal (K sy t) z = .ok 0)
    (n : ℕ) (htn : t ≤ n) (hn : n ≤ 16) {s : Server} (hp : Prepared W s K A B Q o) {c : Client} (hR : Ready W.env ⟨c.otr, s.ots⟩)
    (hfine : ∀ pk rc ct, selectMsg W.env c.otr .b1 (d t).sk = .ok (pk, rc) → ∀ q ∈ [(d t).enc.lt1, (d t).enc.eq1, (d t).enc.gt1],
      encZ W.env s.ots.dme pk .b1 z q.s q.t = .ok ct → rc.sk.value ≠ 0 ∧ ct.u.inf = false ∧ ct.mv.inf = false)
    (hx : c.x = some x) (hr : Valid W.env CC c.result)
    (hkey : n < 16 → c.key = K (sym x s.theta n) n) (hw : Legible W K x s.theta) (ho : PathOpens W K x s.theta)
    (hf : FineRounds W d x n s c) :
    runRounds W d n (spoil t z s) c = .error (noDecryption W.env) := by
  induction n generalizing s c with
  | zero => omega
  | succ n ih =>
    obtain ⟨Rn, hr⟩ := valid_iff.1 hr
    have hK0 : K (sym x s.theta n) n ≠ 0 := by
      have := (hfull (sym x s.theta n) n (by omega)).1
      intro h
      rw [h] at this
      norm_num at this
    have hfit : ∀ sy e, n < 15 → W.seal (K sy (n + 1)) (K (next x s.theta n sy) n) = .ok e → Fits e := by
      intro sy e h he
      have h1 := hfull sy (n + 1) (by omega)
      have h2 := hfull (next x s.theta n sy) n (by omega)
      obtain ⟨e', h3, h4, h5⟩ := seal_ok (W := W) hiv h1.1 (m := K (next x s.theta n sy) n) (by linarith [h2.1]) (n := 16)
        (by have := h2.2; norm_num at this ⊢; exact this) (by norm_num) (hsl _)
      rw [he] at h3
      obtain rfl := Except.ok.inj h3
      exact fits_of_lt h4 h5 (hw.enc n h sy e he)
    obtain ⟨pk, c', m, s', h1, h2, ⟨ots, rfl, h4⟩, h5⟩ := round_ok hp hR hx hr (n := n) (by omega) (d (n + 1)).sk
      (d (n + 1)).enc (fun h => hkey (by omega)) hfit
      (fun h => by
        have h1 := hfull (sym x s.theta 15) 15 (by norm_num)
        exact fits_of_lt (by linarith [h1.1]) (h1.2.trans (by norm_num)) hw.top)
      (fun h => hw.own n h) (fun h => hw.rejects n h) hK0
    obtain ⟨f1, f2⟩ := hf pk c' m _ h1 h2
    obtain ⟨rc, i1, i2⟩ := start_inv hx (by omega) h1
    obtain ⟨j1, j2, j3⟩ := selectMsg_inv i1
    rw [runRounds]
    by_cases hnt : n + 1 = t
    · obtain rfl : n = t - 1 := by omega
      have e : t - 1 + 1 = t := by omega
      rw [hbit] at i1
      obtain ⟨m', a1, -, -, a4⟩ := runOT_spoiled hR (t := t - 1 + 1) (by omega) i1 z h2
      have a1' : (spoil t z s).runOTRound W ((t - 1 + 1 : ℕ) : ℤ) pk (d (t - 1 + 1)).enc =
          .ok (m', spoil t z { s with ots := ots }) := by
        have := a1
        rw [e] at this ⊢
        exact this
      have a5 : ∀ v ∈ m'.ctxt.toList, decryptMsgDecode W.env rc v = .ok z :=
        a4 rfl hz (fun ct => by rw [e] at i1 ⊢; exact hfine pk rc ct i1)
      have a6 : c'.finish W ((t - 1 + 1 : ℕ) : ℤ) m' = .error (noDecryption W.env) := by
        have hs : searchKey W c' m'.ctxt.toList = .ok none := by
          refine searchKey_none _ fun v hv => ⟨z, by rw [i2]; exact a5 v hv, ?_⟩
          have : c'.key = K (sym x s.theta t) t := by
            rw [i2]
            have := hkey (by omega)
            rw [e] at this
            exact this
          rw [this]
          exact hrej _
        unfold Client.finish
        rw [if_neg (by omega)]
        simp only [hs, R.ok_bind, R.error_bind]
        exact stop_eq (α := Client) W.env
      simp only [h1, a1', a6, R.ok_bind, R.error_bind]
    · rcases h5 f1 with ⟨g1, g2, g3⟩ | ⟨c'', g1, g2, g3, g4, g5, g6, g7⟩
      · exact absurd (ho n g1) g3
      simp only [h1, runOT_spoil hnt z h2, g1, R.ok_bind]
      refine ih (by omega) (by omega) (hp.ots ots) (Ready.of_dme hR g2 h4) ?_ g3 (valid_iff.2 ⟨_, g6⟩) (fun _ => g5) hw ho (f2 c'' g1)
      intro pk' rc' ct hsel
      obtain ⟨-, -, l3⟩ := selectMsg_inv hsel
      have := hfine pk' rc' ct (l3 c.otr g2.symm)
      change ∀ q ∈ [(d t).enc.lt1, (d t).enc.eq1, (d t).enc.gt1], encZ W.env ots.dme pk' .b1 z q.s q.t = .ok ct → _
      rw [h4]
      exact this

/-! ## C112 -/

/-- C112 is false, first half: a server that spoils the keys for bit 1 in round `t` and otherwise follows the protocol is not
noticed by a client whose input has 0 in the bit of this round: every evaluation that would have completed completes, and
leaves the client in the same state. -/
theorem C112_completes_counterexample {W : World} {s s' : Server} {c c' : Client} (hP : Parties W.env s c) {x : Msg} {d : Draws}
    (h : evaluate W s c x d = .ok (s', c')) {t : ℕ} (ht : t < 16) (hbit : x.toNat.testBit (t - 1) = false) (z : ℤ) :
    evaluateWith (spoil t z) W s c x d = .ok (spoil t z s', c') := by
  unfold evaluate at h
  simp only at h
  obtain ⟨s1, h1, h⟩ := R.bind_eq_ok.1 h
  obtain ⟨⟨s2, c2⟩, h2, h⟩ := R.bind_eq_ok.1 h
  obtain ⟨m, h3, h⟩ := R.bind_eq_ok.1 h
  obtain ⟨c3, h4, h⟩ := R.bind_eq_ok.1 h
  obtain ⟨rfl, rfl⟩ := Prod.mk.inj (Except.ok.inj h)
  have e1 : s1.ots = s.ots := by
    obtain ⟨Q, B, os, l0, l1, a, b, -, rfl⟩ := prepare_inv h1
    rfl
  have hcR : Ready W.env ⟨(c.setMessage x).otr, s1.ots⟩ := Ready.of_dme hP.ready rfl (by rw [e1])
  have k2 := rounds_same (x := x) d.rounds ht hbit z 16 le_rfl hcR rfl h2
  have k3 : (spoil t z s2).sendEncryptedMasks W d.mask = .ok m := h3
  unfold evaluateWith
  simp only [h1, k2, k3, h4, R.ok_bind]

/-- C112 is false, second half: if the bit of this round is 1 then an evaluation that would not have been disturbed (C52) ends
with the client's exception instead.  `z` is any integer that can be encoded and that none of the server's own keys of this
round opens; excluded are the draws that make one of its three encryptions a pair with infinity (C24). -/
theorem C112_stops_counterexample {W : World} {s : Server} {c : Client} (hP : Parties W.env s c) {x : Msg} {d : Draws}
    (hu : Undisturbed W s c x d) {t : ℕ} (ht1 : 1 ≤ t) (ht : t < 16) (hbit : x.toNat.testBit (t - 1) = true) {z : ℤ} (hz0 : 0 ≤ z)
    (hz1 : (z + 1) * 1024 ≤ CC.prime) (hz2 : Encodable z) (hrej : ∀ sy, W.unseal (d.key sy t) z = .ok 0)
    (hfine : ∀ pk rc ct, selectMsg W.env c.otr .b1 (d.rounds t).sk = .ok (pk, rc) →
      ∀ q ∈ [(d.rounds t).enc.lt1, (d.rounds t).enc.eq1, (d.rounds t).enc.gt1],
        encZ W.env s.ots.dme pk .b1 z q.s q.t = .ok ct → rc.sk.value ≠ 0 ∧ ct.u.inf = false ∧ ct.mv.inf = false) :
    evaluateWith (spoil t z) W s c x d = .error (noDecryption W.env) := by
  obtain ⟨hu, ho, -⟩ := hu
  obtain ⟨A, hA⟩ := valid_iff.1 hP.ga
  obtain ⟨e1, e2, e3, e4⟩ := hP.noKeys
  have hbits : d.prep = ⟨d.prep.kopprf, d.prep.r, (List.range 16).map fun j => d.prep.bits.getD j ⟨0, 0, 0, 0⟩⟩ := by
    have : d.prep.bits = (List.range 16).map fun j => d.prep.bits.getD j ⟨0, 0, 0, 0⟩ := by
      apply List.ext_getElem
      · simp [hu.bits]
      · intro i h1 h2
        simp [List.getD_eq_getElem?_getD, List.getElem?_eq_getElem h1]
    conv_lhs => rw [show d.prep = ⟨d.prep.kopprf, d.prep.r, d.prep.bits⟩ from rfl, this]
  obtain ⟨s1, p1, p2, p3, p4, p5, p6⟩ := prepare_ok (W := W) hP.server hA e1 e2 e3 e4 hP.si0 hP.si1 d.prep.kopprf d.prep.r
    (fun j => d.prep.bits.getD j ⟨0, 0, 0, 0⟩) (fun i hi sy sy' => by
      have h1 := hu.full sy (i + 1) (by omega)
      have h2 := hu.full sy' i (by omega)
      obtain ⟨c, h3, -⟩ := seal_ok (W := W) hu.iv h1.1 (m := d.key sy' i) (by linarith [h2.1]) (n := 16)
        (by have := h2.2; norm_num at this ⊢; exact this) (by norm_num) (hu.slack _)
      exact ⟨c, h3⟩)
  rw [← hbits] at p1
  have hcR : Ready W.env ⟨(c.setMessage x).otr, s1.ots⟩ := Ready.of_dme hP.ready rfl (by rw [p3])
  have k := rounds_stop (x := x) d.rounds hu.iv hu.slack hu.full ht1 ht hbit ⟨hz0, hz1, hz2⟩ hrej 16 (by omega) le_rfl p2 hcR
    (by rw [p3]; exact hfine) rfl hP.result (by simp) (by rw [p5]; exact hu.walk) (by rw [p5]; exact ho) (hu.fine s1 p1)
  unfold evaluateWith
  simp only [p1, R.ok_bind, k, R.error_bind]

/-- C112 is false: whether the client completes tells the server which bit the client's input has in the place of its choice -/
theorem C112_counterexample {W : World} {s : Server} {c : Client} (hP : Parties W.env s c) {x : Msg} {d : Draws}
    (hu : Undisturbed W s c x d) {t : ℕ} (ht1 : 1 ≤ t) (ht : t < 16) {z : ℤ} (hz0 : 0 ≤ z)
    (hz1 : (z + 1) * 1024 ≤ CC.prime) (hz2 : Encodable z) (hrej : ∀ sy, W.unseal (d.key sy t) z = .ok 0)
    (hfine : ∀ pk rc ct, selectMsg W.env c.otr .b1 (d.rounds t).sk = .ok (pk, rc) →
      ∀ q ∈ [(d.rounds t).enc.lt1, (d.rounds t).enc.eq1, (d.rounds t).enc.gt1],
        encZ W.env s.ots.dme pk .b1 z q.s q.t = .ok ct → rc.sk.value ≠ 0 ∧ ct.u.inf = false ∧ ct.mv.inf = false) :
    (∃ r, evaluateWith (spoil t z) W s c x d = .ok r) ↔ x.toNat.testBit (t - 1) = false := by
  constructor
  · rintro ⟨r, h⟩
    by_contra hb
    rw [Bool.not_eq_false] at hb
    rw [C112_stops_counterexample hP hu ht1 ht hb hz0 hz1 hz2 hrej hfine] at h
    cases h
  · intro hb
    obtain ⟨A, hA⟩ := valid_iff.1 hP.ga
    obtain ⟨R0, hR⟩ := valid_iff.1 hP.result
    obtain ⟨s', c', h, -⟩ := evaluate_ok hP hu hA hR
    exact ⟨_, C112_completes_counterexample hP h ht hb z⟩

/-! ## The sample evaluation -/

namespace Sample

/-- an integer that none of the keys of the sample opens -/
def zz : ℤ := 22475990643578642284460842605709949755710460

theorem zz_rejected (sy : Ordering) : W.unseal (kk sy) zz = .ok 0 := by cases sy <;> decide +kernel

/-- whether the encryption of `zz` with the draws `q` is without infinity -/
def zzFine (q : EncCoins) : R Bool := do
  let (pk, r) ← selectMsg W.env (Client.ctor (some 1) crs).otr .b1 3
  let ct ← encZ W.env srv0.ots.dme pk .b1 zz q.s q.t
  .ok (decide (r.sk.value ≠ 0) && !ct.u.inf && !ct.mv.inf)

theorem zz_fine : zzFine rc.lt1 = .ok true ∧ zzFine rc.eq1 = .ok true ∧ zzFine rc.gt1 = .ok true := by decide +kernel

theorem zz_encryptions (pk : PKey) (r : Recv) (ct : Ctxt) (h : selectMsg W.env (Client.ctor (some 1) crs).otr .b1 3 = .ok (pk, r)) :
    ∀ q ∈ [rc.lt1, rc.eq1, rc.gt1], encZ W.env srv0.ots.dme pk .b1 zz q.s q.t = .ok ct →
      r.sk.value ≠ 0 ∧ ct.u.inf = false ∧ ct.mv.inf = false := by
  intro q hq h1
  have h2 : zzFine q = .ok true := by
    simp only [List.mem_cons, List.not_mem_nil, or_false] at hq
    rcases hq with rfl | rfl | rfl
    exacts [zz_fine.1, zz_fine.2.1, zz_fine.2.2]
  unfold zzFine at h2
  simp only [h, h1, R.ok_bind] at h2
  have h3 := Except.ok.inj h2
  simp only [Bool.and_eq_true, Bool.not_eq_true', decide_eq_true_eq] at h3
  exact ⟨h3.1.1, h3.1.2, h3.2⟩

theorem zz_encodable : Encodable zz :=
  encodable_of _ 0 104653942099040156919592546992822459615538225953818277644646918951215402963534 (by decide) (by decide +kernel)

/-- the input 700 has 1 in bit 9 and 0 in bit 10: the server that spoils round 10 sees the client stop, the one that spoils
round 11 sees it complete -/
example : evaluateWith (spoil 10 zz) W srv0 (Client.ctor (some 1) crs) 700#16 draws = .error (noDecryption W.env) ∧
    (∃ r, evaluateWith (spoil 11 zz) W srv0 (Client.ctor (some 1) crs) 700#16 draws = .ok r) ∧
    ∃ s' c', evaluate W srv0 (Client.ctor (some 1) crs) 700#16 draws = .ok (s', c') ∧
      evaluateWith (spoil 11 zz) W srv0 (Client.ctor (some 1) crs) 700#16 draws = .ok (spoil 11 zz s', c') := by
  have hu : Undisturbed W srv0 (Client.ctor (some 1) crs) 700#16 draws := undisturbed (by decide) _ (a_fine _)
  have hk : ∀ t, t < 16 → ∀ sy, W.unseal (draws.key sy t) zz = .ok 0 := fun t ht sy => by
    rw [key_eq _ ht]
    exact zz_rejected sy
  refine ⟨C112_stops_counterexample parties hu (by norm_num) (by norm_num) (by decide) (by decide +kernel) (by decide +kernel)
    zz_encodable (hk _ (by norm_num)) zz_encryptions,
    (C112_counterexample parties hu (by norm_num) (by norm_num) (by decide +kernel) (by decide +kernel) zz_encodable
      (hk _ (by norm_num)) zz_encryptions).2 (by decide), ?_⟩
  obtain ⟨A, hA⟩ := valid_iff.1 parties.ga
  obtain ⟨R0, hR⟩ := valid_iff.1 parties.result
  obtain ⟨s', c', h, -⟩ := evaluate_ok parties hu hA hR
  exact ⟨s', c', h, C112_completes_counterexample parties h (by norm_num) (by decide) zz⟩

end Sample

end Opprf
end Verif
