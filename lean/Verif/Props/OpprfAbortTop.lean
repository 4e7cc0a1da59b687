import Verif.Props.OpprfAbort

/-!
# C112 for the highest bit
-/

namespace Verif
namespace Opprf

open EC Dme Ot Aes BytesSpec

attribute [local irreducible] Rep

/-- the server replaces the key it offers for bit 1 in the first round by `z` -/
def spoilTop (z : ℤ) (s : Server) : Server := { s with Sl1 := { s.Sl1 with k := z } }

theorem runOT_spoilTop {W : World} {s s' : Server} {n : ℕ} (hn : n < 16) {pk : PKey} {k : RoundCoins} {m : OtCtxts} (z : ℤ)
    (h : s.runOTRound W n pk k = .ok (m, s')) : (spoilTop z s).runOTRound W n pk k = .ok (m, spoilTop z s') := by
  unfold Server.runOTRound at h ⊢
  rw [if_neg (by omega)] at h ⊢
  obtain ⟨x0, h5, h⟩ := R.bind_eq_ok.1 h
  obtain ⟨x1, h6, h⟩ := R.bind_eq_ok.1 h
  obtain ⟨⟨_, _⟩, h1, h⟩ := R.bind_eq_ok.1 h
  obtain ⟨⟨_, _⟩, h2, h⟩ := R.bind_eq_ok.1 h
  obtain ⟨⟨_, _⟩, h3, h⟩ := R.bind_eq_ok.1 h
  obtain ⟨⟨_, _⟩, h4, h⟩ := R.bind_eq_ok.1 h
  obtain ⟨rfl, rfl⟩ := Prod.mk.inj (Except.ok.inj h)
  have h5' : atShort (spoilTop z s).Si0 (n : ℤ) = _ := h5
  have h6' : atShort (spoilTop z s).Si1 (n : ℤ) = _ := h6
  have h1' : encMsgsZ W.env (spoilTop z s).ots pk x0.k_lt x1.k_lt k.lt0 k.lt1 = _ := h1
  simp only [h5', h6', h1', h2, h3, h4, R.ok_bind]
  rfl

theorem runOT_top {W : World} {s s' : Server} {c : Client} (hR : Ready W.env ⟨c.otr, s.ots⟩) {b : Branch} {coin : ℤ}
    {pk : PKey} {rc : Recv} (h1 : selectMsg W.env c.otr b coin = .ok (pk, rc)) {k : RoundCoins} {m : OtCtxts}
    (z : ℤ) (h : s.runOTRound W 16 pk k = .ok (m, s')) :
    ∃ v, (spoilTop z s).runOTRound W 16 pk k = .ok (⟨⟨v, [], []⟩, m.cprf⟩, spoilTop z s') ∧
      index m.ctxt.e0 .b0 = index v .b0 ∧
      (b = .b1 → Fits z → (∀ ct, encZ W.env s.ots.dme pk .b1 z k.lt1.s k.lt1.t = .ok ct →
          rc.sk.value ≠ 0 ∧ ct.u.inf = false ∧ ct.mv.inf = false) → decryptMsgDecode W.env rc v = .ok z) := by
  obtain ⟨pk', rc', g1, g2, -, hz⟩ := ot_round hR b coin
  obtain ⟨rfl, rfl⟩ := Prod.mk.inj (Except.ok.inj (h1.symm.trans g1))
  unfold Server.runOTRound at h ⊢
  rw [if_pos rfl] at h ⊢
  obtain ⟨⟨v0, o0⟩, q0, h⟩ := R.bind_eq_ok.1 h
  obtain ⟨⟨p, o3⟩, q3, h⟩ := R.bind_eq_ok.1 h
  obtain ⟨rfl, rfl⟩ := Prod.mk.inj (Except.ok.inj h)
  have d0 : o0.dme = s.ots.dme := encMsgsZ_dme q0
  obtain ⟨w0, f0, -, y0⟩ := hz s.ots rfl s.Sl0.k z k.lt0 k.lt1
  have f3 : encMsgs W.env { s.ots with c := w0 } pk s.Sl0.prf s.Sl1.prf k.prf0 k.prf1 = .ok (p, o3) := by
    unfold encMsgs at q3 ⊢
    rw [d0] at q3
    obtain ⟨c0, e0, q3⟩ := R.bind_eq_ok.1 q3
    obtain ⟨c1, e1, q3⟩ := R.bind_eq_ok.1 q3
    obtain ⟨rfl, rfl⟩ := Prod.mk.inj (Except.ok.inj q3)
    simp only [e0, e1, R.ok_bind, d0]
  refine ⟨w0, ?_, encMsgsZ_index rfl q0 f0, ?_⟩
  · have f0' : encMsgsZ W.env (spoilTop z s).ots pk (spoilTop z s).Sl0.k (spoilTop z s).Sl1.k k.lt0 k.lt1 = _ := f0
    have f3' : encMsgs W.env { s.ots with c := w0 } pk (spoilTop z s).Sl0.prf (spoilTop z s).Sl1.prf k.prf0 k.prf1 = _ := f3
    simp only [R.ok_bind, f0', f3']
    rfl
  · rintro rfl ⟨hz0, hz1, hz2⟩ hfine
    obtain ⟨ct, i1, i2⟩ := encMsgsZ_last f0
    obtain ⟨j1, j2, j3⟩ := hfine ct i2
    exact y0 hz0 hz1 hz2 ⟨ct, i1, j2, j1, j3⟩

theorem rounds_below {W : World} (d : ℕ → RoundDraws) (z : ℤ) (n : ℕ) (hn : n < 16) {s s' : Server} {c c' : Client}
    (h : runRounds W d n s c = .ok (s', c')) : runRounds W d n (spoilTop z s) c = .ok (spoilTop z s', c') := by
  induction n generalizing s c with
  | zero =>
    obtain ⟨rfl, rfl⟩ := Prod.mk.inj (Except.ok.inj h)
    rfl
  | succ n ih =>
    rw [runRounds] at h ⊢
    obtain ⟨⟨pk, c1⟩, h1, h⟩ := R.bind_eq_ok.1 h
    obtain ⟨⟨m, s1⟩, h2, h⟩ := R.bind_eq_ok.1 h
    obtain ⟨c2, h3, h⟩ := R.bind_eq_ok.1 h
    simp only [h1, runOT_spoilTop hn z h2, h3, R.ok_bind]
    exact ih (by omega) h

/-- C112 is false for the highest bit, first half -/
theorem C112_top_completes_counterexample {W : World} {s s' : Server} {c c' : Client} (hP : Parties W.env s c) {x : Msg}
    {d : Draws} (h : evaluate W s c x d = .ok (s', c')) (hbit : x.toNat.testBit 15 = false) (z : ℤ) :
    evaluateWith (spoilTop z) W s c x d = .ok (spoilTop z s', c') := by
  unfold evaluate at h
  simp only at h
  obtain ⟨s1, h1, h⟩ := R.bind_eq_ok.1 h
  obtain ⟨⟨s2, c2⟩, h2, h⟩ := R.bind_eq_ok.1 h
  obtain ⟨m, h3, h⟩ := R.bind_eq_ok.1 h
  obtain ⟨c3, h4, h⟩ := R.bind_eq_ok.1 h
  obtain ⟨rfl, rfl⟩ := Prod.mk.inj (Except.ok.inj h)
  have e1 : s1.ots = s.ots := by
    obtain ⟨Q, B, os, l0, l1, a, b, -, rfl⟩ := prepare_inv h1
    rfl
  have hcR : Ready W.env ⟨(c.setMessage x).otr, s1.ots⟩ := Ready.of_dme hP.ready rfl (by rw [e1])
  have k2 : runRounds W d.rounds 16 (spoilTop z s1) (c.setMessage x) = .ok (spoilTop z s2, c2) := by
    rw [runRounds] at h2 ⊢
    obtain ⟨⟨pk, c1⟩, a1, h2⟩ := R.bind_eq_ok.1 h2
    obtain ⟨⟨m1, s3⟩, a2, h2⟩ := R.bind_eq_ok.1 h2
    obtain ⟨c4, a3, h2⟩ := R.bind_eq_ok.1 h2
    obtain ⟨rc, i1, i2⟩ := start_inv (x := x) rfl (by omega) a1
    obtain ⟨v, b1, b2, -⟩ := runOT_top hcR i1 z a2
    have b1' : (spoilTop z s1).runOTRound W ((15 + 1 : ℕ) : ℤ) pk (d.rounds (15 + 1)).enc = _ := b1
    have b3 : c1.finish W ((15 + 1 : ℕ) : ℤ) ⟨⟨v, [], []⟩, m1.cprf⟩ = .ok c4 := by
      rw [← a3]
      have hb : c1.otr.b = some .b0 := by
        rw [i2, (selectMsg_inv i1).1, hbit]
        rfl
      have b4 : decryptMsgDecode W.env c1.otr v = decryptMsgDecode W.env c1.otr m1.ctxt.e0 := by
        unfold decryptMsgDecode selected
        simp only [hb, b2]
      unfold Client.finish
      rw [if_pos (by norm_num), if_pos (by norm_num), b4]
    simp only [a1, b1', b3, R.ok_bind]
    exact rounds_below d.rounds z 15 (by norm_num) h2
  have k3 : (spoilTop z s2).sendEncryptedMasks W d.mask = .ok m := h3
  unfold evaluateWith
  simp only [h1, k2, k3, h4, R.ok_bind]

/-- C112 is false for the highest bit, second half: `z` is any integer that can be encoded and that, used as a key, opens none
of the sealed keys of the next round. -/
theorem C112_top_stops_counterexample {W : World} {s : Server} {c : Client} (hP : Parties W.env s c) {x : Msg} {d : Draws}
    (hu : Undisturbed W s c x d) (hbit : x.toNat.testBit 15 = true) {z : ℤ} (hz0 : 0 ≤ z)
    (hz1 : (z + 1) * 1024 ≤ CC.prime) (hz2 : Encodable z)
    (hrej : ∀ sy sy' e, W.seal (d.key sy 15) (d.key sy' 14) = .ok e → W.unseal z e = .ok 0)
    (hfine : ∀ pk rc ct, selectMsg W.env c.otr .b1 (d.rounds 16).sk = .ok (pk, rc) →
      encZ W.env s.ots.dme pk .b1 z (d.rounds 16).enc.lt1.s (d.rounds 16).enc.lt1.t = .ok ct →
        rc.sk.value ≠ 0 ∧ ct.u.inf = false ∧ ct.mv.inf = false) :
    evaluateWith (spoilTop z) W s c x d = .error (noDecryption W.env) := by
  obtain ⟨hu, ho, -⟩ := hu
  obtain ⟨A, hA⟩ := valid_iff.1 hP.ga
  obtain ⟨R0, hR0⟩ := valid_iff.1 hP.result
  obtain ⟨e1, e2, e3, e4⟩ := hP.noKeys
  have hbits : d.prep = ⟨d.prep.kopprf, d.prep.r, (List.range 16).map fun j => d.prep.bits.getD j ⟨0, 0, 0, 0⟩⟩ := by
    have : d.prep.bits = (List.range 16).map fun j => d.prep.bits.getD j ⟨0, 0, 0, 0⟩ := by
      apply List.ext_getElem
      · simp [hu.bits]
      · intro i h1 h2
        simp [List.getD_eq_getElem?_getD, List.getElem?_eq_getElem h1]
    conv_lhs => rw [show d.prep = ⟨d.prep.kopprf, d.prep.r, d.prep.bits⟩ from rfl, this]
  obtain ⟨s1, p1, p2, p3, p4, p5, p6⟩ := prepare_ok (W := W) hP.server hA e1 e2 e3 e4 hP.si0 hP.si1 d.prep.kopprf d.prep.r
    (fun j => d.prep.bits.getD j ⟨0, 0, 0, 0⟩) (fun i hi sy sy' => by
      have h1 := hu.full sy (i + 1) (by omega)
      have h2 := hu.full sy' i (by omega)
      obtain ⟨c, h3, -⟩ := seal_ok (W := W) hu.iv h1.1 (m := d.key sy' i) (by linarith [h2.1]) (n := 16)
        (by have := h2.2; norm_num at this ⊢; exact this) (by norm_num) (hu.slack _)
      exact ⟨c, h3⟩)
  rw [← hbits] at p1
  replace p2 : Prepared W s1 d.key A ((d.prep.r : F) • G) ((d.prep.kopprf : F) • G)
    (fun j => ((d.prep.bits.getD j ⟨0, 0, 0, 0⟩).ok : F)) := p2
  have hcR : Ready W.env ⟨(c.setMessage x).otr, s1.ots⟩ := Ready.of_dme hP.ready rfl (by rw [p3])
  have hw : Legible W d.key x s1.theta := by rw [p5]; exact hu.walk
  have hK0 : ∀ sy, ∀ j < 16, d.key sy j ≠ 0 := by
    intro sy j hj h
    have := (hu.full sy j hj).1
    rw [h] at this
    norm_num at this
  have hfit : ∀ sy sy' e, W.seal (d.key sy 15) (d.key sy' 14) = .ok e → Encodable e → Fits e := by
    intro sy sy' e he henc
    have h1 := hu.full sy 15 (by omega)
    have h2 := hu.full sy' 14 (by omega)
    obtain ⟨e', h3, h4, h5⟩ := seal_ok (W := W) hu.iv h1.1 (m := d.key sy' 14) (by linarith [h2.1]) (n := 16)
      (by have := h2.2; norm_num at this ⊢; exact this) (by norm_num) (hu.slack _)
    rw [he] at h3
    obtain rfl := Except.ok.inj h3
    exact fits_of_lt h4 h5 henc
  -- round 16
  obtain ⟨pk, c', m, s', h1, h2, ⟨ots, rfl, h4⟩, h5⟩ := round_ok p2 hcR (x := x) rfl (Rn := R0) hR0 (n := 15) (by omega)
    (d.rounds 16).sk (d.rounds 16).enc (fun h => absurd h (by omega)) (fun _ _ h => absurd h (by omega))
    (fun h => by
      have h1 := hu.full (sym x s1.theta 15) 15 (by norm_num)
      exact fits_of_lt (by linarith [h1.1]) (h1.2.trans (by norm_num)) hw.top)
    (fun h => absurd h (by omega)) (fun h => absurd h (by omega)) (hK0 _ _ (by norm_num))
  obtain ⟨f1, f2⟩ := hu.fine s1 p1 pk c' m _ h1 h2
  rcases h5 f1 with ⟨g1, -⟩ | ⟨c'', g1, g2, g3, g4, g5, g6, -⟩
  · omega
  obtain ⟨rc, i1, i2⟩ := start_inv (x := x) (c := c.setMessage x) rfl (by omega) h1
  rw [hbit] at i1
  obtain ⟨v, b1, -, b2⟩ := runOT_top hcR i1 z h2
  have b3 : decryptMsgDecode W.env rc v = .ok z := b2 rfl ⟨hz0, hz1, hz2⟩ (fun ct => by
    rw [p3]
    exact hfine pk rc ct i1)
  have b1' : (spoilTop z s1).runOTRound W ((15 + 1 : ℕ) : ℤ) pk (d.rounds (15 + 1)).enc = _ := b1
  have b4 : c'.finish W ((15 + 1 : ℕ) : ℤ) ⟨⟨v, [], []⟩, m.cprf⟩ = .ok { c'' with key := z } := by
    unfold Client.finish at g1 ⊢
    rw [if_pos (by norm_num)] at g1 ⊢
    obtain ⟨_, -, g1⟩ := R.bind_eq_ok.1 g1
    obtain ⟨_, t1, g1⟩ := R.bind_eq_ok.1 g1
    obtain ⟨_, t2, g1⟩ := R.bind_eq_ok.1 g1
    obtain rfl := Except.ok.inj g1
    have b3' : decryptMsgDecode W.env c'.otr v = .ok z := by rw [i2]; exact b3
    simp only [b3', t1, t2, R.ok_bind]
  -- round 15
  have hR2 : Ready W.env ⟨c''.otr, ots⟩ := Ready.of_dme hcR g2 h4
  obtain ⟨pk2, rc2, l1, l2, hpt, hz⟩ := ot_round hR2 (branch (x.toNat.testBit 14)) (d.rounds 15).sk
  have l3 := start_ok (W := W) (c := c'') g3 (n := 14) (by norm_num) l1
  have l3' := start_ok (W := W) (c := { c'' with key := z }) g3 (n := 14) (by norm_num) l1
  obtain ⟨en0, en1, t0, t1, t2⟩ := p2.tab 14 (by norm_num)
  obtain ⟨t3, t4⟩ := t2 false
  obtain ⟨t5, t6⟩ := t2 true
  obtain ⟨c0, n0, m0, r0⟩ := hz ots rfl en0.k_lt en1.k_lt (d.rounds 15).enc.lt0 (d.rounds 15).enc.lt1
  obtain ⟨c1, n1, m1, r1⟩ := hz { ots with c := c0 } rfl en0.k_eq en1.k_eq (d.rounds 15).enc.eq0 (d.rounds 15).enc.eq1
  obtain ⟨c2, n2, m2, r2⟩ := hz { ots with c := c1 } rfl en0.k_gt en1.k_gt (d.rounds 15).enc.gt0 (d.rounds 15).enc.gt1
  obtain ⟨p, n3, m3, r3⟩ := hpt { ots with c := c2 } rfl en0.prf en1.prf _ _ t4 t6 (d.rounds 15).enc.prf0 (d.rounds 15).enc.prf1
  have hans : Server.runOTRound W { s1 with ots := ots } ((14 + 1 : ℕ) : ℤ) pk2 (d.rounds (14 + 1)).enc =
      .ok (⟨Arr3.shuffle ⟨c0, c1, c2⟩ (d.rounds 15).enc.sh1 (d.rounds 15).enc.sh2, p⟩, { s1 with ots := { ots with c := p } }) := by
    unfold Server.runOTRound
    rw [if_neg (by omega)]
    have a0 : atShort s1.Si0 ((14 + 1 : ℕ) : ℤ) = .ok en0 := by
      rw [atShort, if_neg (by omega), Int.toNat_natCast, at'_ok]; exact t0
    have a1 : atShort s1.Si1 ((14 + 1 : ℕ) : ℤ) = .ok en1 := by
      rw [atShort, if_neg (by omega), Int.toNat_natCast, at'_ok]; exact t1
    simp only [a0, a1, R.ok_bind, n0, n1, n2, n3]
  obtain ⟨u1, -⟩ := f2 c'' g1 pk2 _ _ _ l3 hans
  have hsel : ∀ sy : Ordering, W.seal (d.key sy 15) (d.key (next x s1.theta 14 sy) 14) =
      .ok (pick (branch (x.toNat.testBit 14)) (en0.k sy) (en1.k sy)) := by
    intro sy
    have := (t2 (x.toNat.testBit 14)).1 sy
    rw [then_eq_next] at this
    rw [this, pick_branch]
    cases x.toNat.testBit 14 <;> rfl
  have hmem : ∀ v, v ∈ [c0, c1, c2] → NonDegenerate rc2 v (branch (x.toNat.testBit 14)) := by
    intro v hv
    refine u1 v (List.mem_cons_of_mem _ ((mem_shuffle _ _ _ _).2 hv)) ?_
    simp only [List.mem_cons, List.not_mem_nil, or_false] at hv
    rcases hv with rfl | rfl | rfl <;> assumption
  have hf : ∀ sy, Fits (pick (branch (x.toNat.testBit 14)) (en0.k sy) (en1.k sy)) := fun sy =>
    hfit _ _ _ (hsel sy) (hw.enc 14 (by norm_num) sy _ (hsel sy))
  have hdec : ∀ v ∈ [c0, c1, c2], ∃ sy, decryptMsgDecode W.env rc2 v =
      .ok (pick (branch (x.toNat.testBit 14)) (en0.k sy) (en1.k sy)) := by
    intro v hv
    simp only [List.mem_cons, List.not_mem_nil, or_false] at hv
    rcases hv with rfl | rfl | rfl
    · obtain ⟨b1, b2, b3⟩ := hf .lt
      exact ⟨.lt, r0 b1 b2 b3 (hmem _ (by simp))⟩
    · obtain ⟨b1, b2, b3⟩ := hf .eq
      exact ⟨.eq, r1 b1 b2 b3 (hmem _ (by simp))⟩
    · obtain ⟨b1, b2, b3⟩ := hf .gt
      exact ⟨.gt, r2 b1 b2 b3 (hmem _ (by simp))⟩
  have hs : searchKey W { c'' with key := z, otr := rc2 }
      (Arr3.toList (Arr3.shuffle ⟨c0, c1, c2⟩ (d.rounds 15).enc.sh1 (d.rounds 15).enc.sh2)) = .ok none := by
    refine searchKey_none _ fun v hv => ?_
    obtain ⟨sy, hsy⟩ := hdec v ((mem_shuffle _ _ _ _).1 hv)
    exact ⟨_, hsy, hrej _ _ _ (hsel sy)⟩
  have a6 : Client.finish W { c'' with key := z, otr := rc2 } ((14 + 1 : ℕ) : ℤ)
      ⟨Arr3.shuffle ⟨c0, c1, c2⟩ (d.rounds 15).enc.sh1 (d.rounds 15).enc.sh2, p⟩ = .error (noDecryption W.env) := by
    unfold Client.finish
    rw [if_neg (by omega)]
    simp only [hs, R.ok_bind, R.error_bind]
    exact stop_eq (α := Client) W.env
  have k : runRounds W d.rounds 16 (spoilTop z s1) (c.setMessage x) = .error (noDecryption W.env) := by
    have k' : runRounds W d.rounds 15 (spoilTop z { s1 with ots := ots }) { c'' with key := z } = .error (noDecryption W.env) := by
      rw [runRounds]
      simp only [l3', runOT_spoilTop (by norm_num) z hans, a6, R.ok_bind, R.error_bind]
    rw [runRounds]
    simp only [h1, b1', b4, R.ok_bind]
    exact k'
  unfold evaluateWith
  simp only [p1, R.ok_bind, k, R.error_bind]

/-- C112 is false for the highest bit -/
theorem C112_top_counterexample {W : World} {s : Server} {c : Client} (hP : Parties W.env s c) {x : Msg} {d : Draws}
    (hu : Undisturbed W s c x d) {z : ℤ} (hz0 : 0 ≤ z) (hz1 : (z + 1) * 1024 ≤ CC.prime) (hz2 : Encodable z)
    (hrej : ∀ sy sy' e, W.seal (d.key sy 15) (d.key sy' 14) = .ok e → W.unseal z e = .ok 0)
    (hfine : ∀ pk rc ct, selectMsg W.env c.otr .b1 (d.rounds 16).sk = .ok (pk, rc) →
      encZ W.env s.ots.dme pk .b1 z (d.rounds 16).enc.lt1.s (d.rounds 16).enc.lt1.t = .ok ct →
        rc.sk.value ≠ 0 ∧ ct.u.inf = false ∧ ct.mv.inf = false) :
    (∃ r, evaluateWith (spoilTop z) W s c x d = .ok r) ↔ x.toNat.testBit 15 = false := by
  constructor
  · rintro ⟨r, h⟩
    by_contra hb
    rw [Bool.not_eq_false] at hb
    rw [C112_top_stops_counterexample hP hu hb hz0 hz1 hz2 hrej hfine] at h
    cases h
  · intro hb
    obtain ⟨A, hA⟩ := valid_iff.1 hP.ga
    obtain ⟨R0, hR⟩ := valid_iff.1 hP.result
    obtain ⟨s', c', h, -⟩ := evaluate_ok hP hu hA hR
    exact ⟨_, C112_top_completes_counterexample hP h hb z⟩

end Opprf
end Verif
