import Verif.Props.OpprfView
import Verif.Props.OpprfSample

/-!
# C117: a client that asks for one round twice
-/

namespace Verif
namespace Opprf

open Dme Ot Aes EC

/-- a request of a client that only uses an `OTrecv`: `selectMsg(b)`, then the server's `runOTRound` with the key it gives; the result is
the state of the receiver, the answer and the state of the server -/
def ask (W : World) (s : Server) (rc : Recv) (round : ℤ) (b : Branch) (coin : ℤ) (k : RoundCoins) : R (Recv × OtCtxts × Server) := do
  let (pk, rc) ← selectMsg W.env rc b coin
  let (m, s) ← s.runOTRound W round pk k
  .ok (rc, m, s)

/-- what the client computes from an answer for bit 0 and one for bit 1 of round `j + 1`: `(p1 + p0 * (-1)) * (1 / 2^j)` for the two points
`p0`, `p1` that `decryptMsg` gives -/
def steal (env : Env) (j : ℕ) (r0 : Recv) (m0 : OtCtxts) (r1 : Recv) (m1 : OtCtxts) : R Pt := do
  let p0 ← decryptMsg env r0 m0.cprf
  let p1 ← decryptMsg env r1 m1.cprf
  let n ← p0.smulZ env CC (-1)
  let d ← p1.add env CC n
  let q ← (Fld.mk' CC.fn 1).div env CC.fn (Fld.mk' CC.fn (2 ^ j : ℕ))
  d.smul env CC q

theorem ask_rep {W : World} {s : Server} {K : Ordering → ℕ → ℤ} {A B Q : Grp CC} {o : ℕ → F} (hp : Prepared W s K A B Q o)
    {rc : Recv} (hR : Ready W.env ⟨rc, s.ots⟩) {j : ℕ} (hj : j < 16) (b : Bool) (coin : ℤ) (k : RoundCoins) :
    ∃ rc' m ots, ask W s rc (j + 1 : ℕ) (branch b) coin k = .ok (rc', m, { s with ots := ots }) ∧ ots.dme = s.ots.dme ∧
      (NonDegenerate rc' m.cprf (branch b) → ∃ P, decryptMsg W.env rc' m.cprf = .ok P ∧
        Rep W.env P (((if b then 2 ^ j else 0 : ℕ) : F) • A + o j • B)) := by
  obtain ⟨pk, rc', h1, -, hpt, hz⟩ := ot_round hR (branch b) coin
  rcases Nat.lt_or_ge j 15 with hj' | hj'
  · obtain ⟨e0, e1, t0, t1, t2⟩ := hp.tab j hj'
    obtain ⟨c0, f0, -, -⟩ := hz s.ots rfl e0.k_lt e1.k_lt k.lt0 k.lt1
    obtain ⟨c1, f1, -, -⟩ := hz { s.ots with c := c0 } rfl e0.k_eq e1.k_eq k.eq0 k.eq1
    obtain ⟨c2, f2, -, -⟩ := hz { s.ots with c := c1 } rfl e0.k_gt e1.k_gt k.gt0 k.gt1
    obtain ⟨p, f3, -, d3⟩ := hpt { s.ots with c := c2 } rfl e0.prf e1.prf _ _ (t2 false).2 (t2 true).2 k.prf0 k.prf1
    refine ⟨rc', ⟨Arr3.shuffle ⟨c0, c1, c2⟩ k.sh1 k.sh2, p⟩, { s.ots with c := p }, ?_, rfl, fun hn => ?_⟩
    · have a0 : atShort s.Si0 ((j + 1 : ℕ) : ℤ) = .ok e0 := by
        rw [atShort, if_neg (by omega), Int.toNat_natCast, at'_ok]; exact t0
      have a1 : atShort s.Si1 ((j + 1 : ℕ) : ℤ) = .ok e1 := by
        rw [atShort, if_neg (by omega), Int.toNat_natCast, at'_ok]; exact t1
      refine R.bind_eq_ok.2 ⟨_, h1, R.bind_eq_ok.2 ⟨(⟨Arr3.shuffle ⟨c0, c1, c2⟩ k.sh1 k.sh2, p⟩, { s with ots := { s.ots with c := p } }), ?_, rfl⟩⟩
      unfold Server.runOTRound
      rw [if_neg (by omega)]
      simp only [a0, a1, R.ok_bind, f0, f1, f2, f3]
    · obtain ⟨P, hP1, hP2⟩ := d3 hn
      rw [pick_branch] at hP2
      refine ⟨P, hP1, ?_⟩
      cases b <;> exact hP2
  · obtain rfl : j = 15 := by omega
    obtain ⟨c0, f0, -, -⟩ := hz s.ots rfl s.Sl0.k s.Sl1.k k.lt0 k.lt1
    obtain ⟨p, f3, -, d3⟩ := hpt { s.ots with c := c0 } rfl s.Sl0.prf s.Sl1.prf _ _ (hp.topPrf false) (hp.topPrf true) k.prf0 k.prf1
    refine ⟨rc', ⟨⟨c0, [], []⟩, p⟩, { s.ots with c := p }, ?_, rfl, fun hn => ?_⟩
    · refine R.bind_eq_ok.2 ⟨_, h1, R.bind_eq_ok.2 ⟨(⟨⟨c0, [], []⟩, p⟩, { s with ots := { s.ots with c := p } }), ?_, rfl⟩⟩
      unfold Server.runOTRound
      rw [if_pos (by norm_num)]
      simp only [R.ok_bind, f0, f3]
    · obtain ⟨P, hP1, hP2⟩ := d3 hn
      rw [pick_branch] at hP2
      refine ⟨P, hP1, ?_⟩
      cases b <;> exact hP2

/-- C117 is false: whoever asks for one round of a prepared server twice, once with each bit, computes `ga` from the two answers.  This holds for
each of the 16 rounds, whatever the threshold, the tables and the draws (as long as no infinity gets into the two ciphertexts that are opened);
no evaluation is completed and no mask is asked for. -/
theorem C117_counterexample {W : World} {s : Server} (hs : Fresh W.env s) {k : PrepCoins} (hb : k.bits.length = 16) (hk : Sealable W k)
    {rc : Recv} (hR : Ready W.env ⟨rc, s.ots⟩) {j : ℕ} (hj : j < 16) (c0 c1 : ℤ) (e0 e1 : RoundCoins) :
    Ends (s.prepare W k) fun t => Ends (ask W t rc (j + 1 : ℕ) .b0 c0 e0) fun a =>
      Ends (ask W a.2.2 rc (j + 1 : ℕ) .b1 c1 e1) fun b =>
        NonDegenerate a.1 a.2.1.cprf .b0 → NonDegenerate b.1 b.2.1.cprf .b1 →
          EqP W.env CC (steal W.env j a.1 a.2.1 b.1 b.2.1) (.ok s.ga) := by
  obtain ⟨A, hA⟩ := valid_iff.1 hs.ga
  obtain ⟨n1, n2, n3, n4⟩ := hs.noKeys
  obtain ⟨t, p1, p2, p3, -, -, -⟩ := prepare_ok (W := W) hs.curve hA n1 n2 n3 n4 hs.si0 hs.si1 k.kopprf k.r
    (fun j => k.bits.getD j ⟨0, 0, 0, 0⟩) hk
  rw [← range_getD hb] at p1
  rw [← p3] at hR
  obtain ⟨r0, m0, ots, a1, a2, a3⟩ := ask_rep p2 hR hj false c0 e0
  obtain ⟨r1, m1, ots', b1, -, b3⟩ := ask_rep (p2.ots ots) (Ready.of_dme hR rfl a2) hj true c1 e1
  refine ⟨t, p1, _, a1, _, b1, fun h0 h1 => ?_⟩
  obtain ⟨P0, i1, i2⟩ := a3 h0
  obtain ⟨P1, j1, j2⟩ := b3 h1
  obtain ⟨z, hz⟩ : ∃ z : ℤ, z = -1 := ⟨_, rfl⟩
  obtain ⟨n, l1, l2⟩ := smulI_rep i2 z
  obtain ⟨d, o1, o2⟩ := add_rep j2 l2
  have hne : (((2 ^ j : ℕ) : ℤ) : F) ≠ 0 := by
    rw [Ne, ZMod.intCast_zmod_eq_zero_iff_dvd, Int.natCast_dvd_natCast]
    intro hd
    have h5 := Nat.le_of_dvd (by positivity) hd
    have h6 : (2 : ℕ) ^ j ≤ 2 ^ 16 := Nat.pow_le_pow_right (by norm_num) hj.le
    exact absurd (h5.trans h6) (by decide)
  obtain ⟨q, q1, q2⟩ := smulF_rep o2 (((1 : ℤ) : F) / (((2 ^ j : ℕ) : ℤ) : F))
  refine eqP_of_rep ⟨q, ?_, q2⟩ ⟨_, rfl, hA⟩ ?_
  · subst hz
    simp only [steal, i1, j1, l1, o1, R.ok_bind, Fld.mk'_eq, Fld.div_ofZ W.env _ hne, q1]
  · subst hz
    rw [Int.cast_natCast] at hne
    simp only [if_true, Bool.false_eq_true, if_false, Nat.cast_zero, zero_smul, zero_add, smul_smul, ← add_smul]
    rw [show ((2 ^ j : ℕ) : F) • A + _ + _ = ((2 ^ j : ℕ) : F) • A by push_cast; module, smul_smul]
    rw [Int.cast_one, Int.cast_natCast, one_div, inv_mul_cancel₀ hne, one_smulG]

namespace Sample

theorem sealable : Sealable W draws.prep := by
  intro i hi sy sy'
  have h1 := key_eq sy (j := i + 1) (by omega)
  have h2 := key_eq sy' (j := i) (by omega)
  rw [show (draws.prep.bits.getD (i + 1) ⟨0, 0, 0, 0⟩).key sy = kk sy from h1,
    show (draws.prep.bits.getD i ⟨0, 0, 0, 0⟩).key sy' = kk sy' from h2]
  have h : (W.seal (kk sy) (kk sy')).toOption.isSome = true := by cases sy <;> cases sy' <;> decide +kernel
  rcases hc : W.seal (kk sy) (kk sy') with e | c
  · rw [hc] at h
    cases h
  · exact ⟨c, rfl⟩

theorem fresh : Fresh W.env srv0 := ⟨parties.server, parties.ga, parties.noKeys, parties.si0, parties.si1⟩

/-- the hypotheses of C117 are met, and the points of two answers of round 1 differ by `ga` -/
example : (Ends (srv0.prepare W draws.prep) fun t => Ends (ask W t ⟨dme 1, fn 0, none⟩ (9 + 1 : ℕ) .b0 3 rc) fun a =>
    Ends (ask W a.2.2 ⟨dme 1, fn 0, none⟩ (9 + 1 : ℕ) .b1 5 rc) fun b =>
      NonDegenerate a.1 a.2.1.cprf .b0 → NonDegenerate b.1 b.2.1.cprf .b1 →
        EqP W.env CC (steal W.env 9 a.1 a.2.1 b.1 b.2.1) (.ok ga)) ∧ (do
    let a ← ask W srv1 ⟨dme 1, fn 0, none⟩ 1 .b0 3 rc
    let b ← ask W a.2.2 ⟨dme 1, fn 0, none⟩ 1 .b1 5 rc
    let p0 ← decryptMsg W.env a.1 a.2.1.cprf
    let p1 ← decryptMsg W.env b.1 b.2.1.cprf
    let d ← p0.add W.env CC ga
    p1.beq W.env CC d) = .ok true :=
  ⟨C117_counterexample fresh (by decide) sealable parties.ready (by decide) 3 5 rc rc, by decide +kernel⟩

end Sample

end Opprf
end Verif
