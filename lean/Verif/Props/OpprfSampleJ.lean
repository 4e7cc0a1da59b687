import Verif.Props.OpprfSampleA
import Verif.Props.OpprfSampleD
import Verif.Props.OpprfAny

/-!
# A completed evaluation in a release build whose result is no point of the curve

The sample evaluation of `OpprfSampleA` (threshold 1000, input 700) in a release build, but in round 1 the server draws
twice 0 for the encryption of the point on the client's branch.
-/

namespace Verif
namespace Opprf
namespace Sample

open Dme Ot Aes EC

def drawsZ : Draws := { draws with
  rounds := fun i => if i = 1 then ⟨3, { rc with prf0 := ⟨0, 0⟩ }⟩ else ⟨3, rc⟩ }

theorem ctorZ : (do
    let s ← Server.ctor Wr.env (some 0) 1000#16 crs 3
    s.setSecret Wr.env ga) = .ok (ga, srv0) := by decide +kernel

theorem partiesZ : Parties Wr.env srv0 (Client.ctor (some 1) crs) := by
  obtain ⟨r, h1, h2, -⟩ := parties_of_ctor Wr.env ⟨0, ⟨0⟩, rfl, rfl, ⟨0⟩, rfl⟩ ⟨1, ⟨1⟩, rfl, rfl, ⟨1⟩, rfl⟩ (crs := crs)
    crs_on 1000#16 3 (ga := ga) (onCurve_of _ rfl (by decide +kernel) (by decide +kernel) (by decide +kernel))
  rw [ctorZ] at h1
  rw [← Except.ok.inj h1] at h2
  exact h2

theorem prepareZ : srv0.prepare Wr drawsZ.prep = .ok srv1 := by decide +kernel

/-- one round with the prepared server -/
def playZ (c : Client) (n : ℕ) : R Client := do
  let (pk, c) ← c.start Wr (n + 1 : ℕ) (drawsZ.rounds (n + 1)).sk
  let (m, _) ← srv1.runOTRound Wr (n + 1 : ℕ) pk (drawsZ.rounds (n + 1)).enc
  c.finish Wr (n + 1 : ℕ) m

theorem runZ {c c1 : Client} {n : ℕ} (h : playZ c n = .ok c1) (v : List Ctxt) :
    ∃ v', runRounds Wr drawsZ.rounds (n + 1) { srv1 with ots := { srv1.ots with c := v } } c =
      runRounds Wr drawsZ.rounds n { srv1 with ots := { srv1.ots with c := v' } } c1 := by
  obtain ⟨⟨pk, c2⟩, h1, h⟩ := R.bind_eq_ok.1 h
  obtain ⟨⟨m, s'⟩, h2, h⟩ := R.bind_eq_ok.1 h
  have h : c2.finish Wr (n + 1 : ℕ) m = .ok c1 := h
  obtain ⟨v', hv⟩ := runOTRound_inv h2
  refine ⟨v', ?_⟩
  rw [runRounds, h1, R.ok_bind]
  simp only
  rw [runOTRound_frame (W := Wr) srv1 (ots := { srv1.ots with c := v }) rfl, h2, R.ok_bind]
  simp only
  rw [h, R.ok_bind, hv]

/-- the client during the evaluation -/
def clz (key : ℤ) (result : Pt) (b : Branch) : Client := ⟨some 1, ⟨dme 1, fn 3, some b⟩, some 700, result, key⟩

def apz : Pt := ⟨fp 74105959770700080843056182065266874273093218470815153088915078046169069046209, fp
  65197141746264228516688433741242164351310967999527989163172069100289459784777, false, some 1⟩

theorem z_15 : playZ (cl 700#16 0 inf) 15 = .ok (clz (kk .eq) ap15 .b0) := by decide +kernel

theorem z_14 : playZ (clz (kk .eq) ap15 .b0) 14 = .ok (clz (kk .eq) ap14 .b0) := by decide +kernel

theorem z_13 : playZ (clz (kk .eq) ap14 .b0) 13 = .ok (clz (kk .eq) ap13 .b0) := by decide +kernel

theorem z_12 : playZ (clz (kk .eq) ap13 .b0) 12 = .ok (clz (kk .eq) ap12 .b0) := by decide +kernel

theorem z_11 : playZ (clz (kk .eq) ap12 .b0) 11 = .ok (clz (kk .eq) ap11 .b0) := by decide +kernel

theorem z_10 : playZ (clz (kk .eq) ap11 .b0) 10 = .ok (clz (kk .eq) ap10 .b0) := by decide +kernel

theorem z_9 : playZ (clz (kk .eq) ap10 .b0) 9 = .ok (clz (kk .eq) ap9 .b1) := by decide +kernel

theorem z_8 : playZ (clz (kk .eq) ap9 .b1) 8 = .ok (clz (kk .lt) ap8 .b0) := by decide +kernel

theorem z_7 : playZ (clz (kk .lt) ap8 .b0) 7 = .ok (clz (kk .lt) ap7 .b1) := by decide +kernel

theorem z_6 : playZ (clz (kk .lt) ap7 .b1) 6 = .ok (clz (kk .lt) ap6 .b0) := by decide +kernel

theorem z_5 : playZ (clz (kk .lt) ap6 .b0) 5 = .ok (clz (kk .lt) ap5 .b1) := by decide +kernel

theorem z_4 : playZ (clz (kk .lt) ap5 .b1) 4 = .ok (clz (kk .lt) ap4 .b1) := by decide +kernel

theorem z_3 : playZ (clz (kk .lt) ap4 .b1) 3 = .ok (clz (kk .lt) ap3 .b1) := by decide +kernel

theorem z_2 : playZ (clz (kk .lt) ap3 .b1) 2 = .ok (clz (kk .lt) ap2 .b1) := by decide +kernel

theorem z_1 : playZ (clz (kk .lt) ap2 .b1) 1 = .ok (clz (kk .lt) ap1 .b0) := by decide +kernel

theorem z_0 : playZ (clz (kk .lt) ap1 .b0) 0 = .ok (clz (kk .lt) apz .b0) := by decide +kernel

theorem lastZ : (do
    let m ← srv1.sendEncryptedMasks Wr drawsZ.mask
    let c ← (clz (kk .lt) apz .b0).unmaskResult Wr m drawsZ.un
    c.result.isValid Wr.env CC) = .ok false := by decide +kernel

theorem evalZ : ∃ s' c', evaluate Wr srv0 (Client.ctor (some 1) crs) 700#16 drawsZ = .ok (s', c') ∧
    ¬ Valid Wr.env CC c'.result := by
  obtain ⟨m, h1, h⟩ := R.bind_eq_ok.1 lastZ
  obtain ⟨c', h2, h3⟩ := R.bind_eq_ok.1 h
  obtain ⟨v15, e15⟩ := runZ z_15 []
  obtain ⟨v14, e14⟩ := runZ z_14 v15
  obtain ⟨v13, e13⟩ := runZ z_13 v14
  obtain ⟨v12, e12⟩ := runZ z_12 v13
  obtain ⟨v11, e11⟩ := runZ z_11 v12
  obtain ⟨v10, e10⟩ := runZ z_10 v11
  obtain ⟨v9, e9⟩ := runZ z_9 v10
  obtain ⟨v8, e8⟩ := runZ z_8 v9
  obtain ⟨v7, e7⟩ := runZ z_7 v8
  obtain ⟨v6, e6⟩ := runZ z_6 v7
  obtain ⟨v5, e5⟩ := runZ z_5 v6
  obtain ⟨v4, e4⟩ := runZ z_4 v5
  obtain ⟨v3, e3⟩ := runZ z_3 v4
  obtain ⟨v2, e2⟩ := runZ z_2 v3
  obtain ⟨v1, e1⟩ := runZ z_1 v2
  obtain ⟨v0, e0⟩ := runZ z_0 v1
  have hr : runRounds Wr drawsZ.rounds 16 srv1 (cl 700#16 0 inf) =
      .ok ({ srv1 with ots := { srv1.ots with c := v0 } }, clz (kk .lt) apz .b0) := by
    have : srv1 = { srv1 with ots := { srv1.ots with c := [] } } := rfl
    rw [this, e15, e14, e13, e12, e11, e10, e9, e8, e7, e6, e5, e4, e3, e2, e1, e0]
    rfl
  refine ⟨{ srv1 with ots := { srv1.ots with c := v0 } }, c', ?_, ?_⟩
  · unfold evaluate
    rw [client_eq]
    simp only
    rw [prepareZ, R.ok_bind, hr, R.ok_bind]
    simp only
    rw [show ({ srv1 with ots := { srv1.ots with c := v0 } } : Server).sendEncryptedMasks Wr drawsZ.mask =
      srv1.sendEncryptedMasks Wr drawsZ.mask from rfl, h1, R.ok_bind, h2, R.ok_bind]
  · intro hv
    rcases hv with hv | hv
    · rw [(C08_special Wr.env CC c'.result).1 hv.flag] at h3
      exact absurd h3 (by decide)
    · obtain ⟨b, g1, g2⟩ := C08_isValid_object Wr.env (C := CC) (.inr rfl) hv.x hv.y hv.live
      rw [h3] at g1
      rw [← Except.ok.inj g1] at g2
      exact absurd (g2.2 (.inr hv.on)) (by decide)

end Sample

open Dme Ot Aes EC

/-- C95 is false in release builds: if the server draws twice 0 for the encryption of a point on the client's branch (all
else being as usual), the evaluation completes and its result is not a point of the curve, so no sum of points. -/
theorem C95_release_counterexample : ∃ (W : World) (s s' : Server) (c c' : Client) (x : Msg) (d : Draws),
    W.env.ndebug = true ∧ Parties W.env s c ∧ s.ga.inf = false ∧ c.result = Pt.infty CC ∧ d.prep.bits.length = 16 ∧
    evaluate W s c x d = .ok (s', c') ∧ ¬ Valid W.env CC c'.result ∧
    ∀ base P, Valid W.env CC base → Valid W.env CC P → base.add W.env CC P ≠ .ok c'.result := by
  obtain ⟨s', c', h1, hv⟩ := Sample.evalZ
  refine ⟨Sample.Wr, Sample.srv0, s', _, c', 700#16, Sample.drawsZ, rfl, Sample.partiesZ, rfl, rfl, rfl, h1, hv, ?_⟩
  intro base P hb hP h
  obtain ⟨A, hA⟩ := valid_iff.1 hb
  obtain ⟨B, hB⟩ := valid_iff.1 hP
  obtain ⟨S, h3, h4⟩ := add_rep hA hB
  rw [h3] at h
  rw [← Except.ok.inj h] at hv
  exact hv h4.valid

end Opprf
end Verif
