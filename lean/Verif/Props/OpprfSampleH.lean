import Verif.Props.OpprfRight
import Verif.Props.OpprfSampleG

/-!
# Runs of `test_opprf` for C66 and C80
-/

namespace Verif
namespace Tests

open EC Dme Ot Opprf

/-- the hypotheses of `C66_exact` -/
example : Sample.W.env.ndebug = false ∧ Parties Sample.W.env Sample.srv0 (Client.ctor (some 1) Sample.crs) ∧
    Sample.srv0.ga.inf = false ∧ FiniteCrs (Client.ctor (some 1) Sample.crs).otr.dme.crs ∧
    (Sample.drawsT 0).prep.bits.length = 16 ∧
    ∃ r, evaluate Sample.W Sample.srv0 (Client.ctor (some 1) Sample.crs) 700#16 (Sample.drawsT 0) = .ok r := by
  obtain ⟨A, hA⟩ := valid_iff.1 Sample.parties.ga
  obtain ⟨s', c', h1, -⟩ := twin_rep Sample.parties (Sample.twinKeys 0 (.inl rfl)) hA rep_infty
  exact ⟨rfl, Sample.parties, rfl, fun b => by cases b <;> exact ⟨rfl, rfl⟩, rfl, _, h1⟩

/-- draws of a run in which the three keys for bit 0 are equal and the decoy is the first mask -/
def sampleTwin : OpprfTestDraws where
  ga := 12
  g0 := 5
  h0 := 6
  g1 := 7
  h1 := 8
  rand := fun _ => 1700
  gk := 3
  iter := fun _ => ⟨(Sample.drawsT 0).prep, fun n => (((Sample.drawsT 0).rounds n).sk, ((Sample.drawsT 0).rounds n).enc),
    (Sample.drawsT 0).mask, (Sample.drawsT 0).un, 3⟩

/-- the hypotheses of `C80_exact` -/
example : (∀ j < 3, (sampleTwin.iter j).prep.bits.length = 16) ∧ ¬ CC.order ∣ sampleTwin.ga ∧
    ¬ CC.order ∣ sampleTwin.g0 ∧ ¬ CC.order ∣ sampleTwin.h0 ∧ ¬ CC.order ∣ sampleTwin.g1 ∧ ¬ CC.order ∣ sampleTwin.h1 :=
  ⟨fun _ _ => rfl, by decide +kernel, by decide +kernel, by decide +kernel, by decide +kernel, by decide +kernel⟩

theorem session_eq {W : World} {a a' : Option Addr} {crs : Crs} {g : ℤ} {ga ga' : Pt} {x : Msg} {d : Draws} {s s' : Server}
    {c : Client} {t u : Pt} (hn : newServer W a crs g ga = .ok (ga', s))
    (h1 : evaluate W s (Client.ctor a' crs) x d = .ok (s', c)) (ht : ga'.smulZ W.env CC x.toNat = .ok t)
    (hu : s'.kopprf.add W.env CC t = .ok u) : session W a a' crs g ga x d = c.result.beq W.env CC u := by
  unfold session
  rw [hn]
  simp only [R.ok_bind]
  rw [h1]
  simp only [R.ok_bind]
  rw [ht, R.ok_bind, hu, R.ok_bind]

theorem session_twin : session Sample.W (some 0) (some 1) Sample.crs 3 Sample.ga 700#16 (Sample.drawsT 0) = .ok false := by
  obtain ⟨⟨s', c'⟩, h1, hne⟩ := C66_counterexample Sample.parties rfl (by decide) (Sample.twinKeys 0 (.inl rfl)) rfl (by
    have hm : (Sample.drawsT 0).mask' = 50 := by rw [← Sample.mask_draw]; rfl
    rw [hm]
    change ¬ CC.order ∣ 77 - 50
    decide +kernel) (x := 700#16)
  obtain ⟨A, hA⟩ := valid_iff.1 Sample.parties.ga
  obtain ⟨s'', c'', h1', h2, h3, h4⟩ := twin_rep Sample.parties (Sample.twinKeys 0 (.inl rfl)) hA
    (R0 := 0) (x := 700#16) rep_infty
  rw [h1] at h1'
  obtain ⟨rfl, rfl⟩ := Prod.mk.inj (Except.ok.inj h1')
  have hA : Rep Sample.W.env Sample.srv0.ga A := hA
  obtain ⟨t, t1, t2⟩ := smulI_rep hA ((700#16).toNat : ℤ)
  obtain ⟨u, u1, u2⟩ := add_rep h2 t2
  have hn : newServer Sample.W (some 0) Sample.crs 3 Sample.ga = .ok (Sample.ga, Sample.srv0) := by
    unfold newServer
    exact Sample.ctor_eq
  have hg : Sample.srv0.ga = Sample.ga := rfl
  have t1' : Sample.ga.smulZ Sample.W.env CC ((700#16).toNat : ℤ) = .ok t := by rw [← hg]; exact t1
  rw [session_eq hn h1 t1' u1, rep_beq h4 u2]
  refine congrArg _ (decide_eq_false ?_)
  intro he
  refine hne ?_
  dsimp only
  rw [t1, R.ok_bind, u1]
  exact eqP_of_rep ⟨_, rfl, h4⟩ ⟨_, rfl, u2⟩ he

/-- `test_opprf` can report a failure: with three equal keys for bit 0 and the decoy in front it exits with status -1. -/
theorem C80_failure_counterexample :
    testOpprf Sample.W env2 (some 0) (some 0) (some 0) (some 1) sampleTwin = .ok (-1) := by
  obtain ⟨ga, h1, d, h2, h⟩ := C80_sessions (W := Sample.W) Sample.liveGen0 Sample.liveGen0 Sample.liveGen0
    Sample.liveGen1 sampleTwin
  have hga : ga = Sample.ga := by
    have h1 : Curve.getRandomPoint env2 CC (some 0) 12 = .ok ga := h1
    rw [sampleOpprf_ga] at h1
    exact (Except.ok.inj h1).symm
  have hd : d.crs = Sample.crs := by
    have h2 : ctorRandom env2 (some 0) 5 6 7 8 = .ok d := h2
    have h3 := sampleOpprf_crs
    rw [h2, R.ok_bind] at h3
    exact Except.ok.inj h3
  have hx : ∀ j, sampleTwin.x j = 700#16 := fun _ =>
    (by decide : BitVec.ofInt 16 ((1700 : ℤ).tmod 1000) = 700#16)
  have hk : ∀ j, sampleTwin.key j = 3 := fun j => by cases j <;> rfl
  have hi : ∀ j, (sampleTwin.iter j).draws = Sample.drawsT 0 := fun j => rfl
  rw [hd, hga] at h
  simp only [hx, hk, hi, session_twin, R.ok_bind] at h
  exact h

end Tests
end Verif
