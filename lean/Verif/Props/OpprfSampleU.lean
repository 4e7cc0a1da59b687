import Verif.Props.OpprfSampleT

/-!
# The hypotheses of C114 are met
-/

namespace Verif
namespace Opprf
namespace Sample
namespace Trap

open Dme Ot Aes EC

theorem undisturbedT {x : Msg} (h : sym x 1000#16 15 = .eq) (hf : FineRounds W (rdT x) x 16 srvT1 (clTx x 0 inf)) :
    Undisturbed W srvT0 clT x ⟨draws.prep, rdT x, draws.mask, 3⟩ := by
  refine ⟨⟨fun n => by simp [W, pfSlack], by unfold IvReadable; decide, by simp [draws], ?_, legible h, ?_, maskLegible _, show ¬ CC.order ∣ (3 : ℤ) by decide⟩,
    pathOpens x, maskOpens _⟩
  · intro sy j hj
    exact (key_eq sy hj).symm ▸ kk_range sy
  · intro s' hs
    obtain rfl : srvT1 = s' := Except.ok.inj (prepareT.symm.trans hs)
    exact hf

theorem partiesT : Parties env2 srvT0 clT := by
  obtain ⟨d, h1, h2, h3, h4⟩ := ctorDec_rep (env := env2) liveGen1 ⟨2, 5, 3⟩
  obtain rfl : d = dT := Except.ok.inj (h1.symm.trans dT_eq)
  have hon : OnCurve CC dT.crs.g0 ∧ OnCurve CC dT.crs.g1 ∧ OnCurve CC dT.crs.h0 ∧ OnCurve CC dT.crs.h1 := by
    refine ⟨?_, ?_, ?_, ?_⟩
    all_goals exact onCurve_of _ rfl (by decide +kernel) (by decide +kernel) (by decide +kernel)
  obtain ⟨-, c1, c2, -⟩ := C32_transport env2 liveGen0.live hon
  exact ⟨⟨liveGen1.live, liveGen0.live, h4.valid, c1, c2⟩, parties.server, parties.client, parties.ga, parties.result, parties.noKeys,
      parties.si0, parties.si1⟩

/-- the hypotheses of C114 are met by the inputs 700 and 40 -/
example : Ends (harvest W srvT0 dT draws.prep (fun _ => 6) (fun _ => rc) draws.mask) fun r =>
    Ends (offline W 700 r.2.1 r.2.2 3 clT) fun p => Ends (offline W 40 r.2.1 r.2.2 3 clT) fun q =>
      EqP W.env CC (combine W.env p.result q.result (-2)) (do let v ← ga.smulZ W.env CC 2020; r.1.kopprf.add W.env CC v) := by
  obtain ⟨r, h1, p, h2, q, h3, -, -, h4⟩ := C114_counterexample (W := W) (k := ⟨2, 5, 3⟩) liveGen1 (by decide) (by decide) (by decide) dT_eq
    (c := clT) rfl rfl (t := fun _ => 6) (u := fun _ => 3) (fun _ => by decide) (enc := fun _ => rc) (mk := draws.mask) partiesT
    (x := 700#16) (y := 40#16) (by decide) (by decide) (by decide) 3 (undisturbedT (by decide) (p_fine _)) (undisturbedT (by decide) (r_fine _))
  exact ⟨r, h1, p, h2, q, h3, (h4 2020).2 (-2) (by decide)⟩

end Trap
end Sample
end Opprf
end Verif
