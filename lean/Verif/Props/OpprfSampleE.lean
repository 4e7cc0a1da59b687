import Verif.Props.OpprfSample
import Verif.Props.OpprfPrivacy

/-!
# A concrete server that reads a bit of the client's input

It shows that the hypotheses of `C69_abort_counterexample` can be met.
-/

namespace Verif
namespace Opprf
namespace Sample

open Dme Ot Aes EC

/-- a server whose entries open with `kk .lt` for branch 0 only -/
def srvB : Server := { srv0 with
  Si0 := List.replicate 16 ⟨ct .lt .lt, ct .lt .lt, ct .lt .lt, ga⟩, Si1 := List.replicate 16 ⟨ct .eq .eq, ct .eq .eq, ct .eq .eq, ga⟩ }

/-- the outcome of round 14 for input `x` -/
def outcome (x : Msg) : R (Bool × Option Unit) := do
  let (pk, c) ← (cl x (kk .lt) inf).start W 14 3
  let (m, _) ← srvB.runOTRound W 14 pk rc
  .ok (fineB c m (x.toNat.testBit 13), match c.finish W 14 m with | .ok _ => some () | .error _ => none)

example : outcome 0 = .ok (true, some ()) := by decide +kernel

example : outcome (2 ^ 13) = .ok (true, none) := by decide +kernel

example : Ready W.env ⟨(cl 0 (kk .lt) inf).otr, srvB.ots⟩ ∧ srvB.Si0[14]? = some ⟨ct .lt .lt, ct .lt .lt, ct .lt .lt, ga⟩ ∧
    srvB.Si1[14]? = some ⟨ct .eq .eq, ct .eq .eq, ct .eq .eq, ga⟩ ∧ W.unseal (kk .lt) (ct .lt .lt) = .ok (kk .lt) ∧
    W.unseal (kk .lt) (ct .eq .eq) = .ok 0 ∧ ∀ m ∈ [ct .lt .lt, ct .eq .eq], 0 ≤ m ∧ (m + 1) * 1024 ≤ CC.prime ∧ Encodable m := by
  refine ⟨parties.ready, rfl, rfl, by decide +kernel, by decide +kernel, ?_⟩
  intro m hm
  simp only [List.mem_cons, List.not_mem_nil, or_false] at hm
  rcases hm with rfl | rfl
  · exact ⟨by decide +kernel, by decide +kernel, ct_encodable (.inr rfl)⟩
  · exact ⟨by decide +kernel, by decide +kernel, ct_encodable (.inr rfl)⟩

end Sample
end Opprf
end Verif
