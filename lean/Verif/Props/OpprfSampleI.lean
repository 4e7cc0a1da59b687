import Verif.Props.OpprfWalk
import Verif.Props.OpprfSampleA

/-!
# A walk through the tables for C100
-/

namespace Verif
namespace Opprf
namespace Sample

open EC Dme Ot

/-- the draws of the sample with another draw for the client's last point -/
def drawsU (u : ℤ) : Draws := { draws with un := u }

/-- the hypotheses of `C100_completes` -/
example (u : ℤ) : Parties W.env srv0 (Client.ctor (some 1) crs) ∧ (drawsU u).prep.bits.length = 16 ∧
    srv0.prepare W (drawsU u).prep = .ok srv1 ∧
    FineRounds W (drawsU u).rounds 700#16 16 srv1 ((Client.ctor (some 1) crs).setMessage 700#16) :=
  ⟨parties, rfl, prepare_eq, a_fine _⟩

/-- a walk that ends with the key for "less" -/
theorem sample_walk : (∃ κ, Walk W srv1 700#16 draws.rounds κ ∧ κ 0 = kk .lt) ∧
    ∃ m e, srv1.sendEncryptedMasks W draws.mask = .ok m ∧ FirstOpened W (kk .lt) m.toList e := by
  obtain ⟨h1, h2, -⟩ := (C100_completes parties rfl prepare_eq (a_fine _) (kk .lt)).1
    (C52_walk_partial parties (undisturbed (by decide) _ (a_fine _)))
  exact ⟨h1, h2⟩

/-- so for every other draw of the client's last point the evaluation completes with the same key, but not for 0 -/
theorem sample_ends {u : ℤ} : (Ends (evaluate W srv0 (Client.ctor (some 1) crs) 700#16 (drawsU u)) fun r => r.2.key = kk .lt) ↔
    ¬ CC.order ∣ u := by
  have hf : FineRounds W (drawsU u).rounds 700#16 16 srv1 ((Client.ctor (some 1) crs).setMessage 700#16) := a_fine _
  rw [C100_completes (d := drawsU u) parties rfl prepare_eq hf (kk .lt)]
  exact ⟨fun h => h.2.2, fun h => ⟨sample_walk.1, sample_walk.2, h⟩⟩

/-- the hypotheses of `C100_debug` and `C100_deterministic`: two evaluations with different draws -/
example : W.env.ndebug = false ∧ srv0.ga.inf = false ∧ FiniteCrs (Client.ctor (some 1) crs).otr.dme.crs ∧
    (drawsU 4).un ≠ (drawsU 5).un ∧
    (∃ r, evaluate W srv0 (Client.ctor (some 1) crs) 700#16 (drawsU 4) = .ok r) ∧
    ∃ r, evaluate W srv0 (Client.ctor (some 1) crs) 700#16 (drawsU 5) = .ok r := by
  obtain ⟨r, h, -⟩ := sample_ends.2 (show ¬ CC.order ∣ 4 by decide +kernel)
  obtain ⟨r', h', -⟩ := sample_ends.2 (show ¬ CC.order ∣ 5 by decide +kernel)
  exact ⟨rfl, rfl, fun b => by cases b <;> exact ⟨rfl, rfl⟩, by decide, ⟨r, h⟩, ⟨r', h'⟩⟩

end Sample
end Opprf
end Verif
