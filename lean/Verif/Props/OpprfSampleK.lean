import Verif.Props.OpprfSampleI
import Verif.Props.OpprfTamper

/-!
# The sample evaluation with an altered answer

It shows that the hypotheses of `C111_counterexample` and `C111_debug_counterexample` can be met.
-/

namespace Verif
namespace Opprf
namespace Sample

open Dme Ot Aes EC

/-- in the sample evaluation all points but one can be added to the answer of round 9 -/
example : Ends (evaluate W srv0 (Client.ctor (some 1) crs) 700#16 (drawsU 4)) fun r => ∃ E : Pt, Valid W.env CC E ∧
    ∀ D, Valid W.env CC D → ¬ SamePoint D E →
      Ends (tapEvaluate W (addAt W.env 9 D) srv0 (Client.ctor (some 1) crs) 700#16 (drawsU 4)) fun r' =>
        r'.1 = r.1 ∧ r'.2.key = r.2.key ∧ EqP W.env CC (.ok r'.2.result) (r.2.result.add W.env CC D) := by
  obtain ⟨⟨s', c'⟩, h, -⟩ := sample_ends.2 (show ¬ CC.order ∣ 4 by decide +kernel)
  obtain ⟨E, h1, h2⟩ := C111_counterexample parties rfl (infty_valid W.env CC) (fun s1 hs => by
    obtain rfl : srv1 = s1 := Except.ok.inj (prepare_eq.symm.trans hs)
    exact finePoints_of_fine (a_fine _)) h (t := 9) (by norm_num) (by norm_num)
  refine ⟨_, h, E, h1, fun D hD hne => ?_⟩
  obtain ⟨r', h3, h4, h5, h6⟩ := h2 D hD hne
  exact ⟨r', h3, h4, by rw [h5], h6⟩

/-- the last round of the sample evaluation in the debug build -/
example : ∃ s' c', evaluate W srv0 (Client.ctor (some 1) crs) 700#16 (drawsU 4) = .ok (s', c') ∧
    ∃ E : Pt, Valid W.env CC E ∧ ∀ D, Valid W.env CC D → ¬ SamePoint D E →
      Ends (tapEvaluate W (addAt W.env 1 D) srv0 (Client.ctor (some 1) crs) 700#16 (drawsU 4)) fun r =>
        r.1 = s' ∧ r.2 = { c' with result := r.2.result } ∧
          EqP W.env CC (.ok r.2.result) (c'.result.add W.env CC D) := by
  obtain ⟨⟨s', c'⟩, h, -⟩ := sample_ends.2 (show ¬ CC.order ∣ 4 by decide +kernel)
  exact ⟨s', c', h, C111_debug_counterexample rfl parties rfl (fun b => by cases b <;> exact ⟨rfl, rfl⟩) rfl
    (infty_valid W.env CC) h (by norm_num) (by norm_num)⟩

end Sample
end Opprf
end Verif
