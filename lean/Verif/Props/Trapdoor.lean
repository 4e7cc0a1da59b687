import Verif.Model.Trapdoor
import Verif.Props.Dme

/-!
# C32: comparing trapdoors
-/

namespace Verif.Dme

theorem fld_beq_iff (a b : Fld) : a.beq b = true ↔ a = b := by
  simp only [Fld.beq, Bool.and_eq_true, decide_eq_true_eq]
  exact ⟨fun h => by cases ha : a; cases hb : b; simp_all, fun h => by simp [h]⟩

/-- C32: `==` on the trapdoors of either mode is true exactly when all components are equal. -/
theorem C32_trapdoor_eq (t u : TdMessy) (v w : TdDec) :
    (t.beq u = true ↔ t.e0 = u.e0 ∧ t.e1 = u.e1) ∧ (v.beq w = true ↔ v.y = w.y) := by
  simp only [TdMessy.beq, TdDec.beq, Bool.and_eq_true, fld_beq_iff, and_self]

/-- trapdoors that differ in the second component only; the same number in another field -/
example : TdMessy.beq ⟨⟨5, CC.fn⟩, ⟨7, CC.fn⟩⟩ ⟨⟨5, CC.fn⟩, ⟨8, CC.fn⟩⟩ = false ∧
    TdMessy.beq ⟨⟨5, CC.fn⟩, ⟨7, CC.fn⟩⟩ ⟨⟨5, CC.fn⟩, ⟨7, CC.fn⟩⟩ = true ∧
    TdDec.beq ⟨⟨5, CC.fn⟩⟩ ⟨⟨5, CC.fp⟩⟩ = false := by decide

end Verif.Dme
