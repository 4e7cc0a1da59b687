import Verif.Model.Ecc

/-!
# Observing results through the library's own comparison operators
-/

namespace Verif

/-- `r == s` for two results of field expressions: both defined and `operator==` is true. -/
def EqR (r s : R Fld) : Prop := ∃ x y, r = .ok x ∧ s = .ok y ∧ Fld.beq x y = true

/-- `r == s` for two results of point expressions: both defined and `operator==` is true. -/
def EqP (env : Env) (C : CurveClass) (r s : R Pt) : Prop :=
  ∃ x y, r = .ok x ∧ s = .ok y ∧ Pt.beq env C x y = .ok true

end Verif
