import Verif.Model.Dme

/-!
# Trapdoor structs of the dual-mode encryption

The constructors and assignments (`src/dme/dme.cpp:47-58`, `66-76`) copy every member, which is what the structure
constructors and the copying of values do here.
-/

namespace Verif.Dme

/-- `td_messy_DDH` (`includes/dme.hpp:34-42`). -/
structure TdMessy where
  e0 : Fld
  e1 : Fld
  deriving DecidableEq, Repr

/-- `td_dec_DDH` (`includes/dme.hpp:44-52`). -/
structure TdDec where
  y : Fld
  deriving DecidableEq, Repr

/-- `td_messy_DDH::operator==` (`src/dme/dme.cpp:60-63`). -/
def TdMessy.beq (t u : TdMessy) : Bool := t.e0.beq u.e0 && t.e1.beq u.e1

/-- `td_dec_DDH::operator==` (`src/dme/dme.cpp:78-81`). -/
def TdDec.beq (t u : TdDec) : Bool := t.y.beq u.y

end Verif.Dme
