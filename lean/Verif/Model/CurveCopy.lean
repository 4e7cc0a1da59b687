import Verif.Model.Elgamal
import Verif.Model.Lifetime

/-!
# Copies of curve objects

`Curve_secp256r1` and `Curve_bn254` declare no copy constructor and no copy assignment (`includes/ecc_secp256r1.hpp`,
`includes/ecc_bn254.hpp`), so the implicit ones copy the member `G` together with the pointer it holds.  `ElGamal` holds a
curve object by value (`includes/elgamal.hpp:35`) and is copied likewise.
-/

namespace Verif

/-- the implicit copy constructor or copy assignment of a curve class (`includes/ecc_template.hpp:77-86`), and of
`ElGamal` (`includes/elgamal.hpp:32-50`): the object at `b` becomes a copy of the one at `a` -/
def Env.copyCurve (env : Env) (a b : Addr) : Env :=
  { env with heap := fun x => if x = b then env.heap a else env.heap x }

end Verif
