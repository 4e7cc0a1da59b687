import Verif.Model.Process
import Verif.Model.Opprf

/-!
# The draws of an OPPRF server

The keys come from a second static generator, `utils::rand` (`src/utilities/utilities.cpp:8`), which is initialised with
`gmp_randinit_default` too and never seeded.  The points and scalars come from the generator of the curve class
(`Model/Process`).
-/

namespace Verif
namespace Proc

open Dme Opprf

/-- `utils::getRandom(128)` (`src/utilities/utilities.cpp:10-13`): `get_z_bits(128)` returns an integer below 2^128 -/
def Gen.key (U : Gen) (u : U.State) : Int × U.State := U.below u (2 ^ 128)

/-- the draws of the first loop of `prepareKeysAndInputs` (`src/opprf/opprf.cpp:37-43`): three keys and a scalar in each
iteration -/
def bitDraws (G U : Gen) : Nat → G.State → U.State → List BitCoins × G.State × U.State
  | 0, g, u => ([], g, u)
  | n + 1, g, u =>
    let (lt, u) := U.key u
    let (eq, u) := U.key u
    let (gt, u) := U.key u
    let (ok, g) := G.draw g
    let (bs, g, u) := bitDraws G U n g u
    (⟨lt, eq, gt, ok⟩ :: bs, g, u)

/-- the draws of `prepareKeysAndInputs` (`src/opprf/opprf.cpp:35-43`) -/
def prepDraws (G U : Gen) (g : G.State) (u : U.State) : PrepCoins × G.State × U.State :=
  let (kopprf, g) := G.draw g
  let (r, g) := G.draw g
  let (bs, g, u) := bitDraws G U 16 g u
  (⟨kopprf, r, bs⟩, g, u)

/-- `OPPRFserver::prepareKeysAndInputs()` (`src/opprf/opprf.cpp:33-92`), drawing its coins from the generators -/
def prepare (G U : Gen) (W : World) (g : G.State) (u : U.State) (s : Server) : R (Server × G.State × U.State) :=
  let (k, g, u) := prepDraws G U g u
  do
    let s ← s.prepare W k
    .ok (s, g, u)

end Proc
end Verif
