import Verif.Model.Ot
import Verif.Model.Puda

/-!
# Where the random draws come from

Everywhere else the draws are arguments.  Here they are taken from the generator, as the program takes them: all curve objects
of a class share one static `gmp_randclass` (`includes/ecc_template.hpp:80,741-752`), it is initialised with
`gmp_randinit_default`, and no function of the library seeds it.  So it starts in the same state in every process.
-/

namespace Verif
namespace Proc

open Dme Ot

/-- `gmp_randclass` after `gmp_randinit_default`: an arbitrary deterministic generator with its initial state;
`below` is `get_z_range`. -/
structure Gen where
  State : Type
  init : State
  below : State → Int → Int × State
  range : ∀ s n, 0 < n → 0 ≤ (below s n).1 ∧ (below s n).1 < n

/-- `Curve_secp256r1::rand.get_z_range(order)` (`includes/ecc_template.hpp:626,643`) -/
def Gen.draw (G : Gen) (s : G.State) : Int × G.State := G.below s CC.order

/-- `OTrecv::selectMsg(b)` (`src/ot/ot.cpp:9-15`), drawing its coin from the generator -/
def selectMsg (G : Gen) (env : Env) (s : G.State) (r : Recv) (b : Branch) : R (PKey × Recv × G.State) :=
  let (k, s) := G.draw s
  do
    let (pk, r) ← Ot.selectMsg env r b k
    .ok (pk, r, s)

/-- `OTsndr::encMsgs(pk, msg_t, msg_t)` (`src/ot/ot.cpp:28-34`), drawing its coins from the generator -/
def encMsgs (G : Gen) (env : Env) (s : G.State) (r : Sndr) (pk : PKey) (m0 m1 : Pt) : R (List Ctxt × Sndr × G.State) :=
  let (s0, s) := G.draw s
  let (t0, s) := G.draw s
  let (s1, s) := G.draw s
  let (t1, s) := G.draw s
  do
    let (c, r) ← Ot.encMsgs env r pk m0 m1 ⟨s0, t0⟩ ⟨s1, t1⟩
    .ok (c, r, s)

/-- the draws of the loop of `Puda::Setup` (`src/puda/puda.cpp:45-55`): two per user -/
def userDraws (G : Gen) : Nat → G.State → List (Int × Int) × G.State
  | 0, s => ([], s)
  | n + 1, s =>
    let (ek, s) := G.draw s
    let (tk, s) := G.draw s
    let (us, s) := userDraws G n s
    ((ek, tk) :: us, s)

/-- `Puda::Setup(n)` (`src/puda/puda.cpp:30-62`), drawing its coins from the generator -/
def setup (G : Gen) (env : Env) (s : G.State) (pp : Puda.Param) (n : Nat) : R (Puda.Param × Puda.Keys × G.State) :=
  let (h, s) := G.draw s
  let (a, s) := G.draw s
  let (us, s) := userDraws G n s
  do
    let (pp, ks) ← Puda.setup env pp ⟨h, a, us⟩
    .ok (pp, ks, s)

end Proc
end Verif
