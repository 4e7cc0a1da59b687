import Verif.Model.Dme
import Verif.Model.Elgamal

/-!
# How often the loops of `encode` run

What somebody who can measure the time of `DME_DDH::encode` (`src/dme/dme.cpp:220-231`) or `ElGamal::encode`
(`src/elgamal/elgamal.cpp:35-46`) sees: both compute one square root per iteration.
-/

namespace Verif

namespace Dme

/-- The search loop of `encode` (`src/dme/dme.cpp:225-229`) as in `encodeLoop`, with the number of its iterations. -/
def encodeLoopT (env : Env) (curve : Option Addr) : Nat → Int → Pt → R (Pt × Nat)
  | 0, _, msg => if msg.inf then .error .diverge else .ok (msg, 0)
  | fuel + 1, res, msg =>
    if msg.inf then do
      let msg' ← Curve.evaluateP env CC curve (Fld.mk' CC.fp res)
      let r ← encodeLoopT env curve fuel (res + 1) msg'
      .ok (r.1, r.2 + 1)
    else .ok (msg, 0)

/-- `encode(m)` (`src/dme/dme.cpp:220-231`) with the number of iterations -/
def encodeT (env : Env) (d : Inst) (m : Int) : R (Pt × Nat) :=
  encodeLoopT env d.curve CC.fp (m * 2 ^ 10) (Pt.infty CC)

/-- `Enc(pk, b, const mpz_class& m)` (`src/dme/dme.cpp:270-273`) with the number of iterations in `encode` -/
def encZT (env : Env) (d : Inst) (pk : PKey) (b : Branch) (m : Int) (ks kt : Int) : R (Ctxt × Nat) := do
  let p ← encodeT env d m
  let c ← enc env d pk b p.1 ks kt
  .ok (c, p.2)

end Dme

namespace ElGamal

/-- The search loop of `encode` (`src/elgamal/elgamal.cpp:39-44`) as in `encodeLoop`, with the number of its iterations. -/
def encodeLoopT (env : Env) (c : Option Addr) : Nat → Int → Pt → R (Pt × Nat)
  | 0, _, m => if m.inf then .error .diverge else .ok (m, 0)
  | fuel + 1, res, m =>
    if m.inf then do
      let m' ← Curve.evaluateP env CC c (Fld.mk' CC.fp res)
      let r ← encodeLoopT env c fuel (res + 1) m'
      .ok (r.1, r.2 + 1)
    else .ok (m, 0)

/-- `encrypt(pkey, mpz_class msg)` (`includes/elgamal.hpp:47`) with the number of iterations in `encode`
(`src/elgamal/elgamal.cpp:35-46`) -/
def encryptT (env : Env) (c : Option Addr) (pk : Pt) (msg : Int) (coin : Int) : R (Ctxt × Nat) := do
  let m ← encodeLoopT env c CC.fp (msg * 2 ^ 20) (Pt.infty CC)
  let x ← encryptP env c pk m.1 coin
  .ok (x, m.2)

end ElGamal
end Verif
