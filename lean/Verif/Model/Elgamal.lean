import Verif.Model.Curves

/-!
# `elgamal::ElGamal` (`includes/elgamal.hpp`, `src/elgamal/elgamal.cpp`)

The member `curve` is a `Curve_secp256r1` held by value; `c` is its address.  Random draws are explicit arguments.
-/

namespace Verif
namespace ElGamal

/-- the class of `elgamal::CURVE` (`includes/elgamal.hpp:15`) -/
abbrev CC : CurveClass := secp256r1

/-- `CTXT` (`includes/elgamal.hpp:17-21`) -/
structure Ctxt where
  u : Pt
  mv : Pt

/-- `KeyPair` (`includes/elgamal.hpp:25-29`) -/
structure KeyPair where
  sk : Fld
  pk : Pt

/-- `keyGen()` (`includes/elgamal.hpp:44`): evaluates `generateKeyPair` and flows off the end without returning. -/
def keyGen (env : Env) (c : Option Addr) (coin : Int) : R KeyPair := do
  let _ ← Curve.generateKeyPair env CC c coin
  .error .noReturn

/-- `encrypt(pkey, POINT msg)` (`src/elgamal/elgamal.cpp:10-17`). -/
def encryptP (env : Env) (c : Option Addr) (pk : Pt) (msg : Pt) (coin : Int) : R Ctxt := do
  let r ← Curve.getRandomScalar env CC c coin
  let g ← Curve.getDefaultGen env CC c
  let u ← g.smul env CC r
  let v ← pk.smul env CC r
  let mv ← v.add env CC msg
  .ok ⟨u, mv⟩

/-- `decode(P)` (`src/elgamal/elgamal.cpp:26-33`); `l = 20` (`:8`), `mpz_div_2exp` rounds down. -/
def decode (P : Pt) : Int := P.x.getRawValue / 2 ^ 20

/-- The search loop of `encode` (`src/elgamal/elgamal.cpp:39-44`).  Out of fuel is the outcome `diverge`. -/
def encodeLoop (env : Env) (c : Option Addr) : Nat → Int → Pt → R Pt
  | 0, _, m => if m.inf then .error .diverge else .ok m
  | fuel + 1, res, m =>
    if m.inf then do
      let m' ← Curve.evaluateP env CC c (Fld.mk' CC.fp res)
      encodeLoop env c fuel (res + 1) m'
    else .ok m

/-- `encode(msg)` (`src/elgamal/elgamal.cpp:35-46`), with as much fuel as there are abscissas. -/
def encode (env : Env) (c : Option Addr) (msg : Int) : R Pt :=
  encodeLoop env c CC.fp (msg * 2 ^ 20) (Pt.infty CC)

/-- `encrypt(pkey, mpz_class msg)` (`includes/elgamal.hpp:47`). -/
def encrypt (env : Env) (c : Option Addr) (pk : Pt) (msg : Int) (coin : Int) : R Ctxt := do
  let m ← encode env c msg
  encryptP env c pk m coin

/-- `decrypt(skey, c)` (`src/elgamal/elgamal.cpp:19-23`). -/
def decrypt (env : Env) (sk : Fld) (c : Ctxt) : R Int := do
  let w ← c.u.smul env CC sk
  let res ← c.mv.sub env CC w
  .ok (decode res)

end ElGamal
end Verif
