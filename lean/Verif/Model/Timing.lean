import Verif.Model.Dme
import Verif.Model.Elgamal

/-!
# The point operations of a scalar multiplication in their order

What somebody who can tell additions from doublings by their time, power or cache use sees of `operator*`
(`includes/ecc_template.hpp:391-411`).
-/

namespace Verif

/-- a call of `operator+` (from `R += P`, `includes/ecc_template.hpp:404,426`) or of `pointDouble` (`:407`) -/
inductive PointOp where
  | add
  | double
  deriving DecidableEq, Repr

namespace Pt

/-- The loop of `operator*` (`includes/ecc_template.hpp:400-408`) as in `smulLoop`, with the calls it makes. -/
def smulLoopT (env : Env) (C : CurveClass) : List Char → Pt → Pt → R (Pt × List PointOp)
  | [], _, r => .ok (r, [])
  | c :: rest, p, r => do
    let r' ← (if c = '1' then r.add env C p else .ok r)
    let p' ← (if rest.isEmpty then .ok p else p.double env C)
    let t ← smulLoopT env C rest p' r'
    .ok (t.1, (if c = '1' then [.add] else []) ++ (if rest.isEmpty then [] else [.double]) ++ t.2)

/-- `operator*(const Field_XXX_n&)` (`includes/ecc_template.hpp:391-411`) with the calls it makes. -/
def smulT (env : Env) (C : CurveClass) (P : Pt) (k : Fld) : R (Pt × List PointOp) :=
  if P.inf then .ok (P, [])
  else smulLoopT env C (getStr2 k.getRawValue).reverse P (infty C)

/-- `operator*(const mpz_class&)` (`includes/ecc_template.hpp:375-378`) with the calls it makes. -/
def smulZT (env : Env) (C : CurveClass) (P : Pt) (k : Int) : R (Pt × List PointOp) :=
  P.smulT env C (Fld.mk' C.fn k)

end Pt

/-- `DME_DDH::Dec(sk, c)` (`src/dme/dme.cpp:284-287`) with the calls its multiplication makes. -/
def Dme.decT (env : Env) (sk : Fld) (c : Dme.Ctxt) : R (Pt × List PointOp) := do
  let w ← c.u.smulT env Dme.CC sk
  let m ← c.mv.sub env Dme.CC w.1
  .ok (m, w.2)

/-- `ElGamal::decrypt(skey, c)` (`src/elgamal/elgamal.cpp:19-23`) with the calls its multiplication makes. -/
def ElGamal.decryptT (env : Env) (sk : Fld) (c : ElGamal.Ctxt) : R (Int × List PointOp) := do
  let w ← c.u.smulT env ElGamal.CC sk
  let res ← c.mv.sub env ElGamal.CC w.1
  .ok (ElGamal.decode res, w.2)

end Verif
