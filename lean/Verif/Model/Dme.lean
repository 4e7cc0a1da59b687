import Verif.Model.Curves

/-!
# `dme::DME_DDH`, `dme::DMHE_DDH` (`includes/dme.hpp`, `src/dme/dme.cpp`, `src/dme/dmhe.cpp`)

All on `Curve_secp256r1` (`includes/dme.hpp:17-20`).  Random draws are explicit integer arguments; each
`coin` is the value returned by one `get_z_range(order)`, an arbitrary integer in `[0, order)`.
Construction and destruction of the curve object owned by an instance are in `Verif.Model.Lifetime`; the
constructors here take the address of the freshly allocated object.
-/

namespace Verif
namespace Dme

/-- the class of `dme::CURVE` (`includes/dme.hpp:20`) -/
abbrev CC : CurveClass := secp256r1

/-- `enum branch_t` (`includes/dme.hpp:56`).  An enumeration with enumerators 0 and 1 has no other values, so
the `default:` labels of the switches (`src/dme/dme.cpp:212,263`) are unreachable. -/
inductive Branch where
  | b0
  | b1
  deriving DecidableEq, Repr

/-- `enum mode_t` (`includes/dme.hpp:54`). -/
inductive Mode where
  | messy
  | dec
  deriving DecidableEq, Repr

/-- `CRS_DDH` (`includes/dme.hpp:22-32`). -/
structure Crs where
  g0 : Pt
  g1 : Pt
  h0 : Pt
  h1 : Pt
  deriving DecidableEq, Repr

/-- `PKEY` (`includes/dme.hpp:59-67`). -/
structure PKey where
  g : Pt
  h : Pt
  deriving DecidableEq, Repr

/-- `KeyPair` (`includes/dme.hpp:71-80`). -/
structure KeyPair where
  pk : PKey
  sk : Fld
  deriving DecidableEq, Repr

/-- `CTXT` (`includes/dme.hpp:83-94`). -/
structure Ctxt where
  u : Pt
  mv : Pt
  deriving DecidableEq, Repr

/-- `DME_DDH` (`includes/dme.hpp:98-135`).  `mode` is left uninitialised by two of the constructors and is never
read, so it is optional here. -/
structure Inst where
  curve : Option Addr
  mode : Option Mode
  /-- `td_m` -/
  e0 : Fld
  e1 : Fld
  /-- `td_d` -/
  y : Fld
  crs : Crs
  deriving DecidableEq, Repr

/-- `g_b` of the switch statements -/
def Crs.g (c : Crs) : Branch → Pt
  | .b0 => c.g0
  | .b1 => c.g1

/-- `h_b` of the switch statements -/
def Crs.h (c : Crs) : Branch → Pt
  | .b0 => c.h0
  | .b1 => c.h1

/-- `CRS_DDH::updateCurve` (`src/dme/dme.cpp:30-36`). -/
def Crs.updateCurve (c : Crs) (a : Option Addr) : Crs :=
  ⟨{ c.g0 with curve := a }, { c.g1 with curve := a }, { c.h0 with curve := a }, { c.h1 with curve := a }⟩

/-- `a && b` with short-circuit evaluation -/
def andR (a : R Bool) (b : R Bool) : R Bool := do
  let x ← a
  if x then b else .ok false

/-- `CRS_DDH::operator==` (`src/dme/dme.cpp:38-45`). -/
def Crs.beq (env : Env) (c d : Crs) : R Bool :=
  andR (andR (andR (c.g0.beq env CC d.g0) (c.g1.beq env CC d.g1)) (c.h0.beq env CC d.h0))
    (c.h1.beq env CC d.h1)

/-- `PKEY::operator==` (`src/dme/dme.cpp:97-100`). -/
def PKey.beq (env : Env) (p q : PKey) : R Bool := andR (p.g.beq env CC q.g) (p.h.beq env CC q.h)

/-- `KeyPair::operator==` (`src/dme/dme.cpp:114-117`). -/
def KeyPair.beq (env : Env) (k l : KeyPair) : R Bool := andR (k.pk.beq env l.pk) (.ok (k.sk.beq l.sk))

/-- `CTXT::operator==` (`src/dme/dme.cpp:132-135`): the right-hand sides `u` and `mv` are the members of the left
operand; the argument is not used. -/
def Ctxt.beq (env : Env) (c _d : Ctxt) : R Bool := andR (c.u.beq env CC c.u) (c.mv.beq env CC c.mv)

/-- the random draws of the messy-mode constructor, in order -/
structure MessyCoins where
  e0 : Int
  e1 : Int
  g0 : Int
  g1 : Int

/-- `DME_DDH(mode_t mu)` with `mu == messy` (`src/dme/dme.cpp:139-154`). -/
def ctorMessy (env : Env) (curve : Option Addr) (k : MessyCoins) : R Inst := do
  let e0 ← Curve.getRandomScalar env CC curve k.e0
  let e1 ← Curve.getRandomScalar env CC curve k.e1
  let g0 ← Curve.getRandomPoint env CC curve k.g0
  let g1 ← Curve.getRandomPoint env CC curve k.g1
  let h0 ← g0.smul env CC e0
  let h1 ← g1.smul env CC e1
  .ok ⟨curve, some .messy, e0, e1, Fld.zero CC.fn, ⟨g0, g1, h0, h1⟩⟩

/-- the random draws of the decryption-mode constructor, in order -/
structure DecCoins where
  y : Int
  g0 : Int
  e : Int

/-- `DME_DDH(mode_t mu)` with `mu == dec` (`src/dme/dme.cpp:139-142,155-167`). -/
def ctorDec (env : Env) (curve : Option Addr) (k : DecCoins) : R Inst := do
  let y ← Curve.getRandomScalar env CC curve k.y
  let g0 ← Curve.getRandomPoint env CC curve k.g0
  let g1 ← g0.smul env CC y
  let e ← Curve.getRandomScalar env CC curve k.e
  let h0 ← g0.smul env CC e
  let h1 ← g1.smul env CC e
  .ok ⟨curve, some .dec, Fld.zero CC.fn, Fld.zero CC.fn, y, ⟨g0, g1, h0, h1⟩⟩

/-- `DME_DDH()` (`src/dme/dme.cpp:169-177`); draws in the order g0, h0, g1, h1. -/
def ctorRandom (env : Env) (curve : Option Addr) (kg0 kh0 kg1 kh1 : Int) : R Inst := do
  let g0 ← Curve.getRandomPoint env CC curve kg0
  let h0 ← Curve.getRandomPoint env CC curve kh0
  let g1 ← Curve.getRandomPoint env CC curve kg1
  let h1 ← Curve.getRandomPoint env CC curve kh1
  .ok ⟨curve, none, Fld.zero CC.fn, Fld.zero CC.fn, Fld.zero CC.fn, ⟨g0, g1, h0, h1⟩⟩

/-- `DME_DDH(crs_ddh_t crs)` (`src/dme/dme.cpp:180-184`). -/
def ctorCrs (curve : Option Addr) (crs : Crs) : Inst :=
  ⟨curve, none, Fld.zero CC.fn, Fld.zero CC.fn, Fld.zero CC.fn, crs.updateCurve curve⟩

/-- `KeyGen` (`src/dme/dme.cpp:196-217`). -/
def keyGen (env : Env) (d : Inst) (b : Branch) (coin : Int) : R KeyPair := do
  let sk ← Curve.getRandomScalar env CC d.curve coin
  let g ← (d.crs.g b).smul env CC sk
  let h ← (d.crs.h b).smul env CC sk
  .ok ⟨⟨g, h⟩, sk⟩

/-- The search loop of `encode` (`src/dme/dme.cpp:225-229`).  Out of fuel is the outcome `diverge`. -/
def encodeLoop (env : Env) (curve : Option Addr) : Nat → Int → Pt → R Pt
  | 0, _, msg => if msg.inf then .error .diverge else .ok msg
  | fuel + 1, res, msg =>
    if msg.inf then do
      let msg' ← Curve.evaluateP env CC curve (Fld.mk' CC.fp res)
      encodeLoop env curve fuel (res + 1) msg'
    else .ok msg

/-- `encode(m)` (`src/dme/dme.cpp:220-231`); `ENCODING_SHIFT` is 10 (`includes/dme.hpp:15`).  The fuel is the
number of abscissas; `C30_encode_terminates` shows that it never runs out. -/
def encode (env : Env) (d : Inst) (m : Int) : R Pt :=
  encodeLoop env d.curve CC.fp (m * 2 ^ 10) (Pt.infty CC)

/-- `decode(m)` (`src/dme/dme.cpp:233-240`); `mpz_div_2exp` rounds down. -/
def decode (m : Pt) : Int := m.x.getRawValue / 2 ^ 10

/-- `Enc(pk, b, m)` (`src/dme/dme.cpp:243-268`). -/
def enc (env : Env) (d : Inst) (pk : PKey) (b : Branch) (m : Pt) (ks kt : Int) : R Ctxt := do
  let s ← Curve.getRandomScalar env CC d.curve ks
  let t ← Curve.getRandomScalar env CC d.curve kt
  let pgs ← pk.g.smul env CC s
  let pht ← pk.h.smul env CC t
  let v ← pgs.add env CC pht
  let gs ← (d.crs.g b).smul env CC s
  let ht ← (d.crs.h b).smul env CC t
  let u ← gs.add env CC ht
  let mv ← v.add env CC m
  .ok ⟨u, mv⟩

/-- `Enc(pk, b, const mpz_class& m)` (`src/dme/dme.cpp:270-273`). -/
def encZ (env : Env) (d : Inst) (pk : PKey) (b : Branch) (m : Int) (ks kt : Int) : R Ctxt := do
  let p ← encode env d m
  enc env d pk b p ks kt

/-- `EncCRC(pk, b, const mpz_class& m)` (`src/dme/dme.cpp:276-280`): flows off the end.  (The overload for points,
`DecCRC` and `DecDecodeCRC` are declared in `includes/dme.hpp` but defined nowhere.) -/
def encCRC (_env : Env) (_d : Inst) (_pk : PKey) (_b : Branch) (_m : Int) : R Ctxt := .error .noReturn

/-- `Dec(sk, c)` (`src/dme/dme.cpp:284-287`). -/
def dec (env : Env) (sk : Fld) (c : Ctxt) : R Pt := do
  let w ← c.u.smul env CC sk
  c.mv.sub env CC w

/-- `DecDecode(sk, c)` (`src/dme/dme.cpp:289-292`). -/
def decDecode (env : Env) (sk : Fld) (c : Ctxt) : R Int := do
  let p ← dec env sk c
  .ok (decode p)

/-- `FindMessy(pk)` (`src/dme/dme.cpp:295-298`): the cast `branch_t(true)` is `b1`. -/
def findMessy (env : Env) (d : Inst) (pk : PKey) : R Branch := do
  let x ← pk.g.smul env CC d.e0
  let e ← pk.h.beq env CC x
  .ok (if e then .b1 else .b0)

/-- `TrapKeyGen()` (`src/dme/dme.cpp:301-306`). -/
def trapKeyGen (env : Env) (d : Inst) (coin : Int) : R (PKey × Fld × Fld) := do
  let r ← Curve.getRandomScalar env CC d.curve coin
  let g ← d.crs.g0.smul env CC r
  let h ← d.crs.h0.smul env CC r
  let r1 ← r.div env CC.fn d.y
  .ok (⟨g, h⟩, r, r1)

/-- `DMHE_DDH::Eval` (`src/dme/dmhe.cpp:6-9`). -/
def eval (env : Env) (ca cb : Ctxt) : R Ctxt := do
  let u ← ca.u.add env CC cb.u
  let mv ← ca.mv.add env CC cb.mv
  .ok ⟨u, mv⟩

end Dme
end Verif
