import Verif.Model.Field

/-!
# `ecc::Point` and `ecc::Curve` (`includes/ecc_template.hpp`)

The class templates are modelled by functions taking the class constants `C : CurveClass`.
-/

namespace Verif

/-- The constants of a curve class: the moduli of its two field classes and the members set by the
constructor of the derived curve class (`src/ecc/ecc_bn254.cpp:11-24`,
`src/ecc/ecc_secp256r1.cpp:11-24`). -/
structure CurveClass where
  /-- modulus of `Field_XXX_p` -/
  fp : Nat
  /-- modulus of `Field_XXX_n` -/
  fn : Nat
  prime : Int
  a : Int
  b : Int
  gx : Int
  gy : Int
  order : Int
  cofactor : Int
  deriving DecidableEq, Repr

/-- A point object (`includes/ecc_template.hpp:17-23`). -/
structure Pt where
  x : Fld
  y : Fld
  inf : Bool
  curve : Option Addr
  deriving DecidableEq, Repr

/-- One step of binary exponentiation per unit of fuel. -/
def powmAux (m : Int) : Nat → Int → Nat → Int → Int
  | 0, _, _, acc => acc
  | fuel + 1, b, e, acc =>
    if e = 0 then acc
    else powmAux m fuel (b * b % m) (e / 2) (if e % 2 = 1 then acc * b % m else acc)

/-- `mpz_powm(r, b, e, m)` for `e ≥ 0`: `b ^ e` reduced into `[0, |m|)`; `m = 0` divides by zero.
Trusted GMP semantics.  Negative exponents never occur here (the only exponent is `(p+1)/4`). -/
def mpzPowm (b : Int) (e : Nat) (m : Int) : R Int :=
  if m = 0 then .error .divByZero
  else .ok (powmAux m (e + 1) (b % m) e (1 % m))

/-- `get_str(2)`: binary digits, most significant first, with a leading minus sign for negative
numbers; zero prints as `"0"`.  Trusted GMP semantics. -/
def binDigitsAux : Nat → Nat → List Char → List Char
  | 0, _, acc => acc
  | fuel + 1, n, acc =>
    if n < 2 then (if n = 1 then '1' else '0') :: acc
    else binDigitsAux fuel (n / 2) ((if n % 2 = 1 then '1' else '0') :: acc)

/-- `mpz_class::get_str(2)`. -/
def getStr2 (v : Int) : List Char :=
  if v < 0 then '-' :: binDigitsAux (v.natAbs + 1) v.natAbs []
  else binDigitsAux (v.natAbs + 1) v.natAbs []

namespace Pt

/-- `Point()` (`includes/ecc_template.hpp:145-149`); the coordinates are default fields. -/
def infty (C : CurveClass) : Pt := ⟨Fld.zero C.fp, Fld.zero C.fp, true, none⟩

/-- `Point(const mpz_class&, const mpz_class&, Curve*)` (`includes/ecc_template.hpp:163-169`). -/
def ofZ (C : CurveClass) (x y : Int) (c : Option Addr) : Pt :=
  ⟨Fld.mk' C.fp x, Fld.mk' C.fp y, false, c⟩

/-- `Point(const Field&, const Field&, Curve*)` (`includes/ecc_template.hpp:183-189`). -/
def ofFld (x y : Fld) (c : Option Addr) : Pt := ⟨x, y, false, c⟩

/-- `operator==` on curves (`includes/ecc_template.hpp:589-598`) applied to two dereferenced
pointers to objects of the same class. -/
def curveEq (env : Env) (C : CurveClass) (c d : Option Addr) : R Bool := do
  let _ ← deref env c
  let _ ← deref env d
  .ok (decide (C.prime = C.prime) && decide (C.a = C.a) && decide (C.b = C.b)
    && decide (C.order = C.order) && decide (C.cofactor = C.cofactor))

/-- `pointDouble()` (`includes/ecc_template.hpp:554-579`). -/
def double (env : Env) (C : CurveClass) (P : Pt) : R Pt := do
  let sq ← P.x.square C.fp
  let sq3 ← sq.mulZ C.fp 3
  let _ ← deref env P.curve
  let t1 ← sq3.add env C.fp (Fld.mk' C.fp C.a)
  let t2 ← P.y.mulZ C.fp 2
  let s ← t1.div env C.fp t2
  let ss ← s.mul env C.fp s
  let x2 ← P.x.mulZ C.fp 2
  let rx ← ss.sub env C.fp x2
  let d ← P.x.sub env C.fp rx
  let sd ← s.mul env C.fp d
  let ry ← sd.sub env C.fp P.y
  .ok (ofFld rx ry P.curve)

/-- `operator+` (`includes/ecc_template.hpp:307-341`). -/
def add (env : Env) (C : CurveClass) (P Q : Pt) : R Pt :=
  if P.inf then .ok Q
  else if Q.inf then .ok P
  else do
    cassert env (curveEq env C P.curve Q.curve)
    if P.x.beq Q.x then
      if P.y.beq Q.y then P.double env C
      else .ok (infty C)
    else do
      let dy ← P.y.sub env C.fp Q.y
      let dx ← P.x.sub env C.fp Q.x
      let s ← dy.div env C.fp dx
      let ss ← s.mul env C.fp s
      let t ← ss.sub env C.fp P.x
      let rx ← t.sub env C.fp Q.x
      let d ← P.x.sub env C.fp rx
      let sd ← s.mul env C.fp d
      let ry ← sd.sub env C.fp P.y
      .ok (ofFld rx ry P.curve)

/-- `operator-` (`includes/ecc_template.hpp:354-362`). -/
def sub (env : Env) (C : CurveClass) (P Q : Pt) : R Pt := do
  cassert env (curveEq env C P.curve Q.curve)
  let ny ← (Fld.mk' C.fp 0).sub env C.fp Q.y
  P.add env C (ofFld Q.x ny P.curve)

/-- The loop of `operator*(const Field_XXX_n&)` (`includes/ecc_template.hpp:400-408`), walking the
digit string from its last character to its first: `R += P` on a `'1'`, then `P = P.pointDouble()`
unless this was the first character. -/
def smulLoop (env : Env) (C : CurveClass) : List Char → Pt → Pt → R Pt
  | [], _, r => .ok r
  | c :: rest, p, r => do
    let r' ← (if c = '1' then r.add env C p else .ok r)
    let p' ← (if rest.isEmpty then .ok p else p.double env C)
    smulLoop env C rest p' r'

/-- `operator*(const Field_XXX_n&)` (`includes/ecc_template.hpp:391-411`). -/
def smul (env : Env) (C : CurveClass) (P : Pt) (k : Fld) : R Pt :=
  if P.inf then .ok P
  else smulLoop env C (getStr2 k.getRawValue).reverse P (infty C)

/-- `operator*(const mpz_class&)` (`includes/ecc_template.hpp:375-378`). -/
def smulZ (env : Env) (C : CurveClass) (P : Pt) (k : Int) : R Pt :=
  P.smul env C (Fld.mk' C.fn k)

/-- `operator==` (`includes/ecc_template.hpp:496-502`), with the short-circuit evaluation of `&&`. -/
def beq (env : Env) (C : CurveClass) (P Q : Pt) : R Bool :=
  if P.inf && Q.inf then .ok true
  else if P.x.beq Q.x then
    if P.y.beq Q.y then do
      let e ← curveEq env C P.curve Q.curve
      .ok (e && decide (P.inf = Q.inf))
    else .ok false
  else .ok false

/-- `isValid()` (`includes/ecc_template.hpp:528-540`). -/
def isValid (env : Env) (C : CurveClass) (P : Pt) : R Bool :=
  if P.inf then .ok true
  else match P.curve with
  | none => .ok false
  | some a => do
    let r1 := decide (P.x.getField = P.y.getField)
    let _ ← deref env (some a)
    let r2 := decide (P.x.getField = C.prime)
    let xx ← P.x.mul env C.fp P.x
    let xxx ← xx.mul env C.fp P.x
    let ax ← P.x.mulZ C.fp C.a
    let s ← xxx.add env C.fp ax
    let rhs ← s.add env C.fp (Fld.mk' C.fp C.b)
    let yy ← P.y.mul env C.fp P.y
    .ok (r1 && r2 && rhs.beq yy)

end Pt

namespace Curve

/-- `getDefaultGen()` (`includes/ecc_template.hpp:102`) on the curve object at `c`. -/
def getDefaultGen (env : Env) (C : CurveClass) (c : Option Addr) : R Pt := do
  let o ← deref env c
  .ok (Pt.ofZ C C.gx C.gy (some o.gcurve))

/-- `getRandomPoint()` (`includes/ecc_template.hpp:624-628`); `coin` is the value returned by
`rand.get_z_range(order)`, i.e. any integer in `[0, order)`. -/
def getRandomPoint (env : Env) (C : CurveClass) (c : Option Addr) (coin : Int) : R Pt := do
  let g ← getDefaultGen env C c
  g.smulZ env C coin

/-- `getRandomScalar()` (`includes/ecc_template.hpp:641-645`); `coin` as above. -/
def getRandomScalar (env : Env) (C : CurveClass) (c : Option Addr) (coin : Int) : R Fld := do
  let _ ← deref env c
  .ok (Fld.mk' C.fn coin)

/-- `generateKeyPair()` (`includes/ecc_template.hpp:658-663`).  (Instantiating it may not compile
as written because it passes a `Point` where a `Point_XXX` is expected; modelled as intended.) -/
def generateKeyPair (env : Env) (C : CurveClass) (c : Option Addr) (coin : Int) : R (Int × Pt) := do
  let g ← getDefaultGen env C c
  let pk ← g.smulZ env C coin
  .ok (coin, pk)

/-- `evaluatePy2(x)` (`includes/ecc_template.hpp:736-739`): `x*x*x + x*a + b`. -/
def evaluatePy2 (env : Env) (C : CurveClass) (c : Option Addr) (x : Fld) : R Fld := do
  let _ ← deref env c
  let xx ← x.mul env C.fp x
  let xxx ← xx.mul env C.fp x
  let ax ← x.mulZ C.fp C.a
  let s ← xxx.add env C.fp ax
  s.add env C.fp (Fld.mk' C.fp C.b)

/-- The candidate square root computed by `evaluateP` and `evaluatePneg`
(`includes/ecc_template.hpp:682-686` and `711-715`). -/
def sqrtCandidate (C : CurveClass) (y2 : Fld) : R Int :=
  if (y2.getField + 1) % 4 = 0 then
    mpzPowm y2.getRawValue ((y2.getField + 1) / 4).toNat C.prime
  else .error .undefDivexact

/-- `evaluateP(x)` (`includes/ecc_template.hpp:677-692`). -/
def evaluateP (env : Env) (C : CurveClass) (c : Option Addr) (x : Fld) : R Pt := do
  let y2 ← evaluatePy2 env C c x
  let res ← sqrtCandidate C y2
  let y := Fld.mk' C.fp res
  let yy ← y.mul env C.fp y
  if yy.beq y2 then .ok (Pt.ofFld x y c) else .ok (Pt.infty C)

/-- `evaluatePneg(x)` (`includes/ecc_template.hpp:706-721`). -/
def evaluatePneg (env : Env) (C : CurveClass) (c : Option Addr) (x : Fld) : R Pt := do
  let y2 ← evaluatePy2 env C c x
  let res ← sqrtCandidate C y2
  let y := Fld.mk' C.fp (y2.getField - res)
  let yy ← y.mul env C.fp y
  if yy.beq y2 then .ok (Pt.ofFld x y c) else .ok (Pt.infty C)

end Curve

namespace Pt

/-- `getEncodedX()` (`includes/ecc_template.hpp:260-269`). -/
def getEncodedX (env : Env) (C : CurveClass) (P : Pt) : R Int := do
  let res := P.x.getRawValue * 2
  let q ← Curve.evaluateP env C P.curve P.x
  if q.y.beq P.y then .ok (res + 1) else .ok res

/-- `setEncodedX(ex)` (`includes/ecc_template.hpp:282-292`): returns the new value of `*this`. -/
def setEncodedX (env : Env) (C : CurveClass) (P : Pt) (ex : Int) : R Pt :=
  if ex % 2 = 1 then Curve.evaluateP env C P.curve (Fld.mk' C.fp (ex / 2))
  else Curve.evaluatePneg env C P.curve (Fld.mk' C.fp (ex / 2))

end Pt

/-! ## Textual constructor -/

/-- C `isspace` in the "C" locale. -/
def isSpaceC (c : Char) : Bool :=
  c = ' ' || c = '\t' || c = '\n' || c = '\x0b' || c = '\x0c' || c = '\r'

/-- GMP `digit_value` for bases up to 36 (letters are case-insensitive). -/
def digitValue (c : Char) : Option Nat :=
  if '0' ≤ c ∧ c ≤ '9' then some (c.toNat - '0'.toNat)
  else if 'a' ≤ c ∧ c ≤ 'z' then some (c.toNat - 'a'.toNat + 10)
  else if 'A' ≤ c ∧ c ≤ 'Z' then some (c.toNat - 'A'.toNat + 10)
  else none

/-- Digits of a number, white space ignored; `none` on any other character. -/
def parseDigits (base : Nat) : List Char → Nat → Option Nat
  | [], acc => some acc
  | c :: cs, acc =>
    if isSpaceC c then parseDigits base cs acc
    else match digitValue c with
      | some d => if d < base then parseDigits base cs (acc * base + d) else none
      | none => none

/-- The part of a number after an optional sign: a digit is required first. -/
def parseUnsigned (base : Nat) (cs : List Char) : Option Nat :=
  match cs with
  | [] => none
  | c :: _ =>
    match digitValue c with
    | some d => if d < base then parseDigits base cs 0 else none
    | none => none

/-- `mpz_set_str` for bases 2..36: leading white space, optional minus sign, then a digit is required,
then digits and white space.  `none` is the return value -1.  Trusted GMP semantics. -/
def parseMpz (base : Nat) (s : List Char) : Option Int :=
  match s.dropWhile isSpaceC with
  | '-' :: cs => Option.map (fun n : Nat => -(n : Int)) (parseUnsigned base cs)
  | cs => Option.map (fun n : Nat => (n : Int)) (parseUnsigned base cs)

/-- `s.c_str()` as GMP reads it: `mpz_class::set_str` hands the characters to `mpz_set_str`, which stops at
the first NUL, be it inside the `std::string`. -/
def cStr (s : List Char) : List Char := s.takeWhile (· != '\x00')

/-- `v.set_str(s, base)` ignoring its return value: on failure `v` keeps its old value. -/
def setStr (old : Int) (s : List Char) (base : Nat) : Int := (parseMpz base (cStr s)).getD old

/-- `Point(const std::string&, const std::string&, Curve*, int)`
(`includes/ecc_template.hpp:220-229`): one variable `v` receives both numbers. -/
def Pt.ofStrings (C : CurveClass) (px py : List Char) (c : Option Addr) (base : Nat) : Pt :=
  let v := setStr 0 px base
  let x := Fld.mk' C.fp v
  let v := setStr v py base
  let y := Fld.mk' C.fp v
  ⟨x, y, false, c⟩

end Verif
