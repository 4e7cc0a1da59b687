import Verif.Model.Basic

/-!
# `field::PrimeField` (`includes/field_template.hpp`)

`mpz_class` is `Int`.  The class template is modelled by functions taking the class modulus
`m : Nat` (the literal used by the constructors of the derived class, see `Verif.Model.Curves`).
-/

namespace Verif

/-- A field object: `value` and `p` (`includes/field_template.hpp:17-18`). -/
structure Fld where
  value : Int
  p : Int
  deriving DecidableEq, Repr

/-- `mpz_mod(r, n, d)`: the non-negative remainder; the sign of `d` is ignored; `d = 0` raises a
division-by-zero exception in GMP.  Trusted GMP semantics. -/
def mpzMod (n d : Int) : R Int :=
  if d = 0 then .error .divByZero else .ok (n % d)

/-- Extended Euclid with fuel, returning a Bezout coefficient of the first argument:
invariant `r0 ≡ s0 * a`, `r1 ≡ s1 * a` modulo `d`. -/
def egcd : Nat → Int → Int → Int → Int → Int
  | 0, _, _, s0, _ => s0
  | fuel + 1, r0, r1, s0, s1 =>
    if r1 = 0 then s0
    else egcd fuel r1 (r0 % r1) s1 (s0 - (r0 / r1) * s1)

/-- `mpz_invert(r, a, d)` followed by a use of `r`: the inverse of `a` modulo `d` in `[0, |d|)`;
when there is none GMP leaves `r` undefined.  Trusted GMP semantics (the algorithm here is only a
computable way to obtain the unique inverse). -/
def mpzInvert (a d : Int) : R Int :=
  if d = 0 then .error .undefInverse
  else if Int.gcd a d = 1 then
    .ok (egcd d.natAbs (a % d) d.natAbs 1 0 % d)
  else .error .undefInverse

namespace Fld

/-- `Field_XXX(v)`: the derived-class constructor (`src/fields/field_bn254.cpp:7,17`,
`src/fields/field_secp256r1.cpp:7,18`) calling `PrimeField(v, prime)`
(`includes/field_template.hpp:71-75`).  The modulus is a non-zero literal, so `mpz_mod` is defined. -/
def mk' (m : Nat) (v : Int) : Fld := ⟨v % (m : Int), m⟩

/-- `Field_XXX()`: default constructor (`src/fields/field_bn254.cpp:11-14`,
`src/fields/field_secp256r1.cpp:11-14`); a default `mpz_class` is 0. -/
def zero (m : Nat) : Fld := ⟨0, m⟩

/-- `getRawValue()` (`includes/field_template.hpp:29`). -/
def getRawValue (a : Fld) : Int := a.value

/-- `getField()` (`includes/field_template.hpp:30`). -/
def getField (a : Fld) : Int := a.p

/-- `setField(prime)` (`includes/field_template.hpp:31`). -/
def setField (a : Fld) (q : Int) : Fld := { a with p := q }

/-- `operator==` (`includes/field_template.hpp:114-119`). -/
def beq (a b : Fld) : Bool := decide (a.value = b.value) && decide (a.p = b.p)

/-- `assert(!cmp(p, a.p))` (e.g. `includes/field_template.hpp:134`). -/
def sameField (env : Env) (a b : Fld) : R Unit := cassert env (.ok (decide (a.p = b.p)))

/-- `operator+` (`includes/field_template.hpp:132-138`). -/
def add (env : Env) (m : Nat) (a b : Fld) : R Fld := do
  sameField env a b
  let r ← mpzMod (a.value + b.value) a.p
  .ok (mk' m r)

/-- `operator+=` (`includes/field_template.hpp:141-148`): keeps the object's own `p`. -/
def addAssign (env : Env) (a b : Fld) : R Fld := do
  sameField env a b
  let r ← mpzMod (a.value + b.value) a.p
  .ok { a with value := r }

/-- unary `operator-` (`includes/field_template.hpp:151-156`). -/
def neg (m : Nat) (a : Fld) : R Fld := do
  let r ← mpzMod (-a.value) a.p
  .ok (mk' m r)

/-- binary `operator-` (`includes/field_template.hpp:159-165`). -/
def sub (env : Env) (m : Nat) (a b : Fld) : R Fld := do
  sameField env a b
  let r ← mpzMod (a.value - b.value) a.p
  .ok (mk' m r)

/-- `operator-=` (`includes/field_template.hpp:168-174`). -/
def subAssign (env : Env) (a b : Fld) : R Fld := do
  sameField env a b
  let r ← mpzMod (a.value - b.value) a.p
  .ok { a with value := r }

/-- `operator*(const Field&)` (`includes/field_template.hpp:177-184`). -/
def mul (env : Env) (m : Nat) (a b : Fld) : R Fld := do
  sameField env a b
  let r ← mpzMod (a.value * b.value) a.p
  .ok (mk' m r)

/-- `operator*(const mpz_class&)` (`includes/field_template.hpp:187-192`). -/
def mulZ (m : Nat) (a : Fld) (k : Int) : R Fld := do
  let r ← mpzMod (a.value * k) a.p
  .ok (mk' m r)

/-- `operator*=(const Field&)` (`includes/field_template.hpp:195-201`). -/
def mulAssign (env : Env) (a b : Fld) : R Fld := do
  sameField env a b
  let r ← mpzMod (a.value * b.value) a.p
  .ok { a with value := r }

/-- `operator*=(const mpz_class&)` (`includes/field_template.hpp:204-209`). -/
def mulZAssign (a : Fld) (k : Int) : R Fld := do
  let r ← mpzMod (a.value * k) a.p
  .ok { a with value := r }

/-- `invert()` (`includes/field_template.hpp:96-101`). -/
def invert (m : Nat) (a : Fld) : R Fld := do
  let r ← mpzInvert a.value a.p
  .ok (mk' m r)

/-- `square()` (`includes/field_template.hpp:104-109`). -/
def square (m : Nat) (a : Fld) : R Fld := do
  let r ← mpzMod (a.value * a.value) a.p
  .ok (mk' m r)

/-- `operator/` (`includes/field_template.hpp:212-216`). -/
def div (env : Env) (m : Nat) (a b : Fld) : R Fld := do
  sameField env a b
  let i ← invert m b
  mul env m a i

/-- `operator/=` (`includes/field_template.hpp:219-225`). -/
def divAssign (env : Env) (m : Nat) (a b : Fld) : R Fld := do
  sameField env a b
  let i ← invert m b
  mulAssign env a i

end Fld

end Verif
