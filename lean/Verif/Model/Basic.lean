/-!
# Outcomes, environments and the memory model

Everything that is not a defined return of the C++ code is a `Fault`; no undefined behaviour is
ever mapped to a value.
-/

namespace Verif

/-- Everything that can happen instead of a defined return. -/
inductive Fault where
  /-- a failing `assert` in a build without `NDEBUG` -/
  | assertFail
  /-- dereferencing a null curve pointer -/
  | nullDeref
  /-- dereferencing a pointer to a destroyed curve object -/
  | useAfterFree
  /-- `delete` of an already deleted object -/
  | doubleFree
  /-- GMP division by zero (GMP raises SIGFPE) -/
  | divByZero
  /-- using the result of `mpz_invert` when no inverse exists (documented as undefined) -/
  | undefInverse
  /-- `mpz_divexact` with a divisor that does not divide (documented as undefined) -/
  | undefDivexact
  /-- flowing off the end of a non-void function -/
  | noReturn
  /-- writing past the end of a heap block -/
  | heapOverflow
  /-- reading outside an object -/
  | oobRead
  /-- reading a word through a pointer that is not aligned for it -/
  | misaligned
  /-- writing past the end of a fixed-size stack buffer -/
  | stackOverflow
  /-- reading an uninitialised variable -/
  | uninitRead
  /-- signed integer overflow -/
  | signedOverflow
  /-- shifting by a negative amount or by at least the width of the type -/
  | badShift
  /-- the loop does not terminate normally -/
  | diverge
  /-- a C++ exception leaves the function -/
  | exception
  deriving DecidableEq, Repr

/-- Result of running a piece of C++ code. -/
abbrev R := Except Fault

/-- Addresses of curve objects. -/
abbrev Addr := Nat

/-- The mutable part of a curve object that matters to clients: the curve object its default
generator `G` points to.  (`includes/ecc_template.hpp:80-86`; all other members are the class
constants and are never modified after construction, so they are taken from `CurveClass`.)  A
default-constructed object points to itself (`src/ecc/ecc_bn254.cpp:20`,
`src/ecc/ecc_secp256r1.cpp:20`); the implicit copy constructor copies `G` together with its
pointer. -/
structure CurveObj where
  gcurve : Addr
  deriving DecidableEq, Repr

/-- The environment in which a function runs: build mode and the curve objects alive.
`CMakeLists.txt:7-8` selects `RelWithDebInfo`, which defines `NDEBUG`. -/
structure Env where
  /-- `true` when compiled with `NDEBUG`: `assert` does nothing. -/
  ndebug : Bool
  /-- the live curve objects -/
  heap : Addr → Option CurveObj

/-- `assert(e)`: the expression is not evaluated under `NDEBUG`. -/
def cassert (env : Env) (e : R Bool) : R Unit :=
  if env.ndebug then .ok ()
  else do
    let b ← e
    if b then .ok () else .error .assertFail

/-- `*c` for a curve pointer `c`. -/
def deref (env : Env) : Option Addr → R CurveObj
  | none => .error .nullDeref
  | some a =>
    match env.heap a with
    | some o => .ok o
    | none => .error .useAfterFree

end Verif
