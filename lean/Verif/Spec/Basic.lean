import Mathlib.Data.Int.ModEq
import Mathlib.Data.ZMod.Basic
import Verif.Model.Curves

/-!
# Specification vocabulary

Nothing here refers to the functions of the model, only to its data types and constants.
-/

namespace Verif

/-- `m` is the modulus of one of the four field classes of the repository. -/
def IsModulus (m : ℕ) : Prop := m = bn254N ∨ m = bn254P ∨ m = secpN ∨ m = secpP

/-- `C` is one of the two curve classes of the repository. -/
def IsCurve (C : CurveClass) : Prop := C = bn254 ∨ C = secp256r1

/-- `a` is an object of the field class with modulus `m` holding a canonical representative. -/
structure IsElem (m : ℕ) (a : Fld) : Prop where
  label : a.p = m
  nonneg : 0 ≤ a.value
  lt : a.value < m

/-- `r` finished normally with a canonical element congruent to the integer `v`. -/
def Returns (m : ℕ) (r : R Fld) (v : ℤ) : Prop :=
  ∃ x, r = .ok x ∧ IsElem m x ∧ x.value ≡ v [ZMOD m]

/-- `r` finished normally with a value satisfying `Q`. -/
def Ends {α : Type} (r : R α) (Q : α → Prop) : Prop := ∃ x, r = .ok x ∧ Q x

/-- `r` does not finish normally. -/
def Faults {α : Type} (r : R α) : Prop := ∃ e, r = .error e

/-- the pointer designates a live curve object -/
def Live (env : Env) (c : Option Addr) : Prop := ∃ a o, c = some a ∧ env.heap a = some o

/-- a live curve object whose default generator refers to a live curve object (itself, unless the object
is a copy of another one) -/
def LiveGen (env : Env) (c : Option Addr) : Prop :=
  ∃ a o, c = some a ∧ env.heap a = some o ∧ ∃ o', env.heap o.gcurve = some o'

/-- the curve equation `y² = x³ + a x + b` modulo the curve prime, on integers -/
def CurveEq (C : CurveClass) (x y : ℤ) : Prop := y * y ≡ x * x * x + C.a * x + C.b [ZMOD C.prime]

/-- a point object holding infinity as the library produces it: flag set, zero coordinates -/
structure IsInf (C : CurveClass) (P : Pt) : Prop where
  flag : P.inf = true
  x : P.x = ⟨0, C.fp⟩
  y : P.y = ⟨0, C.fp⟩

/-- a finite point object on the curve whose curve object is alive -/
structure IsFinite (env : Env) (C : CurveClass) (P : Pt) : Prop where
  flag : P.inf = false
  x : IsElem C.fp P.x
  y : IsElem C.fp P.y
  on : CurveEq C P.x.value P.y.value
  live : Live env P.curve

/-- a valid point -/
def Valid (env : Env) (C : CurveClass) (P : Pt) : Prop := IsInf C P ∨ IsFinite env C P

/-- Two point objects denote the same point (whatever curve objects they refer to). -/
def SamePoint (P Q : Pt) : Prop :=
  (P.inf = true ∧ Q.inf = true) ∨ (P.inf = false ∧ Q.inf = false ∧ P.x = Q.x ∧ P.y = Q.y)

end Verif
