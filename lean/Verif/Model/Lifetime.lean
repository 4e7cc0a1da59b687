import Verif.Model.Basic

/-!
# Lifetimes of curve objects

`DME_DDH` owns a raw pointer initialised with `new CURVE` (`includes/dme.hpp:103`), deleted by the destructor
(`src/dme/dme.cpp:187-191`).  The class declares no copy constructor and no copy assignment, so the implicit ones
copy the pointer.
-/

namespace Verif

/-- `delete` of the curve object at `a` as seen by code running afterwards -/
def Env.free (env : Env) (a : Addr) : Env :=
  { env with heap := fun x => if x = a then none else env.heap x }

namespace Life

/-- Objects that contain `DME_DDH` members (`OTrecv`, `OTsndr`, `DOTprxy`: one; a `DME_DDH` itself: one), seen as the
list of the curve pointers they own.  A `Puda` is such an object with two pointers, created by its constructor and
deleted by its destructor (`src/puda/puda.cpp:8-18`); it can be copied but not assigned, because of the `const` member
`msg_length` (`includes/puda.hpp:69`). -/
abbrev Obj := List Addr

/-- Program state: curve objects allocated and not yet deleted, a bound on the addresses ever used, and the live
objects by name. -/
structure St where
  heap : List Addr
  next : Addr
  objs : Nat → Option Obj

/-- the empty program state -/
def St.init : St := ⟨[], 0, fun _ => none⟩

/-- Operations of a client program. -/
inductive Op where
  /-- construct object `i` with `n` members of class `DME_DDH` (each evaluates `new CURVE`, `includes/dme.hpp:103`) -/
  | construct (i n : Nat)
  /-- implicit copy constructor: object `j` becomes a copy of `i` -/
  | copy (i j : Nat)
  /-- implicit copy assignment `j = i` -/
  | assign (i j : Nat)
  /-- run the destructor of object `i` (`src/dme/dme.cpp:187-191`) -/
  | destroy (i : Nat)
  deriving DecidableEq, Repr

/-- `delete p` for each owned pointer; deleting an object that is not allocated is a double free -/
def freeAll : List Addr → List Addr → R (List Addr)
  | heap, [] => .ok heap
  | heap, a :: as => if a ∈ heap then freeAll (heap.erase a) as else .error .doubleFree

/-- assigning one entry of the object table -/
def St.set (s : St) (i : Nat) (o : Option Obj) : St :=
  { s with objs := fun k => if k = i then o else s.objs k }

/-- One operation.  Operations that no C++ program can express (constructing over a live object, copying from or
destroying an object that is not alive) are not steps: they leave the state unchanged. -/
def step (s : St) : Op → R St
  | .construct i n =>
    match s.objs i with
    | some _ => .ok s
    | none =>
      let fresh := (List.range n).map (s.next + ·)
      .ok ({ s with heap := fresh ++ s.heap, next := s.next + n }.set i (some fresh))
  | .copy i j =>
    match s.objs i, s.objs j with
    | some o, none => .ok (s.set j (some o))
    | _, _ => .ok s
  | .assign i j =>
    match s.objs i, s.objs j with
    | some o, some _ => .ok (s.set j (some o))
    | _, _ => .ok s
  | .destroy i =>
    match s.objs i with
    | none => .ok s
    | some o => do
      let heap ← freeAll s.heap o
      .ok ({ s with heap := heap }.set i none)

/-- A sequence of operations. -/
def run (s : St) : List Op → R St
  | [] => .ok s
  | op :: ops => do
    let s' ← step s op
    run s' ops

end Life
end Verif
