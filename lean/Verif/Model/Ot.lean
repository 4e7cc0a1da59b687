import Verif.Model.Dme

/-!
# `ot::OTrecv`, `ot::OTsndr`, `ot::DOTprxy` (`includes/ot.hpp`, `src/ot/ot.cpp`, `includes/dot.hpp`, `src/ot/dot.cpp`)

`DOTrecv` and `DOTsndr` (`includes/dot.hpp:12-24`) only inherit, they add nothing.
-/

namespace Verif
namespace Ot

open Dme

/-- `OTrecv` (`includes/ot.hpp:13-32`).  `sk` is default-constructed, `b` is uninitialised before the first
`selectMsg`. -/
structure Recv where
  dme : Inst
  sk : Fld
  b : Option Branch
  deriving DecidableEq, Repr

/-- `OTsndr` (`includes/ot.hpp:35-52`). -/
structure Sndr where
  dme : Inst
  c : List Ctxt
  deriving DecidableEq, Repr

/-- the constructors of `OTrecv` (`includes/ot.hpp:23-24`), given the constructed member `dme` -/
def Recv.ctor (d : Inst) : Recv := ⟨d, Fld.zero CC.fn, none⟩

/-- the constructors of `OTsndr` (`includes/ot.hpp:43-44`) -/
def Sndr.ctor (d : Inst) : Sndr := ⟨d, []⟩

/-- the two random draws of one encryption -/
structure EncCoins where
  s : Int
  t : Int
  deriving DecidableEq, Repr

/-- `selectMsg(b)` (`src/ot/ot.cpp:9-15`): the public key and the new state. -/
def selectMsg (env : Env) (r : Recv) (b : Branch) (coin : Int) : R (PKey × Recv) := do
  let kp ← keyGen env r.dme b coin
  .ok (kp.pk, { r with sk := kp.sk, b := some b })

/-- `c[b]` on a vector of ciphertexts; indexing past the end is undefined -/
def index (c : List Ctxt) (b : Branch) : R Ctxt :=
  match c[match b with | .b0 => 0 | .b1 => 1]? with
  | some x => .ok x
  | none => .error .oobRead

/-- `c[b]` with the member `b` of the receiver -/
def selected (r : Recv) (c : List Ctxt) : R Ctxt :=
  match r.b with
  | none => .error .uninitRead
  | some b => index c b

/-- `decryptMsg(c)` (`src/ot/ot.cpp:18-21`). -/
def decryptMsg (env : Env) (r : Recv) (c : List Ctxt) : R Pt := do
  let x ← selected r c
  dec env r.sk x

/-- `decryptMsgDecode(c)` (`src/ot/ot.cpp:23-26`). -/
def decryptMsgDecode (env : Env) (r : Recv) (c : List Ctxt) : R Int := do
  let x ← selected r c
  decDecode env r.sk x

/-- `encMsgs(pk, msg_t, msg_t)` (`src/ot/ot.cpp:28-34`): the returned vector and the new state. -/
def encMsgs (env : Env) (s : Sndr) (pk : PKey) (m0 m1 : Pt) (k0 k1 : EncCoins) : R (List Ctxt × Sndr) := do
  let c0 ← enc env s.dme pk .b0 m0 k0.s k0.t
  let c1 ← enc env s.dme pk .b1 m1 k1.s k1.t
  .ok ([c0, c1], { s with c := [c0, c1] })

/-- `encMsgs(pk, mpz_class, mpz_class)` (`src/ot/ot.cpp:36-42`). -/
def encMsgsZ (env : Env) (s : Sndr) (pk : PKey) (m0 m1 : Int) (k0 k1 : EncCoins) : R (List Ctxt × Sndr) := do
  let c0 ← encZ env s.dme pk .b0 m0 k0.s k0.t
  let c1 ← encZ env s.dme pk .b1 m1 k1.s k1.t
  .ok ([c0, c1], { s with c := [c0, c1] })

/-- The loop of `DOTprxy::aggregate` (`src/ot/dot.cpp:12-16`). -/
def aggLoop (env : Env) (c0 c1 : Ctxt) : List (List Ctxt) → R (List Ctxt)
  | [] => .ok [c0, c1]
  | x :: xs => do
    let x0 ← index x .b0
    let c0' ← eval env c0 x0
    let x1 ← index x .b1
    let c1' ← eval env c1 x1
    aggLoop env c0' c1' xs

/-- `DOTprxy::aggregate(c_v)` (`src/ot/dot.cpp:6-18`): the returned vector, which is also the new value of the
member `c`; the old value `_old` is cleared first.  An empty `c_v` is indexed out of bounds. -/
def aggregate (env : Env) (_old : List Ctxt) (cv : List (List Ctxt)) : R (List Ctxt) :=
  match cv with
  | [] => .error .oobRead
  | x :: xs => do
    let c0 ← index x .b0
    let c1 ← index x .b1
    aggLoop env c0 c1 xs

end Ot
end Verif
