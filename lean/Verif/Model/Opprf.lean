import Verif.Model.Ot
import Verif.Model.Aes

/-!
# `opprf::OPPRFserver`, `opprf::OPPRFclient` (`includes/opprf.hpp`, `src/opprf/opprf.cpp`)

`MSG_BITS` is 16 (`includes/opprf.hpp:13`).  `OPPRFserver::Enc` and `OPPRFclient::getKeyi` are declared but defined
nowhere; `OPPRFclient::correctDecryption` (`src/opprf/opprf.cpp:154-158`) is private and never called.  Copying
servers and clients is not modelled (they own a curve object through `ots`/`otr`, see `Verif.Model.Lifetime`); the
constructors take the address of the curve object freshly allocated by their `DME_DDH` member.
Every random draw is an explicit argument.
-/

namespace Verif
namespace Opprf

open Dme Ot Aes

/-- what a call depends on besides its arguments and its object: live curve objects and build mode, heap slack, OpenSSL's
keystream, the static member `AES::iv` -/
structure World where
  env : Env
  pf : Platform
  E : Cipher
  iv : Iv

/-- `msg_t` (`includes/opprf.hpp:22`) -/
abbrev Msg := BitVec 16

/-- `aes.encryptCRC` in a given world -/
def World.seal (W : World) (key m : Int) : R Int := encryptCRC W.pf W.E W.iv key m

/-- `aes.decryptCRC` in a given world -/
def World.unseal (W : World) (key c : Int) : R Int := decryptCRC W.pf W.E W.iv key c

/-- `srv_inputl_t` (`includes/opprf.hpp:24-29`) -/
structure InputL where
  k : Int
  prf : Pt
  deriving DecidableEq, Repr

/-- `srv_inputi_t` (`includes/opprf.hpp:32-39`) -/
structure InputI where
  k_lt : Int
  k_eq : Int
  k_gt : Int
  prf : Pt
  deriving DecidableEq, Repr

/-- a default-constructed `srv_inputl_t` -/
def InputL.default : InputL := ⟨0, Pt.infty CC⟩

/-- a default-constructed `srv_inputi_t` -/
def InputI.default : InputI := ⟨0, 0, 0, Pt.infty CC⟩

/-- `std::array<α, 3>` -/
structure Arr3 (α : Type) where
  e0 : α
  e1 : α
  e2 : α
  deriving DecidableEq, Repr

/-- `std::random_shuffle` on three elements as libstdc++ implements it: for `i = 1, 2`, element `i` is swapped with
element `rand() % (i + 1)`; `r1` and `r2` are the two values returned by `rand()`. -/
def Arr3.shuffle {α : Type} (a : Arr3 α) (r1 r2 : Nat) : Arr3 α :=
  let a := if r1 % 2 = 0 then ⟨a.e1, a.e0, a.e2⟩ else a
  if r2 % 3 = 0 then ⟨a.e2, a.e1, a.e0⟩ else if r2 % 3 = 1 then ⟨a.e0, a.e2, a.e1⟩ else a

/-- the elements in iteration order -/
def Arr3.toList {α : Type} (a : Arr3 α) : List α := [a.e0, a.e1, a.e2]

/-- `ot_ctxts_t` (`includes/opprf.hpp:43-48`) -/
structure OtCtxts where
  ctxt : Arr3 (List Ctxt)
  cprf : List Ctxt
  deriving DecidableEq, Repr

/-- `OPPRFserver` (`includes/opprf.hpp:56-96`); `aes` has no state. -/
structure Server where
  ots : Sndr
  curve : Option Addr
  theta : Msg
  ga : Pt
  kopprf : Pt
  r : Pt
  gk : Pt
  k_lt : List Int
  k_eq : List Int
  k_gt : List Int
  ok : List Fld
  Sl0 : InputL
  Sl1 : InputL
  Si0 : List InputI
  Si1 : List InputI
  deriving DecidableEq, Repr

/-- `v[i]` on a vector; past the end is undefined -/
def at' {α : Type} (v : List α) (i : Nat) : R α :=
  match v[i]? with
  | some x => .ok x
  | none => .error .oobRead

/-- `v[i]` for a `short` index, which is converted to `size_t`: a negative index is far out of range -/
def atShort {α : Type} (v : List α) (i : Int) : R α :=
  if i < 0 then .error .oobRead else at' v i.toNat

/-- `v[i] = x`; past the end is undefined -/
def put {α : Type} (v : List α) (i : Nat) (x : α) : R (List α) :=
  if i < v.length then .ok (v.set i x) else .error .heapOverflow

/-- `OPPRFserver(theta, crs)` (`src/opprf/opprf.cpp:10-18`), its `DME_DDH` member owning the curve object at `a`;
`AES::init()` assigns `AES::iv` to itself.  `coin` is drawn for `gk`. -/
def Server.ctor (env : Env) (a : Option Addr) (theta : Msg) (crs : Crs) (coin : Int) : R Server := do
  let d := ctorCrs a crs
  let gk ← Curve.getRandomPoint env CC d.curve coin
  .ok { ots := Sndr.ctor d, curve := d.curve, theta := theta, ga := Pt.infty CC, kopprf := Pt.infty CC,
        r := Pt.infty CC, gk := gk, k_lt := [], k_eq := [], k_gt := [], ok := [],
        Sl0 := .default, Sl1 := .default,
        Si0 := List.replicate 16 .default, Si1 := List.replicate 16 .default }

/-- `setSecret(ga)` (`src/opprf/opprf.cpp:25-30`).  The argument is a reference and is modified: the new value of the
caller's variable and the new server. -/
def Server.setSecret (env : Env) (s : Server) (ga : Pt) : R (Pt × Server) := do
  let ga := { ga with curve := s.curve }
  cassert env (ga.isValid env CC)
  .ok (ga, { s with ga := ga })

/-- the draws of one iteration of the first loop of `prepareKeysAndInputs` -/
structure BitCoins where
  lt : Int
  eq : Int
  gt : Int
  ok : Int
  deriving DecidableEq, Repr

/-- the first loop of `prepareKeysAndInputs` (`src/opprf/opprf.cpp:37-43`), one element of the list per iteration;
`utils::getRandom(128)` returns its draw. -/
def pushKeys (env : Env) (s : Server) : List BitCoins → R Server
  | [] => .ok s
  | k :: ks => do
    let o ← Curve.getRandomScalar env CC s.curve k.ok
    pushKeys env { s with k_lt := s.k_lt ++ [k.lt], k_eq := s.k_eq ++ [k.eq], k_gt := s.k_gt ++ [k.gt],
                          ok := s.ok ++ [o] } ks

/-- the assignments to `Sl0` and `Sl1` (`src/opprf/opprf.cpp:45-61`) -/
def prepareTop (env : Env) (s : Server) : R Server := do
  let bit := s.theta.toNat.testBit 15
  let k0 ← if bit then at' s.k_lt 15 else at' s.k_eq 15
  let o ← at' s.ok 15
  let prf0 ← s.r.smul env CC o
  let k1 ← if bit then at' s.k_eq 15 else at' s.k_gt 15
  let g ← s.ga.smulZ env CC (2 ^ 15)
  let ro ← s.r.smul env CC o
  let prf1 ← g.add env CC ro
  .ok { s with Sl0 := ⟨k0, prf0⟩, Sl1 := ⟨k1, prf1⟩ }

/-- the two entries written for index `i + 1` by the second loop of `prepareKeysAndInputs`
(`src/opprf/opprf.cpp:65-89`).  The vector elements are read once at the beginning here. -/
def entries (W : World) (s : Server) (i : Nat) : R (InputI × InputI) := do
  let lt ← at' s.k_lt (i + 1)
  let eq ← at' s.k_eq (i + 1)
  let gt ← at' s.k_gt (i + 1)
  let lt' ← at' s.k_lt i
  let eq' ← at' s.k_eq i
  let gt' ← at' s.k_gt i
  let o ← at' s.ok i
  if s.theta.toNat.testBit i = false then do
    let a ← W.seal lt lt'
    let b ← W.seal eq eq'
    let c ← W.seal gt gt'
    let prf0 ← s.r.smul W.env CC o
    let a' ← W.seal lt lt'
    let b' ← W.seal eq gt'
    let c' ← W.seal gt gt'
    let g ← s.ga.smulZ W.env CC (2 ^ i)
    let ro ← s.r.smul W.env CC o
    let prf1 ← g.add W.env CC ro
    .ok (⟨a, b, c, prf0⟩, ⟨a', b', c', prf1⟩)
  else do
    let a ← W.seal lt lt'
    let b ← W.seal eq lt'
    let c ← W.seal gt gt'
    let prf0 ← s.r.smul W.env CC o
    let a' ← W.seal lt lt'
    let b' ← W.seal eq eq'
    let c' ← W.seal gt gt'
    let g ← s.ga.smulZ W.env CC (2 ^ i)
    let ro ← s.r.smul W.env CC o
    let prf1 ← g.add W.env CC ro
    .ok (⟨a, b, c, prf0⟩, ⟨a', b', c', prf1⟩)

/-- the second loop of `prepareKeysAndInputs` (`src/opprf/opprf.cpp:63-91`), from index `i` down to 1 -/
def tableLoop (W : World) : Nat → Server → R Server
  | 0, s => .ok s
  | i + 1, s => do
    let (x0, x1) ← entries W s i
    let si0 ← put s.Si0 (i + 1) x0
    let si1 ← put s.Si1 (i + 1) x1
    tableLoop W i { s with Si0 := si0, Si1 := si1 }

/-- the draws of `prepareKeysAndInputs`; `bits` has one element per iteration, hence 16 -/
structure PrepCoins where
  kopprf : Int
  r : Int
  bits : List BitCoins
  deriving DecidableEq, Repr

/-- `prepareKeysAndInputs()` (`src/opprf/opprf.cpp:33-92`).  `push_back` appends, and the tables use the elements at the
indices 0 to 15. -/
def Server.prepare (W : World) (s : Server) (k : PrepCoins) : R Server := do
  let kopprf ← Curve.getRandomPoint W.env CC s.curve k.kopprf
  let r ← Curve.getRandomPoint W.env CC s.curve k.r
  let s ← pushKeys W.env { s with kopprf := kopprf, r := r } k.bits
  let s ← prepareTop W.env s
  tableLoop W 15 s

/-- the draws of one `runOTRound`: for each of the four oblivious transfers the encryptions of both messages, and the two
values of `rand()` (not used in round 16, where `lt0`, `lt1` serve for the only key) -/
structure RoundCoins where
  lt0 : EncCoins
  lt1 : EncCoins
  eq0 : EncCoins
  eq1 : EncCoins
  gt0 : EncCoins
  gt1 : EncCoins
  prf0 : EncCoins
  prf1 : EncCoins
  sh1 : Nat
  sh2 : Nat
  deriving DecidableEq, Repr

/-- `runOTRound(round, pk)` (`src/opprf/opprf.cpp:96-114`): the returned ciphertexts and the new state. -/
def Server.runOTRound (W : World) (s : Server) (round : Int) (pk : PKey) (k : RoundCoins) :
    R (OtCtxts × Server) := do
  if round = 16 then do
    let (c, ots) ← encMsgsZ W.env s.ots pk s.Sl0.k s.Sl1.k k.lt0 k.lt1
    let (p, ots) ← encMsgs W.env ots pk s.Sl0.prf s.Sl1.prf k.prf0 k.prf1
    .ok (⟨⟨c, [], []⟩, p⟩, { s with ots := ots })
  else do
    let x0 ← atShort s.Si0 round
    let x1 ← atShort s.Si1 round
    let (c0, ots) ← encMsgsZ W.env s.ots pk x0.k_lt x1.k_lt k.lt0 k.lt1
    let (c1, ots) ← encMsgsZ W.env ots pk x0.k_eq x1.k_eq k.eq0 k.eq1
    let (c2, ots) ← encMsgsZ W.env ots pk x0.k_gt x1.k_gt k.gt0 k.gt1
    let (p, ots) ← encMsgs W.env ots pk x0.prf x1.prf k.prf0 k.prf1
    .ok (⟨Arr3.shuffle ⟨c0, c1, c2⟩ k.sh1 k.sh2, p⟩, { s with ots := ots })

/-- the loop of `sendEncryptedMasks` (`src/opprf/opprf.cpp:120-123`): `n` more elements starting at index `i` -/
def okSum (env : Env) (ok : List Fld) : Nat → Nat → Fld → R Fld
  | 0, _, acc => .ok acc
  | n + 1, i, acc => do
    let o ← at' ok i
    let acc ← acc.addAssign env o
    okSum env ok n (i + 1) acc

/-- the draws of `sendEncryptedMasks` -/
structure MaskCoins where
  rnd : Int
  sh1 : Nat
  sh2 : Nat
  deriving DecidableEq, Repr

/-- `sendEncryptedMasks()` (`src/opprf/opprf.cpp:116-135`). -/
def Server.sendEncryptedMasks (W : World) (s : Server) (k : MaskCoins) : R (Arr3 Int) := do
  let o ← at' s.ok 0
  let sum ← okSum W.env s.ok 15 1 o
  let neg ← sum.neg CC.fn
  let rs ← s.r.smul W.env CC neg
  let mask ← s.kopprf.add W.env CC rs
  let lt ← at' s.k_lt 0
  let e0 ← mask.getEncodedX W.env CC
  let c0 ← W.seal lt e0
  let eq ← at' s.k_eq 0
  let e1 ← mask.getEncodedX W.env CC
  let c1 ← W.seal eq e1
  let gt ← at' s.k_gt 0
  let rnd ← Curve.getRandomPoint W.env CC s.curve k.rnd
  let e2 ← rnd.getEncodedX W.env CC
  let c2 ← W.seal gt e2
  .ok (Arr3.shuffle ⟨c0, c1, c2⟩ k.sh1 k.sh2)

/-- `OPPRFserver::clean()` (`src/opprf/opprf.cpp:137-152`); `theta`, `ga`, `Sl0` and `Sl1` stay.  `coin` is drawn for
`gk`. -/
def Server.clean (env : Env) (s : Server) (coin : Int) : R Server := do
  let gk ← Curve.getRandomPoint env CC s.curve coin
  .ok { s with kopprf := Pt.infty CC, r := Pt.infty CC, gk := gk,
               Si0 := List.replicate 16 .default, Si1 := List.replicate 16 .default,
               k_lt := [], k_eq := [], k_gt := [], ok := [] }

/-- `OPPRFclient` (`includes/opprf.hpp:100-126`); `x` is uninitialised before `setMessage`. -/
structure Client where
  curve : Option Addr
  otr : Recv
  x : Option Msg
  result : Pt
  key : Int
  deriving DecidableEq, Repr

/-- `OPPRFclient(crs)` (`src/opprf/opprf.cpp:161-164`) -/
def Client.ctor (a : Option Addr) (crs : Crs) : Client :=
  let d := ctorCrs a crs
  ⟨d.curve, Recv.ctor d, none, Pt.infty CC, 0⟩

/-- `setMessage(msg)` (`includes/opprf.hpp:119`) -/
def Client.setMessage (c : Client) (x : Msg) : Client := { c with x := some x }

/-- the conversion of `bool` to `dme::branch_t` -/
def branch (b : Bool) : Branch := if b then .b1 else .b0

/-- `runOTRound_start(round)` (`src/opprf/opprf.cpp:166-170`): `1 << (round - 1)` is an `int` shift; bits from 16 on are
zero in the promoted `x`.  `coin` is drawn by `selectMsg`. -/
def Client.start (W : World) (c : Client) (round : Int) (coin : Int) : R (PKey × Client) := do
  match c.x with
  | none => .error .uninitRead
  | some x =>
    if round - 1 < 0 ∨ 32 ≤ round - 1 then .error .badShift
    else do
      let bit := x.toNat.testBit (round - 1).toNat
      let (pk, otr) ← selectMsg W.env c.otr (branch bit) coin
      .ok (pk, { c with otr := otr })

/-- the search loop of `runOTRound_end` (`src/opprf/opprf.cpp:181-192`) -/
def searchKey (W : World) (c : Client) : List (List Ctxt) → R (Option Int)
  | [] => .ok none
  | v :: vs => do
    let tmp ← decryptMsgDecode W.env c.otr v
    let tmp ← W.unseal c.key tmp
    if tmp ≠ 0 then .ok (some tmp) else searchKey W c vs

/-- `runOTRound_end(round, c)` (`src/opprf/opprf.cpp:172-202`) -/
def Client.finish (W : World) (c : Client) (round : Int) (m : OtCtxts) : R Client := do
  let key ← if round = 16 then decryptMsgDecode W.env c.otr m.ctxt.e0
    else do
      let f ← searchKey W c m.ctxt.toList
      cassert W.env (.ok f.isSome)
      match f with
      | none => .error .exception
      | some k => .ok k
  let p ← decryptMsg W.env c.otr m.cprf
  let result ← c.result.add W.env CC p
  .ok { c with key := key, result := result }

/-- the search loop of `unmaskResult` (`src/opprf/opprf.cpp:209-218`) -/
def searchMask (W : World) (key : Int) : List Int → R (Option Int)
  | [] => .ok none
  | m :: ms => do
    let tmp ← W.unseal key m
    if tmp ≠ 0 then .ok (some tmp) else searchMask W key ms

/-- `unmaskResult(masks)` (`src/opprf/opprf.cpp:204-227`); `coin` is drawn for the point that is overwritten by
`setEncodedX` except for its curve pointer. -/
def Client.unmaskResult (W : World) (c : Client) (masks : Arr3 Int) (coin : Int) : R Client := do
  let f ← searchMask W c.key masks.toList
  cassert W.env (.ok f.isSome)
  match f with
  | none => .error .exception
  | some x => do
    let mask ← Curve.getRandomPoint W.env CC c.curve coin
    let mask ← mask.setEncodedX W.env CC x
    let result ← c.result.add W.env CC mask
    .ok { c with result := result }

/-- `OPPRFclient::clean()` (`src/opprf/opprf.cpp:230-235`); `x` and the receiver stay. -/
def Client.clean (c : Client) : Client := { c with result := Pt.infty CC, key := 0 }

end Opprf
end Verif
