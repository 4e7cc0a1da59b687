import Verif.Model.Opprf

/-!
# What the client's member functions leave behind when they do not return

`Client.finish` and `Client.unmaskResult` (`Verif.Model.Opprf`) give the new client only for calls that return.  Here the
same functions give the state of the object at the moment the call ends, however it ends, together with the outcome.
-/

namespace Verif
namespace Opprf

open Dme Ot Aes

/-- `runOTRound_end(round, c)` (`src/opprf/opprf.cpp:172-202`) with its assignments in order: `key` is assigned at line 176
or 188, `result` at line 200.  The search loop assigns `key` only in the iteration in which it ends, after which nothing
can fail before line 200. -/
def Client.finishState (W : World) (c : Client) (round : Int) (m : OtCtxts) : Client × R Unit :=
  match (if round = 16 then decryptMsgDecode W.env c.otr m.ctxt.e0
    else do
      let f ← searchKey W c m.ctxt.toList
      cassert W.env (.ok f.isSome)
      match f with
      | none => .error .exception
      | some k => .ok k) with
  | .error e => (c, .error e)
  | .ok key =>
    let c := { c with key := key }
    match (do
      let p ← decryptMsg W.env c.otr m.cprf
      c.result.add W.env CC p) with
    | .error e => (c, .error e)
    | .ok result => ({ c with result := result }, .ok ())

/-- `unmaskResult(masks)` (`src/opprf/opprf.cpp:204-227`): the only assignment to a member is the last statement. -/
def Client.unmaskState (W : World) (c : Client) (masks : Arr3 Int) (coin : Int) : Client × R Unit :=
  match (do
    let f ← searchMask W c.key masks.toList
    cassert W.env (.ok f.isSome)
    match f with
    | none => .error .exception
    | some x => do
      let mask ← Curve.getRandomPoint W.env CC c.curve coin
      let mask ← mask.setEncodedX W.env CC x
      c.result.add W.env CC mask) with
  | .error e => (c, .error e)
  | .ok result => ({ c with result := result }, .ok ())

end Opprf
end Verif
