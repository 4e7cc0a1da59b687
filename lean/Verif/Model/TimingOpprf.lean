import Verif.Model.Opprf

/-!
# How many ciphertexts the OPPRF client tries

What somebody who can measure the time of `runOTRound_end` and `unmaskResult` (`src/opprf/opprf.cpp:172-227`) sees: the two
search loops stop at the first ciphertext that opens.
-/

namespace Verif
namespace Opprf

open Dme Ot

/-- the search loop of `runOTRound_end` (`src/opprf/opprf.cpp:181-192`) as in `searchKey`, with the number of its iterations -/
def searchKeyT (W : World) (c : Client) : List (List Ctxt) → R (Option Int × Nat)
  | [] => .ok (none, 0)
  | v :: vs => do
    let tmp ← decryptMsgDecode W.env c.otr v
    let tmp ← W.unseal c.key tmp
    if tmp ≠ 0 then .ok (some tmp, 1)
    else do
      let r ← searchKeyT W c vs
      .ok (r.1, r.2 + 1)

/-- the next key as in `Client.finish` (`src/opprf/opprf.cpp:174-197`) and the number of ciphertexts of keys decrypted -/
def Client.nextKeyT (W : World) (c : Client) (round : Int) (m : OtCtxts) : R (Int × Nat) :=
  if round = 16 then do
    let k ← decryptMsgDecode W.env c.otr m.ctxt.e0
    .ok (k, 1)
  else do
    let f ← searchKeyT W c m.ctxt.toList
    cassert W.env (.ok f.1.isSome)
    match f.1 with
    | none => .error .exception
    | some k => .ok (k, f.2)

/-- `runOTRound_end(round, c)` (`src/opprf/opprf.cpp:172-202`) with this number -/
def Client.finishT (W : World) (c : Client) (round : Int) (m : OtCtxts) : R (Client × Nat) := do
  let k ← c.nextKeyT W round m
  let p ← decryptMsg W.env c.otr m.cprf
  let result ← c.result.add W.env CC p
  .ok ({ c with key := k.1, result := result }, k.2)

/-- the search loop of `unmaskResult` (`src/opprf/opprf.cpp:209-218`) as in `searchMask`, with the number of its iterations -/
def searchMaskT (W : World) (key : Int) : List Int → R (Option Int × Nat)
  | [] => .ok (none, 0)
  | m :: ms => do
    let tmp ← W.unseal key m
    if tmp ≠ 0 then .ok (some tmp, 1)
    else do
      let r ← searchMaskT W key ms
      .ok (r.1, r.2 + 1)

/-- `unmaskResult(masks)` (`src/opprf/opprf.cpp:204-227`) with the number of masks tried -/
def Client.unmaskResultT (W : World) (c : Client) (masks : Arr3 Int) (coin : Int) : R (Client × Nat) := do
  let f ← searchMaskT W c.key masks.toList
  cassert W.env (.ok f.1.isSome)
  match f.1 with
  | none => .error .exception
  | some x => do
    let mask ← Curve.getRandomPoint W.env CC c.curve coin
    let mask ← mask.setEncodedX W.env CC x
    let result ← c.result.add W.env CC mask
    .ok ({ c with result := result }, f.2)

end Opprf
end Verif
