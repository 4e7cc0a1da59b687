import Verif.Spec.Dme
import Verif.Model.Opprf

/-!
# Specification vocabulary for the OPPRF: one evaluation, as its users run it
-/

namespace Verif
namespace Opprf

open Dme Ot

/-- the draws of both parties in one round -/
structure RoundDraws where
  sk : ℤ
  enc : RoundCoins

/-- the draws of one evaluation; `rounds i` for round `i` -/
structure Draws where
  prep : PrepCoins
  rounds : ℕ → RoundDraws
  mask : MaskCoins
  un : ℤ

/-- rounds `n` down to 1 (`testsuit/test_opprf.cpp:48-56`) -/
def runRounds (W : World) (d : ℕ → RoundDraws) : ℕ → Server → Client → R (Server × Client)
  | 0, s, c => .ok (s, c)
  | n + 1, s, c => do
    let (pk, c) ← c.start W (n + 1 : ℕ) (d (n + 1)).sk
    let (m, s) ← s.runOTRound W (n + 1 : ℕ) pk (d (n + 1)).enc
    let c ← c.finish W (n + 1 : ℕ) m
    runRounds W d n s c

/-- one evaluation (`testsuit/test_opprf.cpp:42-62`) after `setSecret`: the client's input is `x` -/
def evaluate (W : World) (s : Server) (c : Client) (x : Msg) (d : Draws) : R (Server × Client) := do
  let c := c.setMessage x
  let s ← s.prepare W d.prep
  let (s, c) ← runRounds W d.rounds 16 s c
  let m ← s.sendEncryptedMasks W d.mask
  let c ← c.unmaskResult W m d.un
  .ok (s, c)

/-- the key drawn for a comparison outcome -/
def BitCoins.key (b : BitCoins) : Ordering → ℤ
  | .lt => b.lt
  | .eq => b.eq
  | .gt => b.gt

/-- the server's keys for a comparison outcome -/
def Server.keys (s : Server) : Ordering → List ℤ
  | .lt => s.k_lt
  | .eq => s.k_eq
  | .gt => s.k_gt

/-- the ciphertext of a table entry for a comparison outcome -/
def InputI.k (e : InputI) : Ordering → ℤ
  | .lt => e.k_lt
  | .eq => e.k_eq
  | .gt => e.k_gt

/-- comparison of the bits from `j` upwards -/
def sym (x theta : Msg) (j : ℕ) : Ordering := compare (x.toNat / 2 ^ j) (theta.toNat / 2 ^ j)

/-- the outcome of the comparison from bit `j` upwards, given the outcome `sy` from bit `j + 1` upwards -/
def next (x theta : Msg) (j : ℕ) (sy : Ordering) : Ordering :=
  match sy with
  | .eq => compare (x.toNat.testBit j) (theta.toNat.testBit j)
  | sy => sy

/-- what is sealed under `key` opens with `key` -/
def Opens (W : World) (key m : ℤ) : Prop := ∃ c, W.seal key m = .ok c ∧ W.unseal key c = .ok m

/-- what is sealed under `key'` is rejected with `key` -/
def Rejects (W : World) (key key' m : ℤ) : Prop := ∃ c, W.seal key' m = .ok c ∧ W.unseal key c = .ok 0

/-- an integer that `encode` turns into a point from which `decode` gets it back (C30) -/
def Encodable (m : ℤ) : Prop := ∃ i : ℕ, i < 1024 ∧ IsAbscissa (m * 1024 + i)

/-- what is sealed under `key` opens with `key` or is rejected; it is not taken for something else -/
def OpensOrRejects (W : World) (key m : ℤ) : Prop :=
  ∀ c, W.seal key m = .ok c → W.unseal key c = .ok m ∨ W.unseal key c = .ok 0

/-- The key material `K` (outcome, bit) does not mislead a client with input `x` walking down the tables: on its path the
next key opens or is rejected, the entries of the two other outcomes are rejected, and all it receives can be encoded as
points. -/
structure Legible (W : World) (K : Ordering → ℕ → ℤ) (x theta : Msg) : Prop where
  top : Encodable (K (sym x theta 15) 15)
  enc : ∀ j < 15, ∀ sy e, W.seal (K sy (j + 1)) (K (next x theta j sy) j) = .ok e → Encodable e
  own : ∀ j < 15, OpensOrRejects W (K (sym x theta (j + 1)) (j + 1)) (K (sym x theta j) j)
  rejects : ∀ j < 15, ∀ sy ≠ sym x theta (j + 1),
    Rejects W (K (sym x theta (j + 1)) (j + 1)) (K sy (j + 1)) (K (next x theta j sy) j)

/-- on the path of `x` every next key opens -/
def PathOpens (W : World) (K : Ordering → ℕ → ℤ) (x theta : Msg) : Prop :=
  ∀ j < 15, Opens W (K (sym x theta (j + 1)) (j + 1)) (K (sym x theta j) j)

/-- `e` is the encoding of the point that `getRandomPoint` returns for the draw `z` -/
def EncodingOf (W : World) (curve : Option Addr) (z e : ℤ) : Prop :=
  ∃ P, Curve.getRandomPoint W.env CC curve z = .ok P ∧ P.getEncodedX W.env CC = .ok e

/-- The client holding the key of outcome `sy0` for bit 0 is not misled by the three masks: the one meant for that outcome
opens or is rejected, the two others are rejected; `z` and `zr` are the draws that give the mask and the decoy for `gt`.
Both are not infinity. -/
structure MaskLegible (W : World) (curve : Option Addr) (K0 : Ordering → ℤ) (sy0 : Ordering) (z zr : ℤ) : Prop where
  finite : ¬ CC.order ∣ z
  finite' : ¬ CC.order ∣ zr
  nonzero : ¬ EncodingOf W curve (if sy0 = .gt then zr else z) 0
  own : ∀ e, EncodingOf W curve (if sy0 = .gt then zr else z) e → OpensOrRejects W (K0 sy0) e
  rejects : ∀ sy ≠ sy0, ∀ e, EncodingOf W curve (if sy = .gt then zr else z) e → Rejects W (K0 sy0) (K0 sy) e

/-- the mask meant for outcome `sy0` opens -/
def MaskOpens (W : World) (curve : Option Addr) (K0 : Ordering → ℤ) (sy0 : Ordering) (z zr : ℤ) : Prop :=
  ∀ e, EncodingOf W curve (if sy0 = .gt then zr else z) e → Opens W (K0 sy0) e

/-- how the client stops when nothing can be decrypted: the assertion, if it is compiled in, else the exception -/
def noDecryption (env : Env) : Fault := if env.ndebug then .exception else .assertFail

end Opprf
end Verif
