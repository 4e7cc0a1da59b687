import Verif.Spec.Dme
import Verif.Spec.Opprf
import Verif.Model.Tests

/-!
# Which draws let the test programs succeed

Conditions on the integers drawn, as congruences modulo the group order.
-/

namespace Verif
namespace Tests

open Dme Ot

/-- not divisible by the group order: the multiple of the generator by `z` is not infinity -/
def NZ (z : ℤ) : Prop := ¬ CC.order ∣ z

instance (z : ℤ) : Decidable (NZ z) := inferInstanceAs (Decidable (¬ _))

/-- discrete logarithms of the four points of a CRS -/
structure Logs where
  g : Branch → ℤ
  h : Branch → ℤ

/-- of the CRS of messy mode -/
def messyLogs (k : MessyCoins) : Logs where
  g := fun | .b0 => k.g0 | .b1 => k.g1
  h := fun | .b0 => k.e0 * k.g0 | .b1 => k.e1 * k.g1

/-- of the CRS of decryption mode -/
def decLogs (k : DecCoins) : Logs where
  g := fun | .b0 => k.g0 | .b1 => k.y * k.g0
  h := fun | .b0 => k.e * k.g0 | .b1 => k.e * (k.y * k.g0)

/-- discrete logarithm of the first component of a ciphertext of branch `b` for the encryption draws `s`, `t` -/
def Logs.u (L : Logs) (b : Branch) (s t : ℤ) : ℤ := s * L.g b + t * L.h b

/-- a key of branch `b` drawn as `sk` decrypts a ciphertext of branch `b` drawn as `(s, t)` of the message with logarithm `m`: neither
the mask nor the masked message is infinity -/
def Same (L : Logs) (b : Branch) (sk m s t : ℤ) : Prop :=
  NZ (sk * L.u b s t) ∧ NZ (sk * L.u b s t + m)

/-- the same key applied to a ciphertext of the other branch: in addition the masks differ -/
def Other (L : Logs) (b : Branch) (sk m s t : ℤ) : Prop :=
  NZ (sk * L.u b.other s t) ∧ NZ (sk * L.u b s t + m) ∧ NZ (sk * L.u b s t - sk * L.u b.other s t)

instance (L : Logs) (b : Branch) (sk m s t : ℤ) : Decidable (Same L b sk m s t) := inferInstanceAs (Decidable (_ ∧ _))

instance (L : Logs) (b : Branch) (sk m s t : ℤ) : Decidable (Other L b sk m s t) := inferInstanceAs (Decidable (_ ∧ _))

/-- the same for an integer message: the point it is encoded as does not cancel the mask -/
def NumberFine (env : Env) (d : Inst) (L : Logs) (b : Branch) (sk number s t : ℤ) : Prop :=
  NZ (sk * L.u b s t) ∧ ∀ P E, Curve.getRandomPoint env CC d.curve (-(sk * L.u b s t)) = .ok P →
    encode env d number = .ok E → ¬ SamePoint P E

/-- the four blocks -/
structure Four (L : Logs) (k : ℕ → CaseCoins) : Prop where
  c0 : Same L .b0 (k 0).sk (k 0).msg (k 0).s0 (k 0).t0
  c1 : Other L .b0 (k 1).sk (k 1).msg (k 1).s1 (k 1).t1
  c2 : Other L .b1 (k 2).sk (k 2).msg (k 2).s0 (k 2).t0
  c3 : Same L .b1 (k 3).sk (k 3).msg (k 3).s1 (k 3).t1

/-- the draws with which `test_dme` succeeds; `a''` is the curve object of `DMHE` -/
structure DmeFine (env : Env) (a'' : Option Addr) (k : DmeDraws) : Prop where
  messy : Four (messyLogs k.ctor) k.messy
  find : NZ (k.find1 * k.ctor.g1) ∧ NZ (k.ctor.e1 - k.ctor.e0)
  dec : Four (decLogs k.dctor) k.dec
  y : NZ k.dctor.y
  trap0 : Same (decLogs k.dctor) .b0 k.trap.sk k.trap.msg k.trap.s0 k.trap.t0
  /-- the second trapdoor key divided by the trapdoor: its mask is `sk * (s + e t) * g0` again -/
  trap1 : Same (decLogs k.dctor) .b0 k.trap.sk k.trap.msg k.trap.s1 k.trap.t1
  copy : Four (messyLogs k.ctor) k.copy
  eval : Same (messyLogs k.ctor) .b0 k.eval.1 (k.eval.2.1.1 + k.eval.2.1.2)
    (k.eval.2.2.1.1 + k.eval.2.2.2.1) (k.eval.2.2.1.2 + k.eval.2.2.2.2)
  range : 0 ≤ k.number.2.1 ∧ k.number.2.1 < 2 ^ 128
  window : Opprf.Encodable k.number.2.1
  number : ∀ d : Inst, d.curve = a'' →
    NumberFine env d (messyLogs k.ctor) .b1 k.number.1 k.number.2.1 k.number.2.2.2.1 k.number.2.2.2.2

/-- conditions on the draws of `test_dme` without which it does not succeed -/
structure DmeNeeds (k : DmeDraws) : Prop where
  messy : Same (messyLogs k.ctor) .b0 (k.messy 0).sk (k.messy 0).msg (k.messy 0).s0 (k.messy 0).t0 ∧
    Same (messyLogs k.ctor) .b1 (k.messy 3).sk (k.messy 3).msg (k.messy 3).s1 (k.messy 3).t1
  find : NZ (k.find1 * k.ctor.g1) ∧ NZ (k.ctor.e1 - k.ctor.e0)
  dec : Same (decLogs k.dctor) .b0 (k.dec 0).sk (k.dec 0).msg (k.dec 0).s0 (k.dec 0).t0 ∧
    Same (decLogs k.dctor) .b1 (k.dec 3).sk (k.dec 3).msg (k.dec 3).s1 (k.dec 3).t1
  y : NZ k.dctor.y
  trap : Same (decLogs k.dctor) .b0 k.trap.sk k.trap.msg k.trap.s0 k.trap.t0 ∧
    Same (decLogs k.dctor) .b0 k.trap.sk k.trap.msg k.trap.s1 k.trap.t1
  copy : Same (messyLogs k.ctor) .b0 (k.copy 0).sk (k.copy 0).msg (k.copy 0).s0 (k.copy 0).t0 ∧
    Same (messyLogs k.ctor) .b1 (k.copy 3).sk (k.copy 3).msg (k.copy 3).s1 (k.copy 3).t1

/-- one transfer of random points with selection `b`: the encryption on that branch -/
def OtFine (L : Logs) (b : Branch) (sk : ℤ) (k : OtDraws) : Prop :=
  match b with
  | .b0 => Same L .b0 sk k.m0 k.k0.s k.k0.t
  | .b1 => Same L .b1 sk k.m1 k.k1.s k.k1.t

/-- the draws with which `test_ot` succeeds; `a'` is the curve object of the sender `ots` -/
structure OtTestFine (env : Env) (a' : Option Addr) (k : OtTestDraws) : Prop where
  first : OtFine (messyLogs k.ctor) .b0 k.sk0 k.first
  second : OtFine (messyLogs k.ctor) .b1 k.sk1 k.second
  number : ∀ d : Inst, d.curve = a' → NumberFine env d (messyLogs k.ctor) .b0 k.sk2 19123 k.num0.s k.num0.t
  dot : Same (messyLogs k.ctor) .b0 k.sk3 (k.da.m0 + k.db.m0 + k.dc.m0)
    (k.da.k0.s + k.db.k0.s + k.dc.k0.s) (k.da.k0.t + k.db.k0.t + k.dc.k0.t)

end Tests
end Verif
