import Mathlib.Algebra.Group.Defs
import Verif.Model.Puda
import Verif.Spec.Basic
import Verif.Spec.Observe

/-!
# Specification vocabulary for PUDA
-/

namespace Verif
namespace Puda

/-- a value `get_z_range(order)` can return -/
def Coin (k : ℤ) : Prop := 0 ≤ k ∧ k < CC.order

/-- A pairing on the curve with values in an abelian group: it does not depend on which curve object a point refers
to, and it is additive in each argument (addition is the library's). -/
structure Pairing (env : Env) {A : Type} [AddCommGroup A] (e : Pt → Pt → A) : Prop where
  congr : ∀ P P' Q Q' : Pt, Valid env CC P → Valid env CC P' → Valid env CC Q → Valid env CC Q' →
    SamePoint P P' → SamePoint Q Q' → e P Q = e P' Q'
  left : ∀ P P' S Q : Pt, Valid env CC P → Valid env CC P' → Valid env CC Q →
    P.add env CC P' = .ok S → e S Q = e P Q + e P' Q
  right : ∀ P Q Q' S : Pt, Valid env CC P → Valid env CC Q → Valid env CC Q' →
    Q.add env CC Q' = .ok S → e P S = e P Q + e P Q'

/-- the verification equation `e(tag, g2) = e(hash * t, vk_1) + e(g1 * sum, vk_2)` of the comment in `Verify` -/
def VerifEq (env : Env) {A : Type} [AddCommGroup A] (e : Pt → Pt → A) (pp : Param) (vk : VerifKey) (sum : ℤ)
    (tag : Pt) (t : ℤ) : Prop :=
  ∃ ht gs, pp.hash.smulZ env CC t = .ok ht ∧ pp.g1.smulZ env CC sum = .ok gs ∧
    e tag pp.g2 = e ht vk.vk1 + e gs vk.vk2

/-- what the users send: one ciphertext per key and message -/
def encAll (env : Env) (pp : Param) (t : ℤ) : List (Fld × Msg) → R (List Pt)
  | [] => .ok []
  | (ek, m) :: us => do
    let c ← enc env pp ek m t
    let cs ← encAll env pp t us
    .ok (c :: cs)

/-- one tag per signing key and message -/
def tagAll (env : Env) (pp : Param) (t : ℤ) : List (SignKey × Msg) → R (List Pt)
  | [] => .ok []
  | (sk, m) :: us => do
    let c ← tag env pp sk m t
    let cs ← tagAll env pp t us
    .ok (c :: cs)

/-- the sum of the messages as an integer -/
def total (ms : List Msg) : ℕ := (ms.map fun m : Msg => m.val).sum

end Puda
end Verif
