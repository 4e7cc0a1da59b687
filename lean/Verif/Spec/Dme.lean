import Verif.Spec.Basic
import Verif.Spec.Observe
import Verif.Model.Dme

/-!
# Specification vocabulary for dual-mode encryption
-/

namespace Verif
namespace Dme

/-- a CRS of valid points -/
structure ValidCrs (env : Env) (c : Crs) : Prop where
  g0 : Valid env CC c.g0
  g1 : Valid env CC c.g1
  h0 : Valid env CC c.h0
  h1 : Valid env CC c.h1

/-- the same CRS, whatever curve objects the points refer to -/
structure SameCrs (c d : Crs) : Prop where
  g0 : SamePoint c.g0 d.g0
  g1 : SamePoint c.g1 d.g1
  h0 : SamePoint c.h0 d.h0
  h1 : SamePoint c.h1 d.h1

structure ValidKey (env : Env) (pk : PKey) : Prop where
  g : Valid env CC pk.g
  h : Valid env CC pk.h

structure ValidCtxt (env : Env) (c : Ctxt) : Prop where
  u : Valid env CC c.u
  mv : Valid env CC c.mv

/-- a value `get_z_range(order)` can return -/
def Coin (k : ℤ) : Prop := 0 ≤ k ∧ k < CC.order

/-- `pk` is a Diffie-Hellman pair for branch `b`: `pk = (g_b * k, h_b * k)` for some `k` -/
def DhPair (env : Env) (crs : Crs) (pk : PKey) (b : Branch) : Prop :=
  ∃ k : ℤ, EqP env CC ((crs.g b).smulZ env CC k) (.ok pk.g) ∧
    EqP env CC ((crs.h b).smulZ env CC k) (.ok pk.h)

/-- Encryption under `pk` on branch `b` loses the message: every pair of points arises as a ciphertext of every
message, each time for exactly one pair of encryption coins. -/
def Hides (env : Env) (d : Inst) (pk : PKey) (b : Branch) : Prop :=
  ∀ u mv m : Pt, Valid env CC u → Valid env CC mv → Valid env CC m →
    ∃! st : ℤ × ℤ, (Coin st.1 ∧ Coin st.2) ∧
      ∃ c, enc env d pk b m st.1 st.2 = .ok c ∧ SamePoint c.u u ∧ SamePoint c.mv mv

/-- coordinates on the curve (or infinity), nothing being said about the curve pointer -/
def OnCurve (C : CurveClass) (P : Pt) : Prop :=
  IsInf C P ∨ (P.inf = false ∧ IsElem C.fp P.x ∧ IsElem C.fp P.y ∧ CurveEq C P.x.value P.y.value)

/-- `x` is the abscissa of a point of the curve -/
def IsAbscissa (x : ℤ) : Prop := ∃ y : ℤ, CurveEq CC x y

/-- the other branch -/
def Branch.other : Branch → Branch
  | .b0 => .b1
  | .b1 => .b0

end Dme
end Verif
