import Verif.Model.Curves

/-!
# `puda::Puda` (`includes/puda.hpp`, `src/puda/puda.cpp`)

Both groups are `Curve_secp256r1` (`includes/puda.hpp:13-20`).  Random draws are explicit integer arguments.  The
multiplications by `int`, `uint16_t` and `mpz_class` select `operator*(const mpz_class&)`.
-/

namespace Verif
namespace Puda

/-- the class of `puda::CURVE1` and `puda::CURVE2` (`includes/puda.hpp:19-20`) -/
abbrev CC : CurveClass := secp256r1

/-- `msg_t` is `uint16_t` (`includes/puda.hpp:43`) -/
abbrev Msg := Fin 65536

/-- `PudaPublicParam` (`includes/puda.hpp:22-31`) -/
structure Param where
  curve1 : Option Addr
  curve2 : Option Addr
  g1 : Pt
  g2 : Pt
  hash : Pt

/-- `PudaSigningKey` (`includes/puda.hpp:45-54`) -/
structure SignKey where
  a : Int
  tk : Fld

/-- `PudaVerifKey` (`includes/puda.hpp:58-62`) -/
structure VerifKey where
  vk1 : Pt
  vk2 : Pt

/-- `Puda()` (`src/puda/puda.cpp:8-12`), given the addresses of the two new curve objects; the points are
default-constructed. -/
def ctor (c1 c2 : Option Addr) : Param := ⟨c1, c2, Pt.infty CC, Pt.infty CC, Pt.infty CC⟩

/-- the random draws of `Setup`: for the hash, for `a`, and per user for `ek` and `tk` -/
structure Coins where
  hash : Int
  a : Int
  users : List (Int × Int)

/-- the tuple returned by `Setup` -/
structure Keys where
  ekv : List Fld
  skv : List SignKey
  ak : Fld
  vk : VerifKey

/-- The loop of `Setup` (`src/puda/puda.cpp:45-55`) with its four variables. -/
def setupLoop (env : Env) (pp : Param) (a : Int) :
    List (Int × Int) → List Fld → List SignKey → Fld → Fld → R (List Fld × List SignKey × Fld × Fld)
  | [], ekv, skv, ak, tks => .ok (ekv, skv, ak, tks)
  | (ke, kt) :: us, ekv, skv, ak, tks => do
    let ek ← Curve.getRandomScalar env CC pp.curve1 ke
    let tk ← Curve.getRandomScalar env CC pp.curve1 kt
    let ak' ← ak.subAssign env ek
    let tks' ← tks.addAssign env tk
    setupLoop env pp a us (ekv ++ [ek]) (skv ++ [⟨a, tk⟩]) ak' tks'

/-- `Setup(n)` (`src/puda/puda.cpp:30-62`); `n` is the number of entries of `k.users`. -/
def setup (env : Env) (pp : Param) (k : Coins) : R (Param × Keys) := do
  let g1 ← Curve.getDefaultGen env CC pp.curve1
  let g2 ← Curve.getDefaultGen env CC pp.curve2
  let hash ← Curve.getRandomPoint env CC pp.curve1 k.hash
  let pp' : Param := ⟨pp.curve1, pp.curve2, g1, g2, hash⟩
  let af ← Curve.getRandomScalar env CC pp.curve1 k.a
  let a := af.getRawValue
  let (ekv, skv, ak, tks) ← setupLoop env pp' a k.users [] [] (Fld.mk' CC.fn 0) (Fld.zero CC.fn)
  let vk1 ← g2.smul env CC tks
  let vk2 ← g2.smulZ env CC a
  .ok (pp', ⟨ekv, skv, ak, ⟨vk1, vk2⟩⟩)

/-- `Enc(ek, m, t)` (`src/puda/puda.cpp:65-68`). -/
def enc (env : Env) (pp : Param) (ek : Fld) (m : Msg) (t : Int) : R Pt := do
  let ht ← pp.hash.smulZ env CC t
  let x ← ht.smul env CC ek
  let y ← pp.g1.smulZ env CC (m.val : Int)
  x.add env CC y

/-- `Tag(sk, m, t)` (`src/puda/puda.cpp:71-74`). -/
def tag (env : Env) (pp : Param) (sk : SignKey) (m : Msg) (t : Int) : R Pt := do
  let ht ← pp.hash.smulZ env CC t
  let x ← ht.smul env CC sk.tk
  let ga ← pp.g1.smulZ env CC sk.a
  let y ← ga.smulZ env CC (m.val : Int)
  x.add env CC y

/-- The loop of `compute_dlog` (`src/puda/puda.cpp:22-26`) from counter `i`; `USHRT_MAX` is 65535, so the last
counter tried is 65534.  The first argument is the number of remaining iterations. -/
def dlogLoop (env : Env) (pp : Param) (c : Pt) : Nat → Nat → R Msg
  | 0, _ => .ok 0
  | left + 1, i => do
    let x ← pp.g1.smulZ env CC i
    let e ← x.beq env CC c
    if e then .ok (Fin.ofNat 65536 i) else dlogLoop env pp c left (i + 1)

/-- `compute_dlog(c)` (`src/puda/puda.cpp:20-28`). -/
def computeDlog (env : Env) (pp : Param) (c : Pt) : R Msg := dlogLoop env pp c 65535 0

/-- the loops `c += *it` of `Agg` (`src/puda/puda.cpp:80-87`) -/
def sumLoop (env : Env) : Pt → List Pt → R Pt
  | c, [] => .ok c
  | c, x :: xs => do
    let c' ← c.add env CC x
    sumLoop env c' xs

/-- `Agg(ak, ctxts, tags, t)` (`src/puda/puda.cpp:76-91`). -/
def agg (env : Env) (pp : Param) (ak : Fld) (ctxts tags : List Pt) (t : Int) : R (Msg × Pt) := do
  let c ← sumLoop env (Pt.infty CC) ctxts
  let tg ← sumLoop env (Pt.infty CC) tags
  let ht ← pp.hash.smulZ env CC t
  let x ← ht.smul env CC ak
  let c' ← c.add env CC x
  let m ← computeDlog env pp c'
  .ok (m, tg)

/-- `Verify(vk, sum, tag, t)` (`src/puda/puda.cpp:94-98`). -/
def verify (_vk : VerifKey) (_sum : Msg) (_tag : Pt) (_t : Int) : Bool := true

end Puda
end Verif
