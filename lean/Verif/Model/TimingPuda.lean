import Verif.Model.Puda

/-!
# How often the loop of `compute_dlog` runs

What somebody who can measure the time of `Agg` (`src/puda/puda.cpp:76-91`) sees: `compute_dlog`
(`src/puda/puda.cpp:20-28`) makes one multiplication and one comparison per iteration.
-/

namespace Verif
namespace Puda

/-- The loop of `compute_dlog` (`src/puda/puda.cpp:22-26`) as in `dlogLoop`, with the number of its iterations. -/
def dlogLoopT (env : Env) (pp : Param) (c : Pt) : Nat → Nat → R (Msg × Nat)
  | 0, _ => .ok (0, 0)
  | left + 1, i => do
    let x ← pp.g1.smulZ env CC i
    let e ← x.beq env CC c
    if e then .ok (Fin.ofNat 65536 i, 1)
    else do
      let r ← dlogLoopT env pp c left (i + 1)
      .ok (r.1, r.2 + 1)

/-- `Agg(ak, ctxts, tags, t)` (`src/puda/puda.cpp:76-91`) with the number of iterations of `compute_dlog`. -/
def aggT (env : Env) (pp : Param) (ak : Fld) (ctxts tags : List Pt) (t : Int) : R ((Msg × Pt) × Nat) := do
  let c ← sumLoop env (Pt.infty CC) ctxts
  let tg ← sumLoop env (Pt.infty CC) tags
  let ht ← pp.hash.smulZ env CC t
  let x ← ht.smul env CC ak
  let c' ← c.add env CC x
  let m ← dlogLoopT env pp c' 65535 0
  .ok ((m.1, tg), m.2)

end Puda
end Verif
