import Verif.Model.Curves

/-!
# `sss::ShamirSS` (`src/shamirss/shamirss.cpp`)

`FIELD` is `Field_secp256r1_n` (`includes/shamirss.hpp:12`).
-/

namespace Verif
namespace Shamir

/-- `share_t` (`includes/shamirss.hpp:14-24`). -/
structure Share where
  idx : Fld
  val : Fld
  deriving DecidableEq, Repr

/-- The loop of `evalPoly` (`src/shamirss/shamirss.cpp:20-23`). -/
def evalLoop (env : Env) (x : Fld) : List Fld → Fld → Fld → R Fld
  | [], y, _ => .ok y
  | coeff :: rest, y, temp => do
    let ct ← coeff.mul env secpN temp
    let y' ← y.add env secpN ct
    let temp' ← temp.mul env secpN x
    evalLoop env x rest y' temp'

/-- `evalPoly` (`src/shamirss/shamirss.cpp:15-25`). -/
def evalPoly (env : Env) (x : Fld) (poly : List Fld) : R Fld :=
  evalLoop env x poly (Fld.zero secpN) (Fld.mk' secpN 1)

/-- `FIELD((rand()+1) % 100)` (`src/shamirss/shamirss.cpp:32`).  `r` is the value returned by `rand()`, an `int`
in `[0, RAND_MAX]` with `RAND_MAX = INT_MAX = 2³¹-1` (glibc); adding one to `INT_MAX` is signed overflow. -/
def drawCoeff (r : Int) : R Fld :=
  if r + 1 < 2 ^ 31 then .ok (Fld.mk' secpN ((r + 1) % 100)) else .error .signedOverflow

/-- The loop pushing the coefficients (`src/shamirss/shamirss.cpp:30-33`), one draw per iteration. -/
def drawCoeffs : List Int → R (List Fld)
  | [] => .ok []
  | r :: rs => do
    let c ← drawCoeff r
    let cs ← drawCoeffs rs
    .ok (c :: cs)

/-- `std::vector<FIELD>::max_size()` for a 32-byte element (two GMP integers of 16 bytes). -/
def maxCoeffs : Nat := 2 ^ 58 - 1

/-- `std::vector<share_t>::max_size()` for a 64-byte element. -/
def maxShares : Nat := 2 ^ 57 - 1

/-- The loop making the shares (`src/shamirss/shamirss.cpp:35-41`): `k` shares from index `i` on. -/
def shareLoop (env : Env) (coefs : List Fld) : Nat → Nat → R (List Share)
  | _, 0 => .ok []
  | i, k + 1 => do
    let x := Fld.mk' secpN i
    let y ← evalPoly env x coefs
    let rest ← shareLoop env coefs (i + 1) k
    .ok (⟨x, y⟩ :: rest)

/-- `getShares(t, n, secret)` (`src/shamirss/shamirss.cpp:26-44`); `t`, `n` are `size_t`, `rand k` is the `k`-th
value returned by `rand()`.  `t-1` wraps around.  Growing a vector past its maximal size throws
(`std::length_error`, or `std::bad_alloc` before that); the check is made before the loop starts, which is
immaterial since every such run ends abnormally.  Running out of memory for smaller sizes is not modelled. -/
def getShares (env : Env) (t n : Nat) (secret : Fld) (rand : Nat → Int) : R (List Share) :=
  let cnt := (t + (2 ^ 64 - 1)) % 2 ^ 64
  if maxCoeffs < cnt + 1 then .error .exception
  else if maxShares < n then .error .exception
  else do
    let cs ← drawCoeffs ((List.range cnt).map rand)
    shareLoop env (secret :: cs) 1 n

/-- The inner loop of `reconSecret` (`src/shamirss/shamirss.cpp:55-62`): `j` is the index of the head of the
remaining list. -/
def reconInner (env : Env) (i : Nat) (si : Share) : Nat → List Share → Fld → Fld → R (Fld × Fld)
  | _, [], num, den => .ok (num, den)
  | j, sj :: rest, num, den =>
    if i ≠ j then do
      let num' ← num.mulAssign env sj.idx
      let d ← sj.idx.sub env secpN si.idx
      let den' ← den.mulAssign env d
      reconInner env i si (j + 1) rest num' den'
    else reconInner env i si (j + 1) rest num den

/-- The outer loop of `reconSecret` (`src/shamirss/shamirss.cpp:50-64`). -/
def reconOuter (env : Env) (shares : List Share) : Nat → List Share → Fld → R Fld
  | _, [], res => .ok res
  | i, si :: rest, res => do
    let nd ← reconInner env i si 0 shares (Fld.mk' secpN 1) (Fld.mk' secpN 1)
    let vn ← si.val.mul env secpN nd.1
    let q ← vn.div env secpN nd.2
    let res' ← res.addAssign env q
    reconOuter env shares (i + 1) rest res'

/-- `reconSecret(shares)` (`src/shamirss/shamirss.cpp:46-69`). -/
def reconSecret (env : Env) (shares : List Share) : R Fld :=
  reconOuter env shares 0 shares (Fld.zero secpN)

end Shamir
end Verif
