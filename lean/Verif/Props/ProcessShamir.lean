import Verif.Props.Shamir

/-!
# C68: shares of another process
-/

namespace Verif
namespace Proc

open Shamir

/-- Read the secret behind `sh`, the `i`-th (from 0) of the shares of `getShares(t, n, secret)`: share 0 in the same way and
subtract.  The process uses nothing but the library and its own `rand()`. -/
def readSecret (env : Env) (rand : ℕ → ℤ) (t n i : ℕ) (sh : Share) : R Fld := do
  let l ← getShares env t n (Fld.zero secpN) rand
  match l[i]? with
  | none => .error .oobRead
  | some z => sh.val.sub env secpN z.val

/-- C68 is false for `ShamirSS`: the coefficients come from `rand()` (`src/shamirss/shamirss.cpp:32`), which is never seeded and
returns the same numbers in every process, so another process finds out the secret from any **single** share, whatever the
threshold `t`. -/
theorem C68_shamir_counterexample (env : Env) {t n : ℕ} (ht : 1 ≤ t) (ht' : t ≤ 2 ^ 58 - 1) (hn : n ≤ 2 ^ 57 - 1)
    {secret : Fld} (hs : IsElem secpN secret) {rand : ℕ → ℤ} (hr : GoodRand rand) :
    Ends (getShares env t n secret rand) fun shares => shares.length = n ∧
      ∀ i sh, shares[i]? = some sh → readSecret env rand t n i sh = .ok secret := by
  obtain ⟨z, rfl⟩ := isElem_iff.1 hs
  refine ⟨_, getShares_ok env t n ht ht' hn z rand (fun i _ => by have := (hr i).2; omega), by simp, ?_⟩
  intro i sh hi
  have h0 := getShares_ok env t n ht ht' hn 0 rand (fun i _ => by have := (hr i).2; omega)
  rw [← Fld.zero_eq] at h0
  rw [readSecret, h0, R.ok_bind]
  rw [List.getElem?_map] at hi ⊢
  obtain ⟨j, hj, rfl⟩ := Option.map_eq_some_iff.1 hi
  rw [hj]
  rw [Option.map_some]
  change (Fld.ofZ _).sub env secpN (Fld.ofZ _) = _
  rw [Fld.sub_ofZ, coeffs, coeffs, polyOf, polyOf]
  refine congrArg (fun v => Except.ok (Fld.ofZ v)) ?_
  simp

/-- the second of five shares with threshold 3 -/
example : (do
    let sh ← getShares ⟨false, fun _ => none⟩ 3 5 ⟨1234, secpN⟩ (fun i => 41 + i)
    match sh with
    | [_, b, _, _, _] => readSecret ⟨false, fun _ => none⟩ (fun i => 41 + i) 3 5 1 b
    | _ => .error .exception) = .ok ⟨1234, secpN⟩ := by decide +kernel

end Proc
end Verif
