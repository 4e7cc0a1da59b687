import Mathlib.LinearAlgebra.Lagrange
import Verif.Model.Shamir
import Verif.Lemmas.FieldSpec

/-!
# Shamir secret sharing: evaluation and Lagrange interpolation at zero
-/

namespace Verif
namespace Shamir

open Polynomial

/-- scalars modulo the order of secp256r1 -/
abbrev K := ZMod secpN

instance : NeZero secpN := ⟨secpN_prime.ne_zero⟩

/-- polynomial with the given coefficients, constant term first -/
noncomputable def polyOf : List K → K[X]
  | [] => 0
  | c :: cs => C c + X * polyOf cs

theorem polyOf_degree (cs : List K) : (polyOf cs).degree < cs.length := by
  induction cs with
  | nil => simp [polyOf]
  | cons c cs ih =>
    rw [polyOf]
    refine lt_of_le_of_lt (degree_add_le _ _) (max_lt ?_ ?_)
    · refine lt_of_le_of_lt degree_C_le ?_
      simp only [List.length_cons]
      exact_mod_cast Nat.succ_pos _
    · rcases eq_or_ne (polyOf cs) 0 with h | h
      · rw [h, mul_zero, degree_zero]; exact WithBot.bot_lt_coe _
      · rw [degree_mul, degree_X, degree_eq_natDegree h] at *
        rw [List.length_cons]
        have : (polyOf cs).natDegree < cs.length := by exact_mod_cast ih
        have : 1 + (polyOf cs).natDegree < cs.length + 1 := by omega
        exact_mod_cast this

theorem polyOf_eval_zero (c : K) (cs : List K) : (polyOf (c :: cs)).eval 0 = c := by
  simp [polyOf]

theorem evalLoop_ok (env : Env) (x : K) (cs : List K) (y t : K) :
    evalLoop env (Fld.ofZ x) (cs.map Fld.ofZ) (Fld.ofZ y) (Fld.ofZ t)
      = .ok (Fld.ofZ (y + t * (polyOf cs).eval x)) := by
  induction cs generalizing y t with
  | nil => simp [evalLoop, polyOf]
  | cons c cs ih =>
    simp only [List.map_cons, evalLoop, Fld.mul_ofZ, R.ok_bind, Fld.add_ofZ, ih]
    congr 2
    simp only [polyOf, eval_add, eval_C, eval_mul, eval_X]
    ring

theorem evalPoly_ok (env : Env) (x : K) (cs : List K) :
    evalPoly env (Fld.ofZ x) (cs.map Fld.ofZ) = .ok (Fld.ofZ ((polyOf cs).eval x)) := by
  have := evalLoop_ok env x cs 0 1
  rw [evalPoly, Fld.zero_eq, Fld.mk'_eq, Int.cast_one, this]
  simp

/-- a share made from residues -/
def mkShare (x y : K) : Share := ⟨Fld.ofZ x, Fld.ofZ y⟩

theorem shareLoop_ok (env : Env) (cs : List K) (i k : ℕ) :
    shareLoop env (cs.map Fld.ofZ) i k =
      .ok ((List.range' i k).map fun j : ℕ => mkShare (j : K) ((polyOf cs).eval (j : K))) := by
  induction k generalizing i with
  | zero => simp [shareLoop]
  | succ k ih =>
    have : Fld.mk' secpN (i : ℤ) = Fld.ofZ ((i : ℕ) : K) := by rw [Fld.mk'_eq]; simp
    simp only [shareLoop, this, evalPoly_ok, R.ok_bind, ih]
    simp [List.range'_succ, mkShare]

/-- the residue drawn for a return value of `rand()` -/
def coeffOf (r : ℤ) : K := (((r + 1) % 100 : ℤ) : K)

theorem drawCoeffs_ok (rs : List ℤ) (h : ∀ r ∈ rs, r + 1 < 2 ^ 31) :
    drawCoeffs rs = .ok ((rs.map coeffOf).map Fld.ofZ) := by
  induction rs with
  | nil => rfl
  | cons r rs ih =>
    simp only [drawCoeffs, drawCoeff, if_pos (h r (by simp)), R.ok_bind,
      ih (fun r hr => h r (by simp [hr])), Fld.mk'_eq]
    rfl

theorem drawCoeffs_error (rs : List ℤ) (h : ∃ r ∈ rs, ¬ r + 1 < 2 ^ 31) :
    drawCoeffs rs = .error .signedOverflow := by
  induction rs with
  | nil => obtain ⟨r, hr, -⟩ := h; cases hr
  | cons r rs ih =>
    by_cases hr : r + 1 < 2 ^ 31
    · have : ∃ r ∈ rs, ¬ r + 1 < 2 ^ 31 := by
        obtain ⟨r', h1, h2⟩ := h
        rcases List.mem_cons.1 h1 with rfl | h1
        · exact absurd hr h2
        · exact ⟨r', h1, h2⟩
      simp only [drawCoeffs, drawCoeff, if_pos hr, R.ok_bind, ih this, R.error_bind]
    · simp only [drawCoeffs, drawCoeff, if_neg hr, R.error_bind]

/-- the coefficients drawn by `getShares` -/
def coeffs (t : ℕ) (secret : K) (rand : ℕ → ℤ) : List K :=
  secret :: ((List.range (t - 1)).map rand).map coeffOf

theorem coeffs_length (t : ℕ) (ht : 1 ≤ t) (secret : K) (rand : ℕ → ℤ) :
    (coeffs t secret rand).length = t := by
  simp [coeffs]; omega

theorem cnt_eq (t : ℕ) (ht : 1 ≤ t) (ht' : t < 2 ^ 64) : (t + (2 ^ 64 - 1)) % 2 ^ 64 = t - 1 := by
  omega

theorem getShares_ok (env : Env) (t n : ℕ) (ht : 1 ≤ t) (ht' : t ≤ 2 ^ 58 - 1) (hn : n ≤ 2 ^ 57 - 1)
    (secret : K) (rand : ℕ → ℤ) (hr : ∀ i < t - 1, rand i + 1 < 2 ^ 31) :
    getShares env t n (Fld.ofZ secret) rand =
      .ok ((List.range' 1 n).map fun j : ℕ => mkShare (j : K) ((polyOf (coeffs t secret rand)).eval (j : K))) := by
  have h64 : t < 2 ^ 64 := lt_of_le_of_lt ht' (by decide)
  have h1 : ∀ r ∈ (List.range (t - 1)).map rand, r + 1 < 2 ^ 31 := by
    intro r hr'
    obtain ⟨i, hi, rfl⟩ := List.mem_map.1 hr'
    exact hr i (List.mem_range.1 hi)
  have := shareLoop_ok env (coeffs t secret rand) 1 n
  rw [getShares]
  simp only [cnt_eq t ht h64]
  rw [if_neg (by unfold maxCoeffs; omega), if_neg (by unfold maxShares; omega), drawCoeffs_ok _ h1, R.ok_bind]
  exact this

/-! ## Reconstruction -/

/-- residues of a share -/
def xs (s : List (K × K)) : List K := s.map Prod.fst

theorem reconInner_ok (env : Env) (i : ℕ) (xi yi : K) (j : ℕ) (s : List (K × K)) (num den : K) :
    reconInner env i (mkShare xi yi) j (s.map fun p => mkShare p.1 p.2) (Fld.ofZ num) (Fld.ofZ den) =
      .ok (Fld.ofZ (num * ∏ k : Fin s.length, if i ≠ j + k then (s.get k).1 else 1),
        Fld.ofZ (den * ∏ k : Fin s.length, if i ≠ j + k then (s.get k).1 - xi else 1)) := by
  induction s generalizing j num den with
  | nil => simp [reconInner]
  | cons p s ih =>
    have e : ∀ k : ℕ, j + 1 + k = j + (k + 1) := by intro k; omega
    rw [List.map_cons, reconInner]
    by_cases h : i ≠ j
    · rw [if_pos h]
      simp only [mkShare, Fld.mulAssign_ofZ, R.ok_bind, Fld.sub_ofZ]
      have := ih (j + 1) (num * p.1) (den * (p.1 - xi))
      simp only [mkShare] at this
      rw [this]
      simp only [List.length_cons, Fin.prod_univ_succ, List.get_eq_getElem, Fin.val_zero, add_zero,
        if_pos h, List.getElem_cons_zero, Fin.val_succ, List.getElem_cons_succ, e]
      rw [mul_assoc, mul_assoc]
    · rw [if_neg h]
      have := ih (j + 1) num den
      rw [this]
      simp only [List.length_cons, Fin.prod_univ_succ, List.get_eq_getElem, Fin.val_zero, add_zero,
        if_neg h, Fin.val_succ, List.getElem_cons_succ, e, one_mul]

/-- the Lagrange coefficient computed for position `i` -/
noncomputable def numer (s : List (K × K)) (i : ℕ) : K :=
  ∏ k : Fin s.length, if i ≠ k then (s.get k).1 else 1
/-- its denominator -/
noncomputable def denom (s : List (K × K)) (i : ℕ) (xi : K) : K :=
  ∏ k : Fin s.length, if i ≠ k then (s.get k).1 - xi else 1

theorem reconOuter_step (env : Env) (s : List (K × K)) (i : ℕ) (p : K × K) (rest : List (K × K)) (res : K) :
    reconOuter env (s.map fun p => mkShare p.1 p.2) i ((p :: rest).map fun p => mkShare p.1 p.2)
        (Fld.ofZ res) =
      (do
        let q ← Fld.div env secpN (Fld.ofZ (p.2 * numer s i)) (Fld.ofZ (denom s i p.1))
        let res' ← (Fld.ofZ res).addAssign env q
        reconOuter env (s.map fun p => mkShare p.1 p.2) (i + 1) (rest.map fun p => mkShare p.1 p.2) res') := by
  rw [List.map_cons, reconOuter]
  have := reconInner_ok env i p.1 p.2 0 s 1 1
  rw [Fld.mk'_eq, Int.cast_one, this, R.ok_bind]
  simp only [one_mul, zero_add, mkShare, Fld.mul_ofZ, R.ok_bind]
  rfl

theorem reconOuter_ok (env : Env) (s : List (K × K)) (i : ℕ) (rest : List (K × K)) (res : K)
    (hd : ∀ k (hk : k < rest.length), denom s (i + k) (rest[k]).1 ≠ 0) :
    reconOuter env (s.map fun p => mkShare p.1 p.2) i (rest.map fun p => mkShare p.1 p.2) (Fld.ofZ res) =
      .ok (Fld.ofZ (res + ∑ k : Fin rest.length,
        (rest.get k).2 * numer s (i + k) / denom s (i + k) (rest.get k).1)) := by
  induction rest generalizing i res with
  | nil => simp [reconOuter]
  | cons p rest ih =>
    have h0 := hd 0 (by simp)
    simp only [List.getElem_cons_zero, add_zero] at h0
    rw [reconOuter_step, Fld.div_ofZ env _ h0, R.ok_bind, Fld.addAssign_ofZ, R.ok_bind, ih]
    · simp only [List.length_cons, Fin.sum_univ_succ, List.get_eq_getElem, Fin.val_zero, add_zero,
        List.getElem_cons_zero, Fin.val_succ, List.getElem_cons_succ]
      have e : ∀ k : ℕ, i + 1 + k = i + (k + 1) := by intro k; omega
      simp only [e, add_assoc]
    · intro k hk
      have := hd (k + 1) (by simpa using hk)
      simp only [List.getElem_cons_succ] at this
      rwa [show i + 1 + k = i + (k + 1) by omega]

/-- some later denominator is zero ⇒ no result -/
theorem reconOuter_fault (env : Env) (s : List (K × K)) (i : ℕ) (rest : List (K × K)) (res : K)
    (hd : ∃ k, ∃ hk : k < rest.length, denom s (i + k) (rest[k]).1 = 0) :
    reconOuter env (s.map fun p => mkShare p.1 p.2) i (rest.map fun p => mkShare p.1 p.2) (Fld.ofZ res) =
      .error .undefInverse := by
  induction rest generalizing i res with
  | nil => obtain ⟨k, hk, -⟩ := hd; simp at hk
  | cons p rest ih =>
    rw [reconOuter_step]
    by_cases h0 : denom s i p.1 = 0
    · rw [h0, Fld.div_ofZ_zero, R.error_bind]
    · rw [Fld.div_ofZ env _ h0, R.ok_bind, Fld.addAssign_ofZ, R.ok_bind, ih]
      obtain ⟨k, hk, h⟩ := hd
      rcases k with _ | k
      · exact absurd h h0
      · refine ⟨k, by simpa using hk, ?_⟩
        simp only [List.getElem_cons_succ] at h
        rwa [show i + 1 + k = i + (k + 1) by omega]

theorem denom_ne (s : List (K × K)) (hs : (xs s).Nodup) (k : ℕ) (hk : k < s.length) :
    denom s k (s[k]).1 ≠ 0 := by
  unfold denom
  rw [Finset.prod_ne_zero_iff]
  intro j _
  split_ifs with h
  · rw [sub_ne_zero]
    intro e
    apply h
    have : (xs s)[(j : ℕ)]'(by simp [xs]) = (xs s)[k]'(by simp [xs, hk]) := by
      simpa [xs] using e
    exact ((List.Nodup.getElem_inj_iff hs).1 this).symm
  · exact one_ne_zero

theorem denom_eq_zero (s : List (K × K)) (hs : ¬ (xs s).Nodup) :
    ∃ k, ∃ hk : k < s.length, denom s k (s[k]).1 = 0 := by
  rw [List.nodup_iff_injective_get] at hs
  unfold Function.Injective at hs
  push Not at hs
  obtain ⟨a, b, hab, hne⟩ := hs
  have hl : (xs s).length = s.length := by simp [xs]
  refine ⟨b, hl ▸ b.2, ?_⟩
  unfold denom
  rw [Finset.prod_eq_zero_iff]
  refine ⟨⟨a, hl ▸ a.2⟩, Finset.mem_univ _, ?_⟩
  have : (b : ℕ) ≠ (a : ℕ) := fun h => hne (Fin.ext h.symm)
  rw [if_pos this, sub_eq_zero]
  rw [List.get_eq_getElem, List.get_eq_getElem] at hab
  simpa [xs] using hab

/-- **Lagrange interpolation at zero.** -/
theorem recon_poly (env : Env) (f : K[X]) (s : List (K × K)) (hs : (xs s).Nodup)
    (hv : ∀ p ∈ s, p.2 = f.eval p.1) (hdeg : f.degree < s.length) :
    reconSecret env (s.map fun p => mkShare p.1 p.2) = .ok (Fld.ofZ (f.eval 0)) := by
  rw [reconSecret, Fld.zero_eq, reconOuter_ok env s 0 s 0 (by
    intro k hk; rw [zero_add]; exact denom_ne s hs k hk)]
  congr 2
  rw [zero_add]
  let v : Fin s.length → K := fun k => (s.get k).1
  have hinj : Set.InjOn v (Finset.univ : Finset (Fin s.length)) := by
    intro a _ b _ hab
    have : (xs s)[(a : ℕ)]'(by simp [xs]) = (xs s)[(b : ℕ)]'(by simp [xs]) := by
      simpa [xs, v] using hab
    exact Fin.ext ((List.Nodup.getElem_inj_iff hs).1 this)
  have hf := Lagrange.eq_interpolate (s := Finset.univ) hinj (f := f) (by simpa using hdeg)
  conv_rhs => rw [hf]
  rw [Lagrange.interpolate_apply, eval_finset_sum]
  refine Finset.sum_congr rfl fun i _ => ?_
  rw [eval_mul, eval_C, zero_add, hv _ (List.get_mem s i), mul_div_assoc]
  congr 1
  unfold Lagrange.basis
  rw [eval_prod]
  have hn : numer s i = ∏ k ∈ Finset.univ.erase i, v k := by
    unfold numer
    rw [← Finset.mul_prod_erase _ _ (Finset.mem_univ i)]
    rw [if_neg (by simp), one_mul]
    refine Finset.prod_congr rfl fun k hk => ?_
    have : (i : ℕ) ≠ k := fun h => (Finset.ne_of_mem_erase hk) (Fin.ext h.symm)
    rw [if_pos this]
  have hd : denom s i (s.get i).1 = ∏ k ∈ Finset.univ.erase i, (v k - v i) := by
    unfold denom
    rw [← Finset.mul_prod_erase _ _ (Finset.mem_univ i)]
    rw [if_neg (by simp), one_mul]
    refine Finset.prod_congr rfl fun k hk => ?_
    have : (i : ℕ) ≠ k := fun h => (Finset.ne_of_mem_erase hk) (Fin.ext h.symm)
    rw [if_pos this]
  rw [hn, hd, ← Finset.prod_div_distrib]
  refine Finset.prod_congr rfl fun k hk => ?_
  have hne : v i ≠ v k := fun h =>
    (Finset.ne_of_mem_erase hk) (hinj (Finset.mem_coe.2 (Finset.mem_univ _))
      (Finset.mem_coe.2 (Finset.mem_univ _)) h.symm)
  simp only [Lagrange.basisDivisor, eval_mul, eval_C, eval_sub, eval_X, zero_sub]
  have h1 : v i - v k ≠ 0 := sub_ne_zero.2 hne
  have h2 : v k - v i ≠ 0 := sub_ne_zero.2 hne.symm
  field_simp
  ring

end Shamir
end Verif
