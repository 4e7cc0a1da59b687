import Mathlib.FieldTheory.Finite.Basic
import Mathlib.GroupTheory.Perm.Cycle.Type
import Mathlib.GroupTheory.OrderOfElement
import Verif.Lemmas.Weier

/-!
# Certificates for the order of the curve group

* a double-and-add chain with explicit slopes shows `n • G = 0`;
* `X ^ p` modulo the cubic together with an inverse of `X ^ p - X` shows that the cubic has no root;
* counting finishes: the group has exactly `n` elements.
-/

namespace Verif
namespace EC

variable {C : CurveClass} [GoodCurve0 C]

/-! ## Double-and-add chain -/

/-- One step of the chain: `(false, s)` doubles with slope `s`, `(true, s)` adds `G` with slope `s`.
All arithmetic is on integers modulo `p`. -/
def chainStep (p a gx gy : ℤ) : (ℕ × ℤ × ℤ) → (Bool × ℤ) → Option (ℕ × ℤ × ℤ)
  | (k, x, y), (false, s) =>
    if (s * (y * 2) - (x * x * 3 + a)) % p = 0 ∧ y % p ≠ 0 then
      let x' := (s * s - x * 2) % p
      some (2 * k, x', (s * (x - x') - y) % p)
    else none
  | (k, x, y), (true, s) =>
    if (s * (x - gx) - (y - gy)) % p = 0 ∧ (x - gx) % p ≠ 0 then
      let x' := (s * s - x - gx) % p
      some (k + 1, x', (s * (x - x') - y) % p)
    else none

def chain (p a gx gy : ℤ) : (ℕ × ℤ × ℤ) → List (Bool × ℤ) → Option (ℕ × ℤ × ℤ)
  | st, [] => some st
  | st, c :: cs =>
    match chainStep p a gx gy st c with
    | some st' => chain p a gx gy st' cs
    | none => none

/-- `k • G` is the point with integer coordinates `(x, y)`. -/
def IsMul (C : CurveClass) [GoodCurve0 C] (st : ℕ × ℤ × ℤ) : Prop :=
  ∃ h : On C (st.2.1 : ZMod C.fp) (st.2.2 : ZMod C.fp), st.1 • (G : Grp C) = pt h

theorem cast_eq_zero_iff (v : ℤ) : (v : ZMod C.fp) = 0 ↔ v % (C.fp : ℤ) = 0 := by
  rw [ZMod.intCast_zmod_eq_zero_iff_dvd, Int.dvd_iff_emod_eq_zero]

theorem cast_emod (v : ℤ) : ((v % (C.fp : ℤ) : ℤ) : ZMod C.fp) = v := by
  simp

theorem pt_cast {x y x' y' : ZMod C.fp} (h : On C x y) (hx : x = x') (hy : y = y') :
    ∃ h' : On C x' y', pt h = pt h' := by
  subst hx hy; exact ⟨h, rfl⟩

theorem chainStep_sound {st st' : ℕ × ℤ × ℤ} {c : Bool × ℤ}
    (hst : IsMul C st) (h : chainStep C.fp C.a C.gx C.gy st c = some st') : IsMul C st' := by
  obtain ⟨k, x, y⟩ := st
  obtain ⟨op, s⟩ := c
  obtain ⟨hon, hk⟩ := hst
  simp only at hon hk
  cases op
  · simp only [chainStep] at h
    split_ifs at h with hc
    obtain ⟨h1, h2⟩ := hc
    simp only [Option.some.injEq] at h
    subst h
    rw [← cast_eq_zero_iff] at h1
    have h2' : (y : ZMod C.fp) ≠ 0 := by rw [Ne, cast_eq_zero_iff]; exact h2
    have hd : (y : ZMod C.fp) * 2 ≠ 0 := mul_ne_zero h2' (two_ne C)
    have hs : (s : ZMod C.fp) = ((x : ZMod C.fp) * x * 3 + C.a) / (y * 2) := by
      rw [eq_div_iff hd]
      push_cast at h1
      linear_combination h1
    obtain ⟨h', e⟩ := pt_double hon h2' s _ _ hs rfl rfl
    obtain ⟨h'', e'⟩ := pt_cast h' (x' := ((s * s - x * 2) % (C.fp : ℤ) : ℤ))
      (y' := ((s * (x - (s * s - x * 2) % (C.fp : ℤ)) - y) % (C.fp : ℤ) : ℤ))
      (by rw [cast_emod]; push_cast; ring)
      (by rw [cast_emod]; push_cast; simp)
    refine ⟨h'', ?_⟩
    rw [← e', ← e, ← hk, mul_comm, mul_nsmul, two_nsmul]
  · simp only [chainStep] at h
    split_ifs at h with hc
    obtain ⟨h1, h2⟩ := hc
    simp only [Option.some.injEq] at h
    subst h
    rw [← cast_eq_zero_iff] at h1
    have h2' : ((x - C.gx : ℤ) : ZMod C.fp) ≠ 0 := by rw [Ne, cast_eq_zero_iff]; exact h2
    push_cast at h2'
    have hs : (s : ZMod C.fp) = ((y : ZMod C.fp) - C.gy) / (x - C.gx) := by
      rw [eq_div_iff h2']
      push_cast at h1
      linear_combination h1
    obtain ⟨h', e⟩ := pt_add_of_ne hon (gen_on (C := C)) (sub_ne_zero.1 h2') s _ _ hs rfl rfl
    obtain ⟨h'', e'⟩ := pt_cast h' (x' := ((s * s - x - C.gx) % (C.fp : ℤ) : ℤ))
      (y' := ((s * (x - (s * s - x - C.gx) % (C.fp : ℤ)) - y) % (C.fp : ℤ) : ℤ))
      (by rw [cast_emod]; push_cast; ring)
      (by rw [cast_emod]; push_cast; simp)
    refine ⟨h'', ?_⟩
    rw [← e', ← e, ← hk, succ_nsmul]
    rfl

theorem chain_sound {st st' : ℕ × ℤ × ℤ} (cs : List (Bool × ℤ))
    (hst : IsMul C st) (h : chain C.fp C.a C.gx C.gy st cs = some st') : IsMul C st' := by
  induction cs generalizing st with
  | nil => simp only [chain, Option.some.injEq] at h; subst h; exact hst
  | cons c cs ih =>
    simp only [chain] at h
    split at h
    · rename_i st1 h1
      exact ih (chainStep_sound hst h1) h
    · exact absurd h (by simp)

theorem order_of_chain (cs : List (Bool × ℤ))
    (h : chain C.fp C.a C.gx C.gy (1, C.gx, C.gy) cs = some (C.fn - 1, C.gx, (-C.gy) % C.fp)) :
    C.fn • (G : Grp C) = 0 := by
  have h1 : IsMul C (1, C.gx, C.gy) := ⟨gen_on, by rw [one_nsmul]; rfl⟩
  obtain ⟨hon, hk⟩ := chain_sound cs h1 h
  simp only at hon hk
  have e : pt hon = -(G : Grp C) := by
    rw [G, neg_pt, pt_inj]
    exact ⟨rfl, by rw [cast_emod]; push_cast; rfl⟩
  have hn : C.fn = (C.fn - 1) + 1 := by
    have := (GoodCurve0.fn_prime (C := C)).two_le; omega
  rw [hn, succ_nsmul, hk, e]; simp

/-! ## The cubic has no root -/

/-- product in `F_p[X] / (X³ + a X + b)` -/
def polMul (p a b : ℤ) (c d : ℤ × ℤ × ℤ) : ℤ × ℤ × ℤ :=
  let e0 := c.1 * d.1
  let e1 := c.1 * d.2.1 + c.2.1 * d.1
  let e2 := c.1 * d.2.2 + c.2.1 * d.2.1 + c.2.2 * d.1
  let e3 := c.2.1 * d.2.2 + c.2.2 * d.2.1
  let e4 := c.2.2 * d.2.2
  ((e0 - b * e3) % p, (e1 - a * e3 - b * e4) % p, (e2 - a * e4) % p)

def polPow (p a b : ℤ) : ℕ → (ℤ × ℤ × ℤ) → ℕ → (ℤ × ℤ × ℤ) → ℤ × ℤ × ℤ
  | 0, _, _, acc => acc
  | f + 1, c, e, acc =>
    if e = 0 then acc
    else polPow p a b f (polMul p a b c c) (e / 2) (if e % 2 = 1 then polMul p a b acc c else acc)

def ev (x : ZMod C.fp) (c : ℤ × ℤ × ℤ) : ZMod C.fp := c.1 + c.2.1 * x + c.2.2 * x ^ 2

theorem ev_polMul {x : ZMod C.fp} (hx : x ^ 3 + C.a * x + C.b = 0) (c d : ℤ × ℤ × ℤ) :
    ev x (polMul C.fp C.a C.b c d) = ev x c * ev x d := by
  simp only [ev, polMul, cast_emod]
  push_cast
  linear_combination
    (-((c.2.1 : ZMod C.fp) * d.2.2 + c.2.2 * d.2.1) - c.2.2 * d.2.2 * x) * hx

theorem ev_polPow {x : ZMod C.fp} (hx : x ^ 3 + C.a * x + C.b = 0) (f : ℕ) (c : ℤ × ℤ × ℤ) (e : ℕ)
    (acc : ℤ × ℤ × ℤ) (he : e < 2 ^ f) :
    ev x (polPow C.fp C.a C.b f c e acc) = ev x acc * ev x c ^ e := by
  induction f generalizing c e acc with
  | zero =>
    have : e = 0 := by simpa using he
    subst this; simp [polPow]
  | succ f ih =>
    rw [polPow]
    split_ifs with h0 h1
    · subst h0; simp
    · rw [ih _ _ _ (by rw [pow_succ] at he; omega), ev_polMul hx, ev_polMul hx]
      have : e = 2 * (e / 2) + 1 := by omega
      conv_rhs => rw [this]
      rw [pow_succ, pow_mul]; ring
    · rw [ih _ _ _ (by rw [pow_succ] at he; omega), ev_polMul hx]
      have : e = 2 * (e / 2) := by omega
      conv_rhs => rw [this]
      rw [pow_mul]; ring

/-- If `v` inverts `X ^ p - X` modulo the cubic then the cubic has no root. -/
theorem no_root (v c : ℤ × ℤ × ℤ) (hlt : C.fp < 2 ^ 260)
    (hc : polPow C.fp C.a C.b 260 (0, 1, 0) C.fp (1, 0, 0) = c)
    (hv : polMul C.fp C.a C.b v (c.1, c.2.1 - 1, c.2.2) = (1, 0, 0)) (x : ZMod C.fp) :
    x ^ 3 + C.a * x + C.b ≠ 0 := by
  intro hx
  have h1 := ev_polPow hx 260 (0, 1, 0) C.fp (1, 0, 0) hlt
  rw [hc] at h1
  have h2 : ev x (0, 1, 0) = x := by simp [ev]
  rw [h2, ZMod.pow_card] at h1
  have h3 := ev_polMul hx v (c.1, c.2.1 - 1, c.2.2)
  rw [hv] at h3
  have h4 : ev x (c.1, c.2.1 - 1, c.2.2) = 0 := by
    have : ev x (c.1, c.2.1 - 1, c.2.2) = ev x c - x := by simp [ev]; ring
    rw [this, h1]; simp [ev]
  rw [h4, mul_zero] at h3
  simp [ev] at h3

/-! ## Counting -/

/-- coordinates with the ordinate compressed to one bit -/
def compress : Grp C → Option (ZMod C.fp × Bool)
  | .zero => none
  | .some x y _ => some (x, decide (2 * y.val < C.fp))

theorem compress_injective : Function.Injective (compress (C := C)) := by
  intro A B h
  rcases A with _ | ⟨x, y, hA⟩ <;> rcases B with _ | ⟨x', y', hB⟩
  · rfl
  · simp [compress] at h
  · simp [compress] at h
  · simp only [compress, Option.some.injEq, Prod.mk.injEq, decide_eq_decide] at h
    obtain ⟨rfl, hy⟩ := h
    rcases y_eq_or (on_of_nonsingular hA) (on_of_nonsingular hB) with e | e
    · subst e; rfl
    · by_cases h0 : y' = 0
      · subst h0; simp at e; subst e; rfl
      · exfalso
        subst e
        have hv : (-y').val = C.fp - y'.val := by
          rw [ZMod.neg_val, if_neg h0]
        have := ZMod.val_lt y'
        have h4 : C.fp % 4 = 3 := GoodCurve0.fp_mod4
        rw [hv] at hy
        omega

instance : Finite (Grp C) := Finite.of_injective _ compress_injective

theorem card_le : Nat.card (Grp C) ≤ 2 * C.fp + 1 := by
  have h := Nat.card_le_card_of_injective _ (compress_injective (C := C))
  rw [Finite.card_option, Nat.card_prod, Nat.card_zmod] at h
  simp at h
  omega

theorem card_eq (hord : C.fn • (G : Grp C) = 0) (hroot : ∀ x : ZMod C.fp, x ^ 3 + C.a * x + C.b ≠ 0)
    (hbound : 2 * C.fp + 1 < 3 * C.fn) : Nat.card (Grp C) = C.fn := by
  have hG : (G : Grp C) ≠ 0 := pt_ne_zero _
  have ho : addOrderOf (G : Grp C) = C.fn := by
    exact addOrderOf_eq_prime hord hG
  have hdvd : C.fn ∣ Nat.card (Grp C) := by rw [← ho]; exact addOrderOf_dvd_natCard _
  obtain ⟨k, hk⟩ := hdvd
  have hle := card_le (C := C)
  have hpos : 0 < Nat.card (Grp C) := Nat.card_pos
  have hn := (GoodCurve0.fn_prime (C := C)).pos
  have hk3 : k < 3 := by
    by_contra hcon
    have : C.fn * 3 ≤ C.fn * k := Nat.mul_le_mul_left _ (by omega)
    omega
  have hk0 : k ≠ 0 := by rintro rfl; omega
  have hk2 : k ≠ 2 := by
    rintro rfl
    have h2 : 2 ∣ Nat.card (Grp C) := ⟨C.fn, by rw [hk, mul_comm]⟩
    obtain ⟨A, hA⟩ := exists_prime_addOrderOf_dvd_card' (G := Grp C) 2 h2
    have hA0 : A ≠ 0 := by rintro rfl; simp at hA
    have hAA : A + A = 0 := by
      have := addOrderOf_nsmul_eq_zero A
      rw [hA, two_nsmul] at this
      exact this
    rcases cases_pt A with h | ⟨x, y, h, rfl⟩
    · exact hA0 h
    · have e : pt h = -pt h := eq_neg_of_add_eq_zero_left hAA
      rw [neg_pt, pt_inj] at e
      have hy : y = 0 := by
        have h5 : 2 * y = 0 := by linear_combination e.2
        exact (mul_eq_zero.1 h5).resolve_left (two_ne C)
      subst hy
      unfold On at h
      exact hroot x (by linear_combination -h)
  have : k = 1 := by omega
  rw [hk, this, mul_one]

end EC

/-- A curve class whose group has exactly `fn` points. -/
class GoodCurve (C : CurveClass) : Prop extends GoodCurve0 C where
  card_eq : Nat.card (EC.Grp C) = C.fn

namespace EC

variable {C : CurveClass} [GoodCurve C]

theorem fn_nsmul (A : Grp C) : C.fn • A = 0 := by
  have := card_nsmul_eq_zero' (x := A)
  rwa [GoodCurve.card_eq] at this

theorem addOrderOf_eq {A : Grp C} (h : A ≠ 0) : addOrderOf A = C.fn :=
  addOrderOf_eq_prime (fn_nsmul A) h

theorem nsmul_eq_zero_iff {A : Grp C} (h : A ≠ 0) (k : ℕ) : k • A = 0 ↔ C.fn ∣ k := by
  rw [← addOrderOf_dvd_iff_nsmul_eq_zero, addOrderOf_eq h]

theorem zsmul_eq_zero_iff {A : Grp C} (h : A ≠ 0) (k : ℤ) : k • A = 0 ↔ (C.fn : ℤ) ∣ k := by
  rw [← addOrderOf_dvd_iff_zsmul_eq_zero, addOrderOf_eq h]

theorem exists_zsmul {B : Grp C} (hB : B ≠ 0) (A : Grp C) : ∃ k : ℕ, k < C.fn ∧ A = k • B := by
  have h1 : Nat.card (AddSubgroup.zmultiples B) = Nat.card (Grp C) := by
    rw [Nat.card_zmultiples, addOrderOf_eq hB, GoodCurve.card_eq]
  have h2 : AddSubgroup.zmultiples B = ⊤ := AddSubgroup.eq_top_of_card_eq _ h1
  have h3 : A ∈ AddSubgroup.zmultiples B := by rw [h2]; trivial
  obtain ⟨z, hz⟩ := AddSubgroup.mem_zmultiples_iff.1 h3
  have hn : (0 : ℤ) < C.fn := by exact_mod_cast (GoodCurve0.fn_prime (C := C)).pos
  refine ⟨(z % C.fn).toNat, ?_, ?_⟩
  · have := Int.emod_lt_of_pos z hn
    have := Int.emod_nonneg z hn.ne'
    omega
  · have h5 : ((z % C.fn).toNat : ℤ) = z % C.fn := Int.toNat_of_nonneg (Int.emod_nonneg z hn.ne')
    rw [← natCast_zsmul, h5, ← hz, Int.emod_def, sub_smul, mul_comm, mul_smul]
    rw [smul_comm, natCast_zsmul, fn_nsmul]; simp

theorem eq_zero_of_double {A : Grp C} (h : A + A = 0) : A = 0 := by
  by_contra h0
  have := (nsmul_eq_zero_iff h0 2).1 (by rw [two_nsmul]; exact h)
  have h2 := (Nat.prime_dvd_prime_iff_eq (GoodCurve0.fn_prime (C := C)) Nat.prime_two).1 this
  exact GoodCurve0.fn_ne_two h2

/-- no point has ordinate zero -/
theorem y_ne_zero {x y : ZMod C.fp} (h : On C x y) : y ≠ 0 := by
  rintro rfl
  have : pt h + pt h = 0 := by
    have e : pt h = -pt h := by rw [neg_pt, pt_inj]; simp
    nth_rewrite 1 [e]; simp
  exact pt_ne_zero h (eq_zero_of_double this)

end EC
end Verif
