import Mathlib.Algebra.Field.ZMod
import Mathlib.Tactic.Ring
import Mathlib.Tactic.LinearCombination
import Mathlib.Tactic.Push
import Verif.Model.Field

/-!
# Field operations on canonical elements
-/

namespace Verif

@[simp] theorem R.ok_bind {α β : Type} (a : α) (f : α → R β) : ((Except.ok a : R α) >>= f) = f a := rfl
@[simp] theorem R.error_bind {α β : Type} (e : Fault) (f : α → R β) :
    ((Except.error e : R α) >>= f) = Except.error e := rfl
@[simp] theorem R.pure_eq {α : Type} (a : α) : (pure a : R α) = Except.ok a := rfl

theorem R.bind_eq_ok {α β : Type} {x : R α} {f : α → R β} {b : β} :
    (x >>= f) = .ok b ↔ ∃ a, x = .ok a ∧ f a = .ok b := by
  cases x <;> simp

@[simp] theorem cassert_true (env : Env) : cassert env (.ok true) = .ok () := by
  unfold cassert; split <;> simp

theorem cassert_of_eq_true (env : Env) {e : R Bool} (h : e = .ok true) : cassert env e = .ok () := by
  subst h; simp

/-- the extended Euclid loop returns a coefficient `s` with `s * a ≡ gcd`. -/
theorem egcd_spec (a d : Int) (fuel : Nat) (r0 r1 s0 s1 : Int) (p0 : 0 ≤ r0) (p1 : 0 ≤ r1)
    (h0 : d ∣ r0 - s0 * a) (h1 : d ∣ r1 - s1 * a) (hf : r1.natAbs ≤ fuel) :
    d ∣ (Int.gcd r0 r1 : Int) - egcd fuel r0 r1 s0 s1 * a := by
  induction fuel generalizing r0 r1 s0 s1 with
  | zero =>
    have : r1 = 0 := by omega
    subst this
    have : ((Int.gcd r0 0 : Nat) : Int) = r0 := by simp [p0]
    rw [this]; simpa [egcd] using h0
  | succ n ih =>
    by_cases hr : r1 = 0
    · subst hr
      have : ((Int.gcd r0 0 : Nat) : Int) = r0 := by simp [p0]
      rw [this]; simpa [egcd] using h0
    · have hr' : 0 < r1 := by omega
      have h2 := Int.emod_nonneg r0 hr
      have h3 := Int.emod_lt_of_pos r0 hr'
      have hlt : (r0 % r1).natAbs ≤ n := by omega
      have h4 : d ∣ r0 % r1 - (s0 - (r0 / r1) * s1) * a := by
        have e : r0 % r1 - (s0 - (r0 / r1) * s1) * a
            = (r0 - s0 * a) - (r0 / r1) * (r1 - s1 * a) := by
          rw [Int.emod_def]; ring
        rw [e]
        exact dvd_sub h0 (Dvd.dvd.mul_left h1 _)
      have hd := ih r1 (r0 % r1) s1 (s0 - (r0 / r1) * s1) p1 h2 h1 h4 hlt
      have hg : Int.gcd r1 (r0 % r1) = Int.gcd r0 r1 := by
        rw [Int.gcd_comm, Int.gcd_emod]
      rw [hg] at hd
      simpa [egcd, hr] using hd

theorem mpzInvert_ok {a d : Int} (hd : d ≠ 0) (h : Int.gcd a d = 1) :
    ∃ i, mpzInvert a d = .ok i ∧ 0 ≤ i ∧ i < |d| ∧ d ∣ i * a - 1 := by
  refine ⟨egcd d.natAbs (a % d) d.natAbs 1 0 % d,
    by simp only [mpzInvert, if_neg hd, if_pos h], Int.emod_nonneg _ hd,
    Int.emod_lt_abs _ hd, ?_⟩
  have key := egcd_spec a d d.natAbs (a % d) d.natAbs 1 0 (Int.emod_nonneg _ hd) (by omega)
    (by rw [Int.emod_def]; exact ⟨-(a / d), by ring⟩) (by simp [Int.dvd_natAbs]) (Int.natAbs_natCast _).le
  have hg : Int.gcd (a % d) (d.natAbs : Int) = 1 := by
    have e1 : Int.gcd (a % d) (d.natAbs : Int) = Int.gcd (a % d) d := by
      simp only [Int.gcd, Int.natAbs_natCast]
    rw [e1, Int.gcd_emod, h]
  rw [hg] at key
  set s := egcd d.natAbs (a % d) d.natAbs 1 0 with hs
  obtain ⟨k, hk⟩ := key
  rw [Int.emod_def]
  refine ⟨-k - (s / d) * a, ?_⟩
  push_cast at hk
  linear_combination -hk

theorem mpzInvert_err {a d : Int} (h : Int.gcd a d ≠ 1) : mpzInvert a d = .error .undefInverse := by
  simp [mpzInvert, h]

namespace Fld

variable {m : Nat}

/-- The canonical field object representing a residue. -/
def ofZ (z : ZMod m) : Fld := ⟨(z.val : Int), m⟩

@[simp] theorem ofZ_p (z : ZMod m) : (ofZ z).p = m := rfl
@[simp] theorem ofZ_value (z : ZMod m) : (ofZ z).value = z.val := rfl

theorem ofZ_injective [NeZero m] : Function.Injective (ofZ (m := m)) := by
  intro a b h
  have : ((a.val : Nat) : Int) = b.val := congrArg Fld.value h
  exact ZMod.val_injective m (by exact_mod_cast this)

theorem mk'_eq [NeZero m] (v : Int) : mk' m v = ofZ (v : ZMod m) := by
  simp only [mk', ofZ, ZMod.val_intCast]

theorem zero_eq : zero m = ofZ (0 : ZMod m) := by
  simp [zero, ofZ]

theorem mk'_canonical [NeZero m] {a : Fld} (h0 : 0 ≤ a.value) (h1 : a.value < m) (hp : a.p = m) :
    a = ofZ (a.value : ZMod m) := by
  have : a = mk' m a.value := by
    cases a; simp only [mk'] at *; rw [Int.emod_eq_of_lt h0 h1, hp]
  rw [← mk'_eq]; exact this

theorem beq_ofZ [NeZero m] (x y : ZMod m) : (ofZ x).beq (ofZ y) = decide (x = y) := by
  by_cases h : x = y
  · subst h; simp [beq]
  · have : ((x.val : Nat) : Int) ≠ y.val := by
      intro e; apply h
      exact ZMod.val_injective m (by exact_mod_cast e)
    simp only [beq, ofZ_value, this, h, decide_false, Bool.false_and]

theorem sameField_ofZ (env : Env) (x y : ZMod m) : sameField env (ofZ x) (ofZ y) = .ok () := by
  simp [sameField]

theorem mpzMod_m [NeZero m] (v : Int) : mpzMod v (m : Int) = .ok (v % (m : Int)) := by
  have : (m : Int) ≠ 0 := by exact_mod_cast NeZero.ne m
  simp only [mpzMod, if_neg this]

theorem mk'_emod [NeZero m] (v : Int) : mk' m (v % (m : Int)) = mk' m v := by
  simp [mk']

variable [NeZero m] (env : Env)

@[simp] theorem add_ofZ (x y : ZMod m) : add env m (ofZ x) (ofZ y) = .ok (ofZ (x + y)) := by
  simp [add, sameField_ofZ, mpzMod_m, mk'_eq]

@[simp] theorem sub_ofZ (x y : ZMod m) : sub env m (ofZ x) (ofZ y) = .ok (ofZ (x - y)) := by
  simp [sub, sameField_ofZ, mpzMod_m, mk'_eq]

@[simp] theorem mul_ofZ (x y : ZMod m) : mul env m (ofZ x) (ofZ y) = .ok (ofZ (x * y)) := by
  simp [mul, sameField_ofZ, mpzMod_m, mk'_eq]

@[simp] theorem neg_ofZ (x : ZMod m) : neg m (ofZ x) = .ok (ofZ (-x)) := by
  simp [neg, mpzMod_m, mk'_eq]

@[simp] theorem mulZ_ofZ (x : ZMod m) (k : Int) : mulZ m (ofZ x) k = .ok (ofZ (x * (k : ZMod m))) := by
  simp [mulZ, mpzMod_m, mk'_eq]

@[simp] theorem square_ofZ (x : ZMod m) : square m (ofZ x) = .ok (ofZ (x * x)) := by
  simp [square, mpzMod_m, mk'_eq]

theorem emod_canonical (v : Int) : ({ value := v % (m : Int), p := (m : Int) } : Fld) = ofZ (v : ZMod m) := by
  rw [← mk'_eq]; rfl

@[simp] theorem addAssign_ofZ (x y : ZMod m) : addAssign env (ofZ x) (ofZ y) = .ok (ofZ (x + y)) := by
  simp [addAssign, sameField_ofZ, mpzMod_m, emod_canonical]

@[simp] theorem subAssign_ofZ (x y : ZMod m) : subAssign env (ofZ x) (ofZ y) = .ok (ofZ (x - y)) := by
  simp [subAssign, sameField_ofZ, mpzMod_m, emod_canonical]

@[simp] theorem mulAssign_ofZ (x y : ZMod m) : mulAssign env (ofZ x) (ofZ y) = .ok (ofZ (x * y)) := by
  simp [mulAssign, sameField_ofZ, mpzMod_m, emod_canonical]

@[simp] theorem mulZAssign_ofZ (x : ZMod m) (k : Int) : mulZAssign (ofZ x) k = .ok (ofZ (x * (k : ZMod m))) := by
  simp [mulZAssign, mpzMod_m, emod_canonical]

omit [NeZero m] in
theorem invert_ofZ_zero (hm : m ≠ 1) : invert m (ofZ (0 : ZMod m)) = .error .undefInverse := by
  have : Int.gcd ((0 : ZMod m).val : Int) (m : Int) ≠ 1 := by simpa using hm
  simp only [invert, ofZ_value, ofZ_p, mpzInvert_err this, R.error_bind]

end Fld

namespace Fld
variable {m : Nat} [Fact m.Prime] (env : Env)

theorem invert_ofZ {x : ZMod m} (hx : x ≠ 0) : invert m (ofZ x) = .ok (ofZ x⁻¹) := by
  have hm : m.Prime := Fact.out
  have hg : Int.gcd (x.val : Int) (m : Int) = 1 := by
    rw [Int.gcd_natCast_natCast]
    apply Nat.Coprime.symm
    rw [Nat.Prime.coprime_iff_not_dvd hm]
    intro hdvd
    have := Nat.eq_zero_of_dvd_of_lt hdvd (ZMod.val_lt x)
    exact hx ((ZMod.val_eq_zero x).1 this)
  obtain ⟨i, hi, -, -, hd⟩ := mpzInvert_ok (a := x.val) (d := m) (by exact_mod_cast hm.ne_zero) hg
  simp only [invert, ofZ_value, ofZ_p, hi, R.ok_bind, mk'_eq]
  congr 2
  apply eq_inv_of_mul_eq_one_left
  have h0 : ((i * x.val - 1 : Int) : ZMod m) = 0 := (ZMod.intCast_zmod_eq_zero_iff_dvd _ m).2 hd
  push_cast at h0
  rw [ZMod.natCast_zmod_val] at h0
  exact sub_eq_zero.1 h0

theorem div_ofZ (x : ZMod m) {y : ZMod m} (hy : y ≠ 0) :
    div env m (ofZ x) (ofZ y) = .ok (ofZ (x / y)) := by
  simp [div, sameField_ofZ, invert_ofZ hy, div_eq_mul_inv]

theorem divAssign_ofZ (x : ZMod m) {y : ZMod m} (hy : y ≠ 0) :
    divAssign env m (ofZ x) (ofZ y) = .ok (ofZ (x / y)) := by
  simp [divAssign, sameField_ofZ, invert_ofZ hy, div_eq_mul_inv]

theorem div_ofZ_zero (x : ZMod m) : div env m (ofZ x) (ofZ (0 : ZMod m)) = .error .undefInverse := by
  have hm : m.Prime := Fact.out
  simp [div, sameField_ofZ, invert_ofZ_zero hm.ne_one]

theorem divAssign_ofZ_zero (x : ZMod m) :
    divAssign env m (ofZ x) (ofZ (0 : ZMod m)) = .error .undefInverse := by
  have hm : m.Prime := Fact.out
  simp [divAssign, sameField_ofZ, invert_ofZ_zero hm.ne_one]

end Fld

end Verif
