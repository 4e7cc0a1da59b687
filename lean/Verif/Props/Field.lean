import Verif.Spec.Observe
import Verif.Lemmas.FieldSpec
import Mathlib.Tactic.Ring
import Mathlib.Tactic.FieldSimp

/-!
# C01 – C05, C07: the prime field classes
-/

namespace Verif

open Fld

/-! ## C01 -/

/-- C01: `a + b` is exact in both build modes. -/
theorem C01_add (env : Env) {m : ℕ} (hm : IsModulus m) {a b : Fld} (ha : IsElem m a) (hb : IsElem m b) :
    Returns m (add env m a b) (a.value + b.value) := by
  haveI : NeZero m := ⟨hm.prime.ne_zero⟩
  obtain ⟨x, rfl⟩ := isElem_iff.1 ha
  obtain ⟨y, rfl⟩ := isElem_iff.1 hb
  exact returns_ofZ (add_ofZ env x y) (by simp)

/-- C01: `a - b`. -/
theorem C01_sub (env : Env) {m : ℕ} (hm : IsModulus m) {a b : Fld} (ha : IsElem m a) (hb : IsElem m b) :
    Returns m (sub env m a b) (a.value - b.value) := by
  haveI : NeZero m := ⟨hm.prime.ne_zero⟩
  obtain ⟨x, rfl⟩ := isElem_iff.1 ha
  obtain ⟨y, rfl⟩ := isElem_iff.1 hb
  exact returns_ofZ (sub_ofZ env x y) (by simp)

/-- C01: `a * b`. -/
theorem C01_mul (env : Env) {m : ℕ} (hm : IsModulus m) {a b : Fld} (ha : IsElem m a) (hb : IsElem m b) :
    Returns m (mul env m a b) (a.value * b.value) := by
  haveI : NeZero m := ⟨hm.prime.ne_zero⟩
  obtain ⟨x, rfl⟩ := isElem_iff.1 ha
  obtain ⟨y, rfl⟩ := isElem_iff.1 hb
  exact returns_ofZ (mul_ofZ env x y) (by simp)

/-- C01: `-a`. -/
theorem C01_neg {m : ℕ} (hm : IsModulus m) {a : Fld} (ha : IsElem m a) :
    Returns m (neg m a) (-a.value) := by
  haveI : NeZero m := ⟨hm.prime.ne_zero⟩
  obtain ⟨x, rfl⟩ := isElem_iff.1 ha
  exact returns_ofZ (neg_ofZ x) (by simp)

/-- C01: `a.square()`. -/
theorem C01_square {m : ℕ} (hm : IsModulus m) {a : Fld} (ha : IsElem m a) :
    Returns m (square m a) (a.value ^ 2) := by
  haveI : NeZero m := ⟨hm.prime.ne_zero⟩
  obtain ⟨x, rfl⟩ := isElem_iff.1 ha
  exact returns_ofZ (square_ofZ x) (by simp [sq])

/-- C01: `a * k` for a big integer `k` of any sign. -/
theorem C01_mulZ {m : ℕ} (hm : IsModulus m) {a : Fld} (ha : IsElem m a) (k : ℤ) :
    Returns m (mulZ m a k) (a.value * k) := by
  haveI : NeZero m := ⟨hm.prime.ne_zero⟩
  obtain ⟨x, rfl⟩ := isElem_iff.1 ha
  exact returns_ofZ (mulZ_ofZ x k) (by simp)

/-- a non-trivial instance: the largest element of a class is an element -/
example : IsElem secpN ⟨(secpN : ℤ) - 1, secpN⟩ ∧ IsModulus secpN :=
  ⟨⟨rfl, by decide, by decide⟩, by simp [IsModulus]⟩

example : add ⟨false, fun _ => none⟩ secpN ⟨(secpN : ℤ) - 1, secpN⟩ ⟨5, secpN⟩ = .ok ⟨4, secpN⟩ := by
  decide

/-! ## C02 -/

/-- C02: `F(x)` is the canonical representative of `x`. -/
theorem C02_ctor {m : ℕ} (hm : IsModulus m) (x : ℤ) :
    IsElem m (mk' m x) ∧ (mk' m x).value ≡ x [ZMOD m] := by
  haveI : NeZero m := ⟨hm.prime.ne_zero⟩
  refine ⟨isElem_mk' x, ?_⟩
  rw [← ZMod.intCast_eq_intCast_iff, mk'_eq, ofZ_cast]

/-- C02: `F(x) == F(y)` is congruence. -/
theorem C02_eq {m : ℕ} (hm : IsModulus m) (x y : ℤ) :
    beq (mk' m x) (mk' m y) = true ↔ x ≡ y [ZMOD m] := by
  haveI : NeZero m := ⟨hm.prime.ne_zero⟩
  rw [mk'_eq, mk'_eq, beq_ofZ, decide_eq_true_eq, ZMod.intCast_eq_intCast_iff]

/-- C02: the default constructor is `F(0)`. -/
theorem C02_default {m : ℕ} (hm : IsModulus m) : zero m = mk' m 0 := by
  haveI : NeZero m := ⟨hm.prime.ne_zero⟩
  rw [mk'_eq, zero_eq]; simp

example : beq (mk' bn254P (-1)) (mk' bn254P ((bn254P : ℤ) * 7 - 1)) = true := by decide
example : beq (mk' bn254P (-1)) (mk' bn254P 1) = false := by decide

/-! ## C03 -/

/-- C03: `b.invert() * b == 1` for non-zero `b`. -/
theorem C03_invert (env : Env) {m : ℕ} (hm : IsModulus m) {b : Fld} (hb : IsElem m b) (h0 : b.value ≠ 0) :
    Ends (invert m b) fun i => IsElem m i ∧ mul env m i b = .ok ⟨1, m⟩ := by
  haveI : NeZero m := ⟨hm.prime.ne_zero⟩
  haveI : Fact m.Prime := ⟨hm.prime⟩
  obtain ⟨y, rfl⟩ := isElem_iff.1 hb
  have hy : y ≠ 0 := by rintro rfl; simp at h0
  refine ⟨_, invert_ofZ hy, isElem_ofZ _, ?_⟩
  rw [mul_ofZ, inv_mul_cancel₀ hy]
  haveI := Fact.mk hm.prime.one_lt
  simp [ofZ, ZMod.val_one]

/-- C03: `(a / b) * b == a` for non-zero `b`. -/
theorem C03_div (env : Env) {m : ℕ} (hm : IsModulus m) {a b : Fld} (ha : IsElem m a) (hb : IsElem m b)
    (h0 : b.value ≠ 0) :
    Ends (div env m a b) fun q => IsElem m q ∧ mul env m q b = .ok a := by
  haveI : NeZero m := ⟨hm.prime.ne_zero⟩
  haveI : Fact m.Prime := ⟨hm.prime⟩
  obtain ⟨x, rfl⟩ := isElem_iff.1 ha
  obtain ⟨y, rfl⟩ := isElem_iff.1 hb
  have hy : y ≠ 0 := by rintro rfl; simp at h0
  refine ⟨_, div_ofZ env x hy, isElem_ofZ _, ?_⟩
  rw [mul_ofZ, div_mul_cancel₀ _ hy]

/-- C03: inverting or dividing by zero has no defined result, in either build mode. -/
theorem C03_zero (env : Env) {m : ℕ} (hm : IsModulus m) {a b : Fld} (ha : IsElem m a) (hb : IsElem m b)
    (h0 : b.value = 0) :
    Faults (invert m b) ∧ Faults (div env m a b) ∧ Faults (divAssign env m a b) := by
  haveI : NeZero m := ⟨hm.prime.ne_zero⟩
  haveI : Fact m.Prime := ⟨hm.prime⟩
  obtain ⟨x, rfl⟩ := isElem_iff.1 ha
  have hb' := hb.eq_ofZ
  rw [h0, Int.cast_zero] at hb'
  subst hb'
  exact ⟨⟨_, invert_ofZ_zero hm.prime.ne_one⟩, ⟨_, div_ofZ_zero env x⟩, ⟨_, divAssign_ofZ_zero env x⟩⟩

example : invert secpP ⟨2, secpP⟩ = .ok ⟨(secpP + 1) / 2, secpP⟩ := by decide +kernel

/-! ## C04

A program is a finite sequence of compound assignments on a set of variables of one field class; the
right-hand operand may be the very variable being updated. -/

/-- One statement. -/
inductive Stmt where
  | add (v w : ℕ) | sub (v w : ℕ) | mul (v w : ℕ) | div (v w : ℕ) | mulZ (v : ℕ) (k : ℤ)

/-- variable assigned to -/
def Stmt.target : Stmt → ℕ
  | .add v _ => v | .sub v _ => v | .mul v _ => v | .div v _ => v | .mulZ v _ => v

/-- run one statement with the class's compound operators -/
def Stmt.exec (env : Env) (m : ℕ) (σ : ℕ → Fld) : Stmt → R Fld
  | .add v w => addAssign env (σ v) (σ w)
  | .sub v w => subAssign env (σ v) (σ w)
  | .mul v w => mulAssign env (σ v) (σ w)
  | .div v w => divAssign env m (σ v) (σ w)
  | .mulZ v k => mulZAssign (σ v) k

/-- run a program -/
def runProg (env : Env) (m : ℕ) (σ : ℕ → Fld) : List Stmt → R (ℕ → Fld)
  | [] => .ok σ
  | s :: ss => do
    let r ← s.exec env m σ
    runProg env m (Function.update σ s.target r) ss

/-- The mathematical meaning of a statement over the residues modulo `m`. -/
def Stmt.meaning {m : ℕ} (ρ : ℕ → ZMod m) : Stmt → ZMod m
  | .add v w => ρ v + ρ w
  | .sub v w => ρ v - ρ w
  | .mul v w => ρ v * ρ w
  | .div v w => ρ v * (ρ w)⁻¹
  | .mulZ v k => ρ v * (k : ZMod m)

/-- the divisor of the statement is non-zero -/
def Stmt.Defined {m : ℕ} (ρ : ℕ → ZMod m) : Stmt → Prop
  | .div _ w => ρ w ≠ 0
  | _ => True

/-- The mathematical meaning of a program; `none` when some divisor is zero. -/
noncomputable def meaning {m : ℕ} (ρ : ℕ → ZMod m) : List Stmt → Option (ℕ → ZMod m)
  | [] => some ρ
  | s :: ss =>
    open Classical in
    if s.Defined ρ then meaning (Function.update ρ s.target (s.meaning ρ)) ss else none

/-- C04: every finite program of compound assignments computes its mathematical meaning, in canonical
form, and a program dividing by zero has no defined result. -/
theorem C04_programs (env : Env) {m : ℕ} (hm : IsModulus m) (prog : List Stmt) (σ : ℕ → Fld)
    (hσ : ∀ v, IsElem m (σ v)) :
    match meaning (m := m) (fun v => ((σ v).value : ZMod m)) prog with
    | some ρ' => Ends (runProg env m σ prog) fun σ' =>
        ∀ v, IsElem m (σ' v) ∧ ((σ' v).value : ZMod m) = ρ' v
    | none => Faults (runProg env m σ prog) := by
  haveI : NeZero m := ⟨hm.prime.ne_zero⟩
  haveI : Fact m.Prime := ⟨hm.prime⟩
  induction prog generalizing σ with
  | nil => exact ⟨σ, rfl, fun v => ⟨hσ v, rfl⟩⟩
  | cons s ss ih =>
    obtain ⟨ρ, hρ⟩ : ∃ ρ : ℕ → ZMod m, ∀ v, σ v = ofZ (ρ v) :=
      ⟨fun v => ((σ v).value : ZMod m), fun v => (hσ v).eq_ofZ⟩
    have hval : (fun v => ((σ v).value : ZMod m)) = ρ := by
      funext v; rw [hρ v, ofZ_cast]
    rw [hval] at *
    by_cases hd : s.Defined ρ
    · have hex : s.exec env m σ = .ok (ofZ (s.meaning ρ)) := by
        cases s with
        | add v w => simp only [Stmt.exec, hρ, addAssign_ofZ, Stmt.meaning]
        | sub v w => simp only [Stmt.exec, hρ, subAssign_ofZ, Stmt.meaning]
        | mul v w => simp only [Stmt.exec, hρ, mulAssign_ofZ, Stmt.meaning]
        | div v w => simp only [Stmt.exec, hρ, divAssign_ofZ env (ρ v) hd, Stmt.meaning, div_eq_mul_inv]
        | mulZ v k => simp only [Stmt.exec, hρ, mulZAssign_ofZ, Stmt.meaning]
      have hσ' : ∀ v, IsElem m (Function.update σ s.target (ofZ (s.meaning ρ)) v) := by
        intro v
        by_cases hv : v = s.target
        · rw [hv, Function.update_self]; exact isElem_ofZ _
        · rw [Function.update_of_ne hv]; exact hσ v
      have hup : (fun v => ((Function.update σ s.target (ofZ (s.meaning ρ)) v).value : ZMod m))
          = Function.update ρ s.target (s.meaning ρ) := by
        funext v
        by_cases hv : v = s.target
        · rw [hv, Function.update_self, Function.update_self, ofZ_cast]
        · rw [Function.update_of_ne hv, Function.update_of_ne hv, hρ v, ofZ_cast]
      have := ih _ hσ'
      rw [hup] at this
      simp only [meaning, hd, if_true, runProg, hex, R.ok_bind]
      exact this
    · have hex : ∃ e, s.exec env m σ = .error e := by
        cases s with
        | div v w =>
          have h0 : ρ w = 0 := by simpa [Stmt.Defined] using hd
          have := divAssign_ofZ_zero env (ρ v)
          rw [← hρ v, ← h0, ← hρ w] at this
          exact ⟨_, this⟩
        | _ => exact absurd trivial hd
      obtain ⟨e, he⟩ := hex
      simp only [meaning, hd, if_false, runProg, he, R.error_bind]
      exact ⟨e, rfl⟩

/-- C04: each compound assignment agrees with the corresponding binary operator. -/
theorem C04_agrees (env : Env) {m : ℕ} (hm : IsModulus m) {a b : Fld} (ha : IsElem m a) (hb : IsElem m b)
    (k : ℤ) :
    addAssign env a b = add env m a b ∧ subAssign env a b = sub env m a b ∧
    mulAssign env a b = mul env m a b ∧ divAssign env m a b = div env m a b ∧
    mulZAssign a k = mulZ m a k := by
  haveI : NeZero m := ⟨hm.prime.ne_zero⟩
  haveI : Fact m.Prime := ⟨hm.prime⟩
  obtain ⟨x, rfl⟩ := isElem_iff.1 ha
  obtain ⟨y, rfl⟩ := isElem_iff.1 hb
  refine ⟨by simp, by simp, by simp, ?_, by simp⟩
  by_cases hy : y = 0
  · subst hy; rw [div_ofZ_zero, divAssign_ofZ_zero]
  · rw [div_ofZ env x hy, divAssign_ofZ env x hy]

/-- a program with aliased operands: `a += a; a *= b; b /= a; a -= a` from `a = 3, b = 4` -/
example : (runProg ⟨false, fun _ => none⟩ secpN (fun v => mk' secpN (v + 3))
    [.add 0 0, .mul 0 1, .div 1 0, .sub 0 0, .mulZ 1 (-6)]).map (fun σ => (σ 0, σ 1))
    = .ok (⟨0, secpN⟩, ⟨(secpN : ℤ) - 1, secpN⟩) := by decide +kernel

/-! ## C05 -/

/-- C05: the laws of a commutative field, observed through `operator==`.  Nested expressions are
evaluated left to right as the code would. -/
theorem C05_field_laws (env : Env) {m : ℕ} (hm : IsModulus m) {a b c : Fld} (ha : IsElem m a)
    (hb : IsElem m b) (hc : IsElem m c) (k : ℤ) :
    EqR (do add env m (← add env m a b) c) (do add env m a (← add env m b c)) ∧
    EqR (add env m a b) (add env m b a) ∧
    EqR (do mul env m (← mul env m a b) c) (do mul env m a (← mul env m b c)) ∧
    EqR (mul env m a b) (mul env m b a) ∧
    EqR (do mul env m a (← add env m b c)) (do add env m (← mul env m a b) (← mul env m a c)) ∧
    EqR (add env m a (mk' m 0)) (.ok a) ∧
    EqR (mul env m a (mk' m 1)) (.ok a) ∧
    EqR (sub env m a b) (do add env m a (← neg m b)) ∧
    EqR (do add env m a (← neg m a)) (.ok (mk' m 0)) ∧
    EqR (square m a) (mul env m a a) ∧
    EqR (mulZ m a k) (mul env m a (mk' m k)) ∧
    (beq a (mk' m 0) = false → EqR (do mul env m a (← invert m a)) (.ok (mk' m 1))) := by
  haveI : NeZero m := ⟨hm.prime.ne_zero⟩
  haveI : Fact m.Prime := ⟨hm.prime⟩
  obtain ⟨x, rfl⟩ := isElem_iff.1 ha
  obtain ⟨y, rfl⟩ := isElem_iff.1 hb
  obtain ⟨z, rfl⟩ := isElem_iff.1 hc
  have key : ∀ {r s : R Fld} {u v : ZMod m}, r = .ok (ofZ u) → s = .ok (ofZ v) → u = v → EqR r s := by
    rintro r s u v rfl rfl rfl
    exact ⟨_, _, rfl, rfl, by rw [beq_ofZ]; simp⟩
  refine ⟨?_, ?_, ?_, ?_, ?_, ?_, ?_, ?_, ?_, ?_, ?_, ?_⟩
  · exact key (by simp only [add_ofZ, R.ok_bind]) (by simp only [add_ofZ, R.ok_bind]) (add_assoc x y z)
  · exact key (add_ofZ env x y) (add_ofZ env y x) (add_comm x y)
  · exact key (by simp only [mul_ofZ, R.ok_bind]) (by simp only [mul_ofZ, R.ok_bind]) (mul_assoc x y z)
  · exact key (mul_ofZ env x y) (mul_ofZ env y x) (mul_comm x y)
  · exact key (by simp only [add_ofZ, mul_ofZ, R.ok_bind]) (by simp only [add_ofZ, mul_ofZ, R.ok_bind])
      (mul_add x y z)
  · exact key (by rw [mk'_eq, add_ofZ]) rfl (by simp)
  · exact key (by rw [mk'_eq, mul_ofZ]) rfl (by simp)
  · exact key (sub_ofZ env x y) (by simp only [neg_ofZ, R.ok_bind, add_ofZ]) (sub_eq_add_neg x y)
  · exact key (u := x + -x) (by simp only [neg_ofZ, R.ok_bind, add_ofZ]) (by rw [mk'_eq]) (by simp)
  · exact key (square_ofZ x) (mul_ofZ env x x) rfl
  · exact key (mulZ_ofZ x k) (by rw [mk'_eq, mul_ofZ]) rfl
  · intro h
    rw [mk'_eq, beq_ofZ, decide_eq_false_iff_not, Int.cast_zero] at h
    exact key (by rw [invert_ofZ h, R.ok_bind, mul_ofZ]) (by rw [mk'_eq]) (by simp [mul_inv_cancel₀ h])

/-- non-zero elements exist -/
example : beq (mk' bn254N 2) (mk' bn254N 0) = false := by decide

/-! ## C07 -/

/-- C07: operands whose moduli differ (after `setField`) fail the assertion of every binary operator
in builds with assertions. -/
theorem C07_different (env : Env) (hd : env.ndebug = false) (m : ℕ) (a b : Fld) (q r : ℤ) (h : q ≠ r) :
    add env m (a.setField q) (b.setField r) = .error .assertFail ∧
    sub env m (a.setField q) (b.setField r) = .error .assertFail ∧
    mul env m (a.setField q) (b.setField r) = .error .assertFail ∧
    div env m (a.setField q) (b.setField r) = .error .assertFail ∧
    addAssign env (a.setField q) (b.setField r) = .error .assertFail ∧
    subAssign env (a.setField q) (b.setField r) = .error .assertFail ∧
    mulAssign env (a.setField q) (b.setField r) = .error .assertFail ∧
    divAssign env m (a.setField q) (b.setField r) = .error .assertFail := by
  have hs : sameField env (a.setField q) (b.setField r) = .error .assertFail := by
    simp [sameField, cassert, hd, setField, h]
  simp only [add, sub, mul, div, addAssign, subAssign, mulAssign, divAssign, hs, R.error_bind, and_self]

/-- C07: with one common modulus `q > 0` the sum is reduced modulo `q` first and then modulo the
class's own prime, and it carries the class's own prime. -/
theorem C07_same (env : Env) {m : ℕ} (hm : IsModulus m) {a b : Fld} (q : ℤ) (hq : 0 < q) :
    Ends (add env m (a.setField q) (b.setField q)) fun r =>
      IsElem m r ∧ r.value = (a.value + b.value) % q % m := by
  haveI : NeZero m := ⟨hm.prime.ne_zero⟩
  refine ⟨mk' m ((a.value + b.value) % q), ?_, isElem_mk' _, rfl⟩
  simp [add, sameField, setField, mpzMod, hq.ne', cassert_true]

/-- C07: after `setField`, `==` is true exactly when the moduli and the values agree; `setField` leaves the value alone. -/
theorem C07_eq (a b : Fld) (q r : ℤ) :
    (beq (a.setField q) (b.setField r) = true ↔ q = r ∧ a.value = b.value) ∧ (a.setField q).value = a.value := by
  refine ⟨?_, rfl⟩
  unfold beq
  rw [Bool.and_eq_true, and_comm]
  exact and_congr decide_eq_true_iff decide_eq_true_iff

example : beq ((mk' bn254P 5).setField 7) ((mk' bn254P 5).setField 11) = false := by decide

/-- C07: the same for `-` and `*`. -/
theorem C07_same_sub_mul (env : Env) {m : ℕ} (hm : IsModulus m) {a b : Fld} (q : ℤ) (hq : 0 < q) :
    (Ends (sub env m (a.setField q) (b.setField q)) fun r =>
      IsElem m r ∧ r.value = (a.value - b.value) % q % m) ∧
    (Ends (mul env m (a.setField q) (b.setField q)) fun r =>
      IsElem m r ∧ r.value = (a.value * b.value) % q % m) := by
  haveI : NeZero m := ⟨hm.prime.ne_zero⟩
  refine ⟨⟨mk' m ((a.value - b.value) % q), ?_, isElem_mk' _, rfl⟩,
    ⟨mk' m ((a.value * b.value) % q), ?_, isElem_mk' _, rfl⟩⟩ <;>
  simp [sub, mul, sameField, setField, mpzMod, hq.ne', cassert_true]

/-- C07: unlike the other operators, division of two elements relabelled with one and the same modulus
`q` other than the class's own fails an assertion in debug builds, because the inverse already carries
the class's own prime (whenever the inverse exists; otherwise it is undefined anyway). -/
theorem C07_div_relabelled (env : Env) (hd : env.ndebug = false) {m : ℕ} {a b : Fld} (q : ℤ)
    (hqm : q ≠ m) :
    Faults (div env m (a.setField q) (b.setField q)) ∧
    (q ≠ 0 → Int.gcd b.value q = 1 →
      div env m (a.setField q) (b.setField q) = .error .assertFail) := by
  have hs : sameField env (a.setField q) (b.setField q) = .ok () := by
    simp [sameField, setField, cassert_true]
  have key : ∀ r, mul env m (a.setField q) (mk' m r) = .error .assertFail := by
    intro r
    simp [mul, sameField, cassert, hd, setField, mk', hqm]
  have hdiv : div env m (a.setField q) (b.setField q) = (mpzInvert b.value q >>= fun r => .error .assertFail) := by
    rw [div, hs, R.ok_bind, invert]
    change ((mpzInvert b.value q >>= fun r => .ok (mk' m r)) >>= fun i => mul env m (a.setField q) i) = _
    rcases mpzInvert b.value q with e | r
    · rfl
    · exact key r
  constructor
  · rw [hdiv]
    rcases mpzInvert b.value q with e | r
    · exact ⟨_, rfl⟩
    · exact ⟨_, rfl⟩
  · intro h0 h1
    obtain ⟨r, hr, -⟩ := mpzInvert_ok h0 h1
    rw [hdiv, hr, R.ok_bind]

example : add ⟨true, fun _ => none⟩ secpN ((mk' secpN 10).setField 7) ((mk' secpN 8).setField 7)
    = .ok ⟨4, secpN⟩ := by decide

example : div ⟨false, fun _ => none⟩ secpN ((mk' secpN 10).setField 7) ((mk' secpN 8).setField 7)
    = .error .assertFail := by decide

end Verif
