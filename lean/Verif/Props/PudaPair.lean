import Verif.Props.Puda

/-!
# C115: the ciphertexts of a user at two timestamps
-/

namespace Verif
namespace Puda

open EC

/-- an integer that is small and zero modulo the order is zero -/
theorem small_zero {z : ℤ} (h : |z| < 2 ^ 60) : (z : F) = 0 ↔ z = 0 := by
  constructor
  · intro h0
    have hd := (ZMod.intCast_zmod_eq_zero_iff_dvd z CC.fn).1 h0
    refine Int.eq_zero_of_abs_lt_dvd hd (h.trans ?_)
    decide
  · rintro rfl
    exact Int.cast_zero

theorem cross_small {t1 t2 : ℤ} (h1 : -2 ^ 31 ≤ t1) (h2 : t1 < 2 ^ 31) (h3 : -2 ^ 31 ≤ t2) (h4 : t2 < 2 ^ 31) (m1 m2 g1 g2 : Msg) :
    |t2 * ((m1.val : ℤ) - g1.val) - t1 * ((m2.val : ℤ) - g2.val)| < 2 ^ 60 := by
  have a1 := m1.isLt
  have a2 := m2.isLt
  have a3 := g1.isLt
  have a4 := g2.isLt
  have b : ∀ {t d : ℤ}, -2 ^ 31 ≤ t → t < 2 ^ 31 → -65536 ≤ d → d ≤ 65536 → |t * d| ≤ 2 ^ 31 * 65536 := by
    intro t d p1 p2 p3 p4
    rw [abs_mul]
    exact mul_le_mul (abs_le.2 ⟨by omega, by omega⟩) (abs_le.2 ⟨by omega, by omega⟩) (abs_nonneg _) (by norm_num)
  have c1 := b (d := (m1.val : ℤ) - g1.val) h3 h4 (by omega) (by omega)
  have c2 := b (d := (m2.val : ℤ) - g2.val) h1 h2 (by omega) (by omega)
  refine (abs_sub _ _).trans_lt ((add_le_add c1 c2).trans_lt (by norm_num))

/-- what everybody can compute to test the guesses `g1`, `g2` of the messages in `c1`, `c2`, made at `t1`, `t2`: whether
`c1 * t2 + g * (t1 * g2) == c2 * t1 + g * (t2 * g1)` -/
def testPair (env : Env) (pp : Param) (c1 c2 : Pt) (t1 t2 : ℤ) (g1 g2 : Msg) : R Bool := do
  let a ← c1.smulZ env CC t2
  let b ← pp.g1.smulZ env CC (t1 * g2.val)
  let x ← a.add env CC b
  let a ← c2.smulZ env CC t1
  let b ← pp.g1.smulZ env CC (t2 * g1.val)
  let y ← a.add env CC b
  x.beq env CC y

/-- C115 is false: a test that needs no key tells, for any two `int` timestamps, whether `t2 * m1 - t1 * m2` is what was guessed,
whatever the user's key and the draws of the set-up. -/
theorem C115_test_counterexample (env : Env) {pp : Param} (hl1 : LiveGen env pp.curve1) (hl2 : LiveGen env pp.curve2) (k : Coins)
    (ek : ℤ) {t1 t2 : ℤ} (h1 : -2 ^ 31 ≤ t1) (h2 : t1 < 2 ^ 31) (h3 : -2 ^ 31 ≤ t2) (h4 : t2 < 2 ^ 31) (m1 m2 : Msg) :
    Ends (setup env pp k) fun s => Ends (enc env s.1 (Fld.mk' CC.fn ek) m1 t1) fun c1 =>
      Ends (enc env s.1 (Fld.mk' CC.fn ek) m2 t2) fun c2 => ∀ g1 g2 : Msg, Ends (testPair env s.1 c1 c2 t1 t2 g1 g2) fun b =>
        (b = true ↔ t2 * m1.val - t1 * m2.val = t2 * g1.val - t1 * g2.val) := by
  obtain ⟨qq, v1, v2, e1, r, -, -⟩ := setup_rep hl1 hl2 k
  refine ⟨_, e1, ?_⟩
  simp only [Fld.mk'_eq]
  obtain ⟨c1, f1, f2⟩ := enc_rep r (ek : F) m1 t1
  obtain ⟨c2, f1', f2'⟩ := enc_rep r (ek : F) m2 t2
  refine ⟨c1, f1, c2, f1', fun g1 g2 => ?_⟩
  obtain ⟨a, a1, a2⟩ := smulI_rep f2 t2
  obtain ⟨b, b1, b2⟩ := smulI_rep r.g1 (t1 * g2.val)
  obtain ⟨x, x1, x2⟩ := add_rep a2 b2
  obtain ⟨a', a1', a2'⟩ := smulI_rep f2' t1
  obtain ⟨b', b1', b2'⟩ := smulI_rep r.g1 (t2 * g1.val)
  obtain ⟨y, y1, y2⟩ := add_rep a2' b2'
  refine ⟨_, by simp only [testPair, a1, b1, x1, a1', b1', y1, R.ok_bind]; exact rep_beq x2 y2, ?_⟩
  beta_reduce
  rw [decide_eq_true_eq]
  have hz := small_zero (cross_small h1 h2 h3 h4 m1 m2 g1 g2)
  rw [show (t2 * m1.val - t1 * m2.val = t2 * g1.val - t1 * g2.val) ↔
    t2 * ((m1.val : ℤ) - g1.val) - t1 * ((m2.val : ℤ) - g2.val) = 0 by constructor <;> intro h <;> linarith, ← hz,
    ← smul_eq_zero_iff_left (G_ne_zero (C := CC)), ← sub_eq_zero (a := (_ : Grp CC))]
  push_cast
  refine Eq.congr_left ?_
  module

/-- C115, exactly what the two ciphertexts tell: with a hash point and a first timestamp other than 0, another pair of messages
could have been sent, under another key, exactly if `t2 * m1 - t1 * m2` is the same. -/
theorem C115_exact (env : Env) {pp : Param} (hl1 : LiveGen env pp.curve1) (hl2 : LiveGen env pp.curve2) {k : Coins}
    (hk : ¬ CC.order ∣ k.hash) (ek : ℤ) {t1 t2 : ℤ} (h0 : t1 ≠ 0) (h1 : -2 ^ 31 ≤ t1) (h2 : t1 < 2 ^ 31) (h3 : -2 ^ 31 ≤ t2)
    (h4 : t2 < 2 ^ 31) (m1 m2 m1' m2' : Msg) :
    Ends (setup env pp k) fun s =>
      ((∃ ek' : ℤ, EqP env CC (enc env s.1 (Fld.mk' CC.fn ek) m1 t1) (enc env s.1 (Fld.mk' CC.fn ek') m1' t1) ∧
        EqP env CC (enc env s.1 (Fld.mk' CC.fn ek) m2 t2) (enc env s.1 (Fld.mk' CC.fn ek') m2' t2)) ↔
        t2 * m1.val - t1 * m2.val = t2 * m1'.val - t1 * m2'.val) := by
  obtain ⟨qq, v1, v2, e1, r, -, -⟩ := setup_rep hl1 hl2 k
  refine ⟨_, e1, ?_⟩
  have ht : (t1 : F) ≠ 0 := int_cast_ne_zero h0 h1 h2
  have hh : (k.hash : F) ≠ 0 := fun h => hk (by
    have := (ZMod.intCast_zmod_eq_zero_iff_dvd k.hash CC.fn).1 h
    rwa [show CC.order = (CC.fn : ℤ) by decide])
  have key : ∀ (ek ek' t : ℤ) (m m' : Msg), EqP env CC (enc env qq (Fld.mk' CC.fn ek) m t) (enc env qq (Fld.mk' CC.fn ek') m' t) ↔
      ((m.val : ℕ) : F) - ((m'.val : ℕ) : F) = ((ek' : F) - ek) * t * k.hash := by
    intro ek ek' t m m'
    simp only [Fld.mk'_eq]
    obtain ⟨x, f1, f2⟩ := enc_rep r (ek : F) m t
    obtain ⟨y, g1, g2⟩ := enc_rep r (ek' : F) m' t
    rw [f1, g1]
    have : EqP env CC (.ok x) (.ok y) ↔ x.beq env CC y = .ok true := by
      constructor
      · rintro ⟨_, _, h1, h2, h3⟩
        obtain rfl := Except.ok.inj h1
        obtain rfl := Except.ok.inj h2
        exact h3
      · exact fun h => ⟨_, _, rfl, rfl, h⟩
    rw [this, rep_beq f2 g2, Except.ok.injEq, decide_eq_true_eq, ← sub_eq_zero, ← sub_eq_zero (a := (_ : F)),
      ← smul_eq_zero_iff_left (G_ne_zero (C := CC))]
    refine Eq.congr_left ?_
    module
  simp only [key]
  have hz := small_zero (cross_small h1 h2 h3 h4 m1 m2 m1' m2')
  rw [show (t2 * m1.val - t1 * m2.val = t2 * m1'.val - t1 * m2'.val) ↔
    t2 * ((m1.val : ℤ) - m1'.val) - t1 * ((m2.val : ℤ) - m2'.val) = 0 by constructor <;> intro h <;> linarith, ← hz]
  push_cast
  constructor
  · rintro ⟨ek', i1, i2⟩
    rw [i1, i2]
    ring
  · intro h
    refine ⟨((((ek : F) + (((m1.val : ℕ) : F) - ((m1'.val : ℕ) : F)) / (t1 * k.hash)).val : ℕ) : ℤ), ?_, ?_⟩
    · rw [Int.cast_natCast, ZMod.natCast_val, ZMod.cast_id', id]
      field_simp
      ring
    · rw [Int.cast_natCast, ZMod.natCast_val, ZMod.cast_id', id]
      field_simp
      linear_combination -h

/-- C115 is false: at timestamps without a common divisor, one of them beyond 65535 (as two successive times in seconds are),
the two ciphertexts of a user determine both messages. -/
theorem C115_counterexample (env : Env) {pp : Param} (hl1 : LiveGen env pp.curve1) (hl2 : LiveGen env pp.curve2) (k : Coins)
    (ek : ℤ) {t1 t2 : ℤ} (h1 : -2 ^ 31 ≤ t1) (h2 : t1 < 2 ^ 31) (h3 : -2 ^ 31 ≤ t2) (h4 : t2 < 2 ^ 31) (hc : IsCoprime t1 t2)
    (hb : 65535 < |t1| ∨ 65535 < |t2|) (m1 m2 : Msg) :
    Ends (setup env pp k) fun s => Ends (enc env s.1 (Fld.mk' CC.fn ek) m1 t1) fun c1 =>
      Ends (enc env s.1 (Fld.mk' CC.fn ek) m2 t2) fun c2 => ∀ g1 g2 : Msg, Ends (testPair env s.1 c1 c2 t1 t2 g1 g2) fun b =>
        (b = true ↔ g1 = m1 ∧ g2 = m2) := by
  obtain ⟨s, e1, c1, e2, c2, e3, e4⟩ := C115_test_counterexample env hl1 hl2 k ek h1 h2 h3 h4 m1 m2
  refine ⟨s, e1, c1, e2, c2, e3, fun g1 g2 => ?_⟩
  obtain ⟨b, e5, e6⟩ := e4 g1 g2
  refine ⟨b, e5, e6.trans ⟨fun h => ?_, fun ⟨a1, a2⟩ => by rw [a1, a2]⟩⟩
  have a1 := m1.isLt
  have a2 := m2.isLt
  have a3 := g1.isLt
  have a4 := g2.isLt
  have h : t2 * ((m1.val : ℤ) - g1.val) = t1 * ((m2.val : ℤ) - g2.val) := by linarith
  have small : ∀ {t d : ℤ}, 65535 < |t| → -65535 ≤ d → d ≤ 65535 → t ∣ d → d = 0 := by
    intro t d p1 p2 p3 p4
    refine Int.eq_zero_of_abs_lt_dvd ((abs_dvd _ _).2 p4) ?_
    exact (abs_le.2 ⟨by omega, by omega⟩ : |d| ≤ 65535).trans_lt p1
  have fin : (m1.val : ℤ) - g1.val = 0 ∧ (m2.val : ℤ) - g2.val = 0 := by
    rcases hb with hb | hb
    · have d1 := small hb (by omega) (by omega) (hc.dvd_of_dvd_mul_left (Dvd.intro _ h.symm))
      rw [d1, mul_zero] at h
      refine ⟨d1, (mul_eq_zero.1 h.symm).resolve_left ?_⟩
      rintro rfl
      simp at hb
    · have d1 := small hb (by omega) (by omega) (hc.symm.dvd_of_dvd_mul_left (Dvd.intro _ h))
      rw [d1, mul_zero] at h
      refine ⟨(mul_eq_zero.1 h).resolve_left ?_, d1⟩
      rintro rfl
      simp at hb
  constructor <;> apply Fin.ext <;> omega

/-- two successive times in seconds -/
example : IsCoprime (1700000000 : ℤ) 1700000001 ∧ (65535 : ℤ) < |1700000000| ∧ (1700000001 : ℤ) < 2 ^ 31 ∧ ¬ CC.order ∣ (77 : ℤ) :=
  ⟨⟨-1, 1, by norm_num⟩, by norm_num, by norm_num, by decide⟩

/-- the messages 7 and 900 at these times, guessed right and guessed wrong -/
example : (do
    let (pp, ks) ← setup env0 (ctor (some 0) (some 0)) ⟨77, 5, [(11, 12), (13, 14)]⟩
    let c1 ← enc env0 pp (Fld.mk' CC.fn 11) 7 1700000000
    let c2 ← enc env0 pp (Fld.mk' CC.fn 11) 900 1700000001
    let a ← testPair env0 pp c1 c2 1700000000 1700000001 7 900
    let b ← testPair env0 pp c1 c2 1700000000 1700000001 8 901
    .ok (a, b, ks.ekv.length)) = .ok (true, false, 2) := by decide +kernel

end Puda
end Verif
