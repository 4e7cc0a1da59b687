import Verif.Model.Text
import Verif.Props.EccText
import Verif.Props.Ecc

/-!
# C81: the stream output operators
-/

namespace Verif

theorem toDigits_render (n : ℕ) : ∃ ds, Nat.toDigits 10 n = render ds ∧ ds ≠ [] ∧ (∀ d ∈ ds, d < 10) ∧
    denote 10 ds = n := by
  induction n using Nat.strong_induction_on with
  | _ n ih =>
    by_cases h : n < 10
    · refine ⟨[n], ?_, by simp, by simpa using h, by simp [denote]⟩
      rw [Nat.toDigits_of_lt_base h]; rfl
    · obtain ⟨ds, h1, h2, h3, h4⟩ := ih (n / 10) (by omega)
      refine ⟨ds ++ [n % 10], ?_, by simp, ?_, ?_⟩
      · rw [Nat.toDigits_of_base_le (by omega) (by omega), h1]; simp [render]
      · intro d hd
        rcases List.mem_append.1 hd with hd | hd
        · exact h3 d hd
        · obtain rfl : d = n % 10 := by simpa using hd
          omega
      · have : denote 10 (ds ++ [n % 10]) = n % 10 + 10 * denote 10 ds := by
          simp [denote, Nat.ofDigits_cons]
        rw [this, h4]; omega

theorem digits_render {base : ℕ} (hb : base ≤ 10) (ds : List ℕ) (h : ∀ d ∈ ds, d < base) :
    Digits base (render ds) ds := by
  induction ds with
  | nil => exact .nil
  | cons d ds ih =>
    have hd : d < base := h d (by simp)
    refine .digit ?_ hd (ih fun e he => h e (by simp [he]))
    rw [← digitValue_iff]
    exact (digitValue_digitChar d (by omega)).1

/-- C81: what `out << z` prints for an integer is a numeral for it, without white space. -/
theorem showZ_numeral (z : ℤ) : Numeral 10 (showZ z) z := by
  obtain ⟨ds, h1, h2, h3, h4⟩ := toDigits_render z.natAbs
  have hD := digits_render le_rfl ds h3
  have hb : ∀ c ∈ (render ds).head?, ¬ Blank c := by
    intro c hc
    rcases ds with _ | ⟨d, ds⟩
    · exact absurd rfl h2
    · obtain rfl : Nat.digitChar d = c := by simpa [render] using hc
      cases hD with
      | digit hd => exact digit_not_blank hd
      | blank hb => 
        rw [← isSpaceC_iff, (digitValue_digitChar d (by have := h3 d (by simp); omega)).2.1] at hb
        cases hb
  refine ⟨[], render ds, [], ds, by simp, hb, h2, hD, .inl rfl, ?_⟩
  unfold showZ
  split_ifs with hz
  · exact .inr ⟨by simp [h1], by rw [h4]; omega⟩
  · exact .inl ⟨by simp [h1], by rw [h4]; omega⟩

theorem showZ_inj {y z : ℤ} (h : showZ y = showZ z) : y = z :=
  C19_unique (showZ_numeral y) (h ▸ showZ_numeral z)

/-- the characters of a printed number -/
theorem showZ_chars (z : ℤ) : ∀ c ∈ showZ z, c = '-' ∨ c.isDigit = true := by
  have key : ∀ c ∈ Nat.toDigits 10 z.natAbs, c.isDigit = true := fun c hc =>
    Nat.isDigit_of_mem_toDigits (by omega) (by omega) hc
  intro c hc
  unfold showZ at hc
  split_ifs at hc with hz
  · rcases List.mem_cons.1 hc with rfl | hc
    · exact .inl rfl
    · exact .inr (key c hc)
  · exact .inr (key c hc)

theorem showZ_not_mem {z : ℤ} {c : Char} (h1 : c ≠ '-') (h2 : c.isDigit = false) : c ∉ showZ z := fun h => by
  rcases showZ_chars z c h with h | h
  · exact h1 h
  · rw [h2] at h; cases h

theorem append_inj_sep {c : Char} {s s' t t' : List Char} (hs : c ∉ s) (hs' : c ∉ s')
    (h : s ++ c :: t = s' ++ c :: t') : s = s' ∧ t = t' := by
  induction s generalizing s' with
  | nil =>
    rcases s' with _ | ⟨b, s'⟩
    · simpa using h
    · simp only [List.nil_append, List.cons_append, List.cons.injEq] at h
      exact absurd (by simp [h.1]) hs'
  | cons a s ih =>
    rcases s' with _ | ⟨b, s'⟩
    · simp only [List.nil_append, List.cons_append, List.cons.injEq] at h
      exact absurd (by simp [h.1]) hs
    · simp only [List.cons_append, List.cons.injEq] at h
      obtain ⟨h1, h2⟩ := ih (fun hm => hs (by simp [hm])) (fun hm => hs' (by simp [hm])) h.2
      exact ⟨by rw [h.1, h1], h2⟩

theorem showZ_sep {y z : ℤ} {c : Char} {t t' : List Char} (h1 : c ≠ '-') (h2 : c.isDigit = false)
    (h : showZ y ++ c :: t = showZ z ++ c :: t') : y = z ∧ t = t' := by
  obtain ⟨e1, e2⟩ := append_inj_sep (showZ_not_mem h1 h2) (showZ_not_mem h1 h2) h
  exact ⟨showZ_inj e1, e2⟩

/-- C81: a printed field element shows its two numbers, and two elements print alike exactly when `operator==`
says they are equal. -/
theorem C81_field (a b : Fld) :
    (∃ s t, a.print = s ++ "  mod ".toList ++ t ∧ Numeral 10 s a.getRawValue ∧ Numeral 10 t a.getField) ∧
    (a.print = b.print ↔ a.beq b = true) := by
  refine ⟨⟨showZ a.value, showZ a.p, by simp [Fld.print], showZ_numeral _, showZ_numeral _⟩, ?_⟩
  simp only [Fld.beq, Bool.and_eq_true, decide_eq_true_eq]
  constructor
  · intro h
    simp only [Fld.print, List.cons_append, List.nil_append] at h
    obtain ⟨h1, h2⟩ := showZ_sep (by decide) (by decide) h
    simp only [List.cons.injEq, true_and] at h2
    exact ⟨h1, showZ_inj h2⟩
  · rintro ⟨h1, h2⟩
    rw [Fld.print, Fld.print, h1, h2]

theorem print_inf_ne {x y : Fld} {c c' : Option Addr} {x' y' : Fld} :
    Pt.print ⟨x, y, true, c⟩ ≠ Pt.print ⟨x', y', false, c'⟩ := by
  intro h
  simp only [Pt.print, if_true, Bool.false_eq_true, if_false, List.cons_append, List.nil_append, List.cons.injEq,
    true_and] at h
  have hm : 'i' ∈ showZ x'.getRawValue ∨ 'i' = ',' := by
    rcases hs : showZ x'.getRawValue with _ | ⟨a, l⟩
    · rw [hs] at h; simp at h
    · rw [hs] at h
      simp only [List.cons_append, List.cons.injEq] at h
      exact .inl (h.1 ▸ List.mem_cons_self)
  rcases hm with hm | hm
  · exact showZ_not_mem (by decide) (by decide) hm
  · exact absurd hm (by decide)

/-- C81: two points print alike exactly when both are infinity or both are finite with the same coordinate
values; the curve and the moduli are not shown. -/
theorem C81_point_text (P Q : Pt) :
    P.print = Q.print ↔ (P.inf = true ∧ Q.inf = true) ∨
      (P.inf = false ∧ Q.inf = false ∧ P.x.getRawValue = Q.x.getRawValue ∧ P.y.getRawValue = Q.y.getRawValue) := by
  obtain ⟨x, y, i, c⟩ := P
  obtain ⟨x', y', i', c'⟩ := Q
  cases i <;> cases i'
  · simp only [Bool.false_eq_true, false_and, false_or, true_and]
    constructor
    · intro h
      simp only [Pt.print, Bool.false_eq_true, if_false, List.cons_append, List.nil_append, List.cons.injEq,
        true_and] at h
      obtain ⟨h1, h2⟩ := showZ_sep (by decide) (by decide) h
      obtain ⟨h3, -⟩ := showZ_sep (by decide) (by decide) h2
      exact ⟨h1, h3⟩
    · rintro ⟨h1, h2⟩
      simp only [Pt.print, Bool.false_eq_true, if_false, h1, h2]
  · simpa using fun h => print_inf_ne h.symm
  · simpa using fun h => print_inf_ne h
  · simp [Pt.print]

/-- C81: two valid points print alike exactly when `operator==` says they are equal. -/
theorem C81_point_eq {env : Env} {C : CurveClass} (hC : IsCurve C) {P Q : Pt} (hP : Valid env C P)
    (hQ : Valid env C Q) : ∃ b, P.beq env C Q = .ok b ∧ (b = true ↔ P.print = Q.print) := by
  obtain ⟨b, hb, hb'⟩ := C16_eq env hC hP hQ
  refine ⟨b, hb, ?_⟩
  rw [hb', C81_point_text, SamePoint]
  have hf : P.inf = false → Q.inf = false → (P.x = Q.x ∧ P.y = Q.y ↔
      P.x.getRawValue = Q.x.getRawValue ∧ P.y.getRawValue = Q.y.getRawValue) := by
    intro h h'
    have e : ∀ {a b : Fld}, IsElem C.fp a → IsElem C.fp b → (a = b ↔ a.getRawValue = b.getRawValue) := by
      intro a b ha hb
      refine ⟨fun h => h ▸ rfl, fun h => ?_⟩
      obtain ⟨av, ap⟩ := a
      obtain ⟨bv, bp⟩ := b
      have h1 := ha.label
      have h2 := hb.label
      simp only [Fld.getRawValue] at h h1 h2
      rw [h, h1, h2]
    rcases hP with hP | hP
    · rw [hP.flag] at h; cases h
    rcases hQ with hQ | hQ
    · rw [hQ.flag] at h'; cases h'
    rw [e hP.x hQ.x, e hP.y hQ.y]
  constructor
  · rintro (h | ⟨h1, h2, h3⟩)
    · exact .inl h
    · exact .inr ⟨h1, h2, (hf h1 h2).1 h3⟩
  · rintro (h | ⟨h1, h2, h3⟩)
    · exact .inl h
    · exact .inr ⟨h1, h2, (hf h1 h2).2 h3⟩

/-- C81: the two numbers in the text of a finite valid point are accepted by the textual constructor, which gives
back the point. -/
theorem C81_point_reads {env : Env} {C : CurveClass} (hC : IsCurve C) {P : Pt} (hP : Valid env C P)
    (hi : P.inf = false) :
    ∃ s t, P.print = '(' :: s ++ ',' :: t ++ [')'] ∧ ',' ∉ s ∧ ')' ∉ t ∧
      Pt.ofStrings C s t P.curve 10 = P := by
  rcases hP with hP | hP
  · rw [hP.flag] at hi; cases hi
  refine ⟨showZ P.x.getRawValue, showZ P.y.getRawValue, ?_, showZ_not_mem (by decide) (by decide),
    showZ_not_mem (by decide) (by decide), ?_⟩
  · simp [Pt.print, hi]
  · rw [C19_exact C P.curve 10 _ _ _ _ (.inl (showZ_numeral _)) (.inl (showZ_numeral _))]
    obtain ⟨⟨xv, xp⟩, ⟨yv, yp⟩, i, c⟩ := P
    obtain ⟨hx1, hx2, hx3⟩ := hP.x
    obtain ⟨hy1, hy2, hy3⟩ := hP.y
    simp only at hi hx1 hx2 hx3 hy1 hy2 hy3
    subst hi hx1 hy1
    simp only [Pt.ofZ, Fld.getRawValue, Fld.mk', Int.emod_eq_of_lt hx2 hx3, Int.emod_eq_of_lt hy2 hy3]

example : (Fld.mk' bn254.fp (-3)).print =
    "16798108731015832284940804142231733909889187121439069848933715426072753864720  mod 16798108731015832284940804142231733909889187121439069848933715426072753864723".toList := by
  decide +kernel
example : (Pt.ofZ bn254 12 7 none).print = "(12,7)".toList ∧ (Pt.infty bn254).print = "(inf, inf)".toList := by
  decide +kernel

/-- C81: a printed curve shows its five parameters; two curves print alike exactly when these agree. -/
theorem C81_curve (C D : CurveClass) :
    C.print = D.print ↔ C.prime = D.prime ∧ C.a = D.a ∧ C.b = D.b ∧ C.order = D.order ∧ C.cofactor = D.cofactor := by
  constructor
  · intro h
    simp only [CurveClass.print, List.cons_append, List.nil_append, List.cons.injEq, true_and] at h
    obtain ⟨h1, h⟩ := showZ_sep (by decide) (by decide) h
    simp only [List.cons.injEq, true_and] at h
    obtain ⟨h2, h⟩ := showZ_sep (by decide) (by decide) h
    simp only [List.cons.injEq, true_and] at h
    obtain ⟨h3, h⟩ := showZ_sep (by decide) (by decide) h
    simp only [List.cons.injEq, true_and] at h
    obtain ⟨h4, h⟩ := showZ_sep (by decide) (by decide) h
    simp only [List.cons.injEq, true_and] at h
    obtain ⟨h5, -⟩ := showZ_sep (by decide) (by decide) h
    exact ⟨h1, h2, h3, h4, h5⟩
  · rintro ⟨h1, h2, h3, h4, h5⟩
    simp only [CurveClass.print, h1, h2, h3, h4, h5]

/-- C81: the two curves of the library print differently. -/
example : bn254.print ≠ secp256r1.print := by
  rw [Ne, C81_curve]; decide +kernel

end Verif
