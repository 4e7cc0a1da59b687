import Mathlib.Data.Nat.Digits.Defs
import Mathlib.Data.List.TakeWhile
import Verif.Lemmas.EccSpec

/-!
# C19: the textual point constructor
-/

namespace Verif

/-- The digit string of a list of digits, most significant digit first (leading zeros allowed). -/
def render (ds : List ℕ) : List Char := ds.map Nat.digitChar

/-- The number denoted by a list of digits, most significant digit first. -/
def denote (base : ℕ) (ds : List ℕ) : ℕ := Nat.ofDigits base ds.reverse

theorem digitValue_digitChar : ∀ d < 16, digitValue (Nat.digitChar d) = some d ∧
    isSpaceC (Nat.digitChar d) = false ∧ Nat.digitChar d ≠ '-' := by decide

theorem parseDigits_render (base : ℕ) (hb : base ≤ 16) (ds : List ℕ) (h : ∀ d ∈ ds, d < base) (acc : ℕ) :
    parseDigits base (render ds) acc = some (acc * base ^ ds.length + denote base ds) := by
  induction ds generalizing acc with
  | nil => simp [render, parseDigits, denote, Nat.ofDigits]
  | cons d ds ih =>
    have hd : d < base := h d (by simp)
    obtain ⟨h1, h2, -⟩ := digitValue_digitChar d (by omega)
    have ih' := ih (fun e he => h e (by simp [he])) (acc * base + d)
    simp only [render, List.map_cons, parseDigits, h2, h1, hd, Bool.false_eq_true, if_false, if_true]
    simp only [render] at ih'
    rw [ih']
    simp only [denote, List.reverse_cons, Nat.ofDigits_append, Nat.ofDigits_singleton, List.length_cons,
      List.length_reverse, pow_succ]
    congr 1
    ring

theorem parseMpz_render (base : ℕ) (hb : base ≤ 16) (ds : List ℕ) (hne : ds ≠ [])
    (h : ∀ d ∈ ds, d < base) : parseMpz base (render ds) = some (denote base ds : ℤ) := by
  rcases ds with _ | ⟨d, ds⟩
  · exact absurd rfl hne
  have hd : d < base := h d (by simp)
  obtain ⟨h1, h2, h3⟩ := digitValue_digitChar d (by omega)
  have hp := parseDigits_render base hb (d :: ds) h 0
  have hdrop : (render (d :: ds)).dropWhile isSpaceC = render (d :: ds) := by
    simp [render, h2]
  unfold parseMpz
  rw [hdrop]
  simp only [render, List.map_cons] at hp ⊢
  simp [parseUnsigned, h1, hd, hp]

theorem cStr_eq {s : List Char} (h : ∀ c ∈ s, c ≠ '\x00') : cStr s = s := by
  rw [cStr, List.takeWhile_eq_self_iff]
  intro c hc
  simpa using h c hc

theorem cStr_render {base : ℕ} (hb : base ≤ 16) {ds : List ℕ} (h : ∀ d ∈ ds, d < base) :
    cStr (render ds) = render ds := by
  refine cStr_eq fun c hc => ?_
  obtain ⟨d, hd, rfl⟩ := List.mem_map.1 hc
  have : ∀ d < 16, Nat.digitChar d ≠ '\x00' := by decide
  exact this d (lt_of_lt_of_le (h d hd) hb)

/-- C19: from the digit strings (any base up to 16, in particular the default 10) of two non-negative
integers the constructor builds the point with these integers as coordinates. -/
theorem C19_digits (C : CurveClass) (c : Option Addr) {base : ℕ} (hb : base ≤ 16) {xs ys : List ℕ}
    (hx : xs ≠ []) (hy : ys ≠ []) (hxd : ∀ d ∈ xs, d < base) (hyd : ∀ d ∈ ys, d < base) :
    Pt.ofStrings C (render xs) (render ys) c base = Pt.ofZ C (denote base xs) (denote base ys) c := by
  simp only [Pt.ofStrings, setStr, cStr_render hb hxd, cStr_render hb hyd, parseMpz_render base hb xs hx hxd,
    parseMpz_render base hb ys hy hyd, Option.getD_some, Pt.ofZ]

/-- C19: every natural number has a decimal digit string that the constructor reads back. -/
theorem C19_decimal (C : CurveClass) (c : Option Addr) (x y : ℕ) :
    ∃ xs ys : List ℕ, denote 10 xs = x ∧ denote 10 ys = y ∧
      Pt.ofStrings C (render xs) (render ys) c 10 = Pt.ofZ C x y c := by
  have key : ∀ n : ℕ, ∃ ds : List ℕ, ds ≠ [] ∧ (∀ d ∈ ds, d < 10) ∧ denote 10 ds = n := by
    intro n
    refine ⟨0 :: (Nat.digits 10 n).reverse, by simp, ?_, ?_⟩
    · intro d hd
      rw [List.mem_cons, List.mem_reverse] at hd
      rcases hd with rfl | hd
      · omega
      · exact Nat.digits_lt_base (by omega) hd
    · simp [denote, Nat.ofDigits_append, Nat.ofDigits_digits]
  obtain ⟨xs, h1, h2, h3⟩ := key x
  obtain ⟨ys, h4, h5, h6⟩ := key y
  refine ⟨xs, ys, h3, h6, ?_⟩
  rw [C19_digits C c (by omega) h1 h4 h2 h5, h3, h6]

/-- A string that cannot be a number in the base: the part before the first NUL is blank, or contains a
character that is neither white space, nor a minus sign, nor a digit of the base. -/
def Malformed (base : ℕ) (s : List Char) : Prop :=
  ∃ t u, s = t ++ u ∧ (∀ c ∈ t, c ≠ '\x00') ∧ (u = [] ∨ ∃ u', u = '\x00' :: u') ∧
    ((∀ c ∈ t, isSpaceC c = true) ∨
     ∃ c ∈ t, isSpaceC c = false ∧ c ≠ '-' ∧ ∀ d, digitValue c = some d → base ≤ d)

theorem cStr_append {t u : List Char} (ht : ∀ c ∈ t, c ≠ '\x00') (hu : u = [] ∨ ∃ u', u = '\x00' :: u') :
    cStr (t ++ u) = t := by
  have h1 : u.takeWhile (· != '\x00') = [] := by
    rcases hu with rfl | ⟨u', rfl⟩
    · rfl
    · simp
  rw [cStr, List.takeWhile_append_of_pos (fun c hc => by simpa using ht c hc), h1, List.append_nil]

theorem parseDigits_bad (base : ℕ) (s : List Char) (acc : ℕ)
    (h : ∃ c ∈ s, isSpaceC c = false ∧ ∀ d, digitValue c = some d → base ≤ d) :
    parseDigits base s acc = none := by
  induction s generalizing acc with
  | nil => obtain ⟨c, hc, -⟩ := h; cases hc
  | cons c cs ih =>
    have step : (∃ c' ∈ cs, isSpaceC c' = false ∧ ∀ d, digitValue c' = some d → base ≤ d) ∨
        (isSpaceC c = false ∧ ∀ d, digitValue c = some d → base ≤ d) := by
      obtain ⟨c', hc', h'⟩ := h
      rcases List.mem_cons.1 hc' with rfl | hc'
      · exact .inr h'
      · exact .inl ⟨c', hc', h'⟩
    rw [parseDigits]
    split_ifs with hs
    · rcases step with hst | hst
      · exact ih _ hst
      · rw [hst.1] at hs; cases hs
    · rcases hv : digitValue c with _ | d
      · rfl
      · simp only
        split_ifs with hd
        · rcases step with hst | hst
          · exact ih _ hst
          · exact absurd (hst.2 d hv) (by omega)
        · rfl

theorem mem_dropWhile {c : Char} {s : List Char} (hc : c ∈ s) (hs : isSpaceC c = false) :
    c ∈ s.dropWhile isSpaceC := by
  induction s with
  | nil => cases hc
  | cons a s ih =>
    rw [List.dropWhile_cons]
    split_ifs with ha
    · rcases List.mem_cons.1 hc with rfl | hc
      · rw [hs] at ha; cases ha
      · exact ih hc
    · exact hc

theorem parseMpz_malformed (base : ℕ) (s : List Char) (h : Malformed base s) :
    parseMpz base (cStr s) = none := by
  obtain ⟨s, u, rfl, ht, hu, h⟩ := h
  rw [cStr_append ht hu]
  rcases h with h | ⟨c, hc, hs, hm, hd⟩
  · have : s.dropWhile isSpaceC = [] := by
      exact List.dropWhile_eq_nil_iff.2 h
    simp [parseMpz, parseUnsigned, this]
  · have hc' := mem_dropWhile hc hs
    have key : ∀ cs : List Char, c ∈ cs → parseUnsigned base cs = none := by
      intro cs hcs
      rcases cs with _ | ⟨a, cs⟩
      · rfl
      · have := parseDigits_bad base (a :: cs) 0 ⟨c, hcs, hs, hd⟩
        rcases hv : digitValue a with _ | d
        · simp [parseUnsigned, hv]
        · simp [parseUnsigned, hv, this]
    unfold parseMpz
    split
    · rename_i cs heq
      rw [heq] at hc'
      have : c ∈ cs := by
        rcases List.mem_cons.1 hc' with rfl | h'
        · exact absurd rfl hm
        · exact h'
      rw [key cs this]; rfl
    · rw [key _ hc']; rfl

/-- C19: malformed text is silently accepted: a malformed `Px` gives `x = 0`, and a malformed `Py` gives `y` the
value read for `Px`. -/
theorem C19_malformed (C : CurveClass) (c : Option Addr) (base : ℕ) (px py : List Char) :
    (Malformed base px → (Pt.ofStrings C px py c base).x = Fld.mk' C.fp 0) ∧
    (Malformed base py → (Pt.ofStrings C px py c base).y = (Pt.ofStrings C px py c base).x) ∧
    (Malformed base px → Malformed base py → Pt.ofStrings C px py c base = Pt.ofZ C 0 0 c) := by
  refine ⟨fun h => ?_, fun h => ?_, fun h h' => ?_⟩
  · simp [Pt.ofStrings, setStr, parseMpz_malformed base px h]
  · simp [Pt.ofStrings, setStr, parseMpz_malformed base py h]
  · simp [Pt.ofStrings, setStr, parseMpz_malformed base px h, parseMpz_malformed base py h', Pt.ofZ]

/-- White space of the "C" locale. -/
def Blank (c : Char) : Prop := c ∈ [' ', '\t', '\n', '\x0b', '\x0c', '\r']

/-- `c` is the digit of value `d`: `0`-`9`, then the letters in either case. -/
def Digit (c : Char) (d : ℕ) : Prop :=
  (d < 10 ∧ c.toNat = 48 + d) ∨ (10 ≤ d ∧ d < 36 ∧ (c.toNat = 87 + d ∨ c.toNat = 55 + d))

/-- The digits of a text, white space between them ignored. -/
inductive Digits (base : ℕ) : List Char → List ℕ → Prop
  | nil : Digits base [] []
  | blank {c cs ds} : Blank c → Digits base cs ds → Digits base (c :: cs) ds
  | digit {c cs d ds} : Digit c d → d < base → Digits base cs ds → Digits base (c :: cs) (d :: ds)

/-- The text `s` is a numeral with value `v`: white space, an optional minus sign, then immediately a digit,
and then digits and white space up to the end of the string or the first NUL. -/
def Numeral (base : ℕ) (s : List Char) (v : ℤ) : Prop :=
  ∃ ws t u ds, (∀ c ∈ ws, Blank c) ∧ (∀ c ∈ t.head?, ¬ Blank c) ∧ ds ≠ [] ∧ Digits base t ds ∧
    (u = [] ∨ ∃ u', u = '\x00' :: u') ∧
    ((s = ws ++ t ++ u ∧ v = denote base ds) ∨ (s = ws ++ '-' :: t ++ u ∧ v = -(denote base ds : ℤ)))

theorem isSpaceC_iff (c : Char) : isSpaceC c = true ↔ Blank c := by
  simp [isSpaceC, Blank, or_assoc]

theorem digitValue_iff (c : Char) (d : ℕ) : digitValue c = some d ↔ Digit c d := by
  have e : ∀ a b : Char, a ≤ b ↔ a.toNat ≤ b.toNat := fun a b => Iff.rfl
  simp only [digitValue, e, Digit, show '0'.toNat = 48 from rfl, show '9'.toNat = 57 from rfl,
    show 'a'.toNat = 97 from rfl, show 'z'.toNat = 122 from rfl, show 'A'.toNat = 65 from rfl,
    show 'Z'.toNat = 90 from rfl]
  split_ifs <;> simp only [Option.some.injEq, reduceCtorEq, false_iff] <;> omega

theorem digit_not_blank {c : Char} {d : ℕ} (h : Digit c d) : ¬ Blank c := by
  intro hb
  simp only [Blank, List.mem_cons, List.not_mem_nil, or_false] at hb
  rcases hb with rfl | rfl | rfl | rfl | rfl | rfl <;>
    simp only [Digit, show ' '.toNat = 32 from rfl, show '\t'.toNat = 9 from rfl,
      show '\n'.toNat = 10 from rfl, show '\x0b'.toNat = 11 from rfl, show '\x0c'.toNat = 12 from rfl,
      show '\r'.toNat = 13 from rfl] at h <;> omega

theorem digit_ne_minus {c : Char} {d : ℕ} (h : Digit c d) : c ≠ '-' := by
  rintro rfl
  simp only [Digit, show '-'.toNat = 45 from rfl] at h; omega

theorem digit_ne_nul {c : Char} {d : ℕ} (h : Digit c d) : c ≠ '\x00' := by
  rintro rfl
  simp only [Digit, show '\x00'.toNat = 0 from rfl] at h; omega

theorem blank_ne_nul {c : Char} (h : Blank c) : c ≠ '\x00' := by
  rintro rfl
  simp [Blank] at h

theorem digits_no_nul {base : ℕ} {t : List Char} {ds : List ℕ} (h : Digits base t ds) : ∀ c ∈ t, c ≠ '\x00' := by
  induction h with
  | nil => simp
  | blank hb _ ih => simpa using ⟨blank_ne_nul hb, by simpa using ih⟩
  | digit hd _ _ ih => simpa using ⟨digit_ne_nul hd, by simpa using ih⟩

theorem denote_cons (base d : ℕ) (ds : List ℕ) : denote base (d :: ds) = d * base ^ ds.length + denote base ds := by
  simp only [denote, List.reverse_cons, Nat.ofDigits_append, Nat.ofDigits_singleton, List.length_reverse]
  ring

theorem parseDigits_iff (base : ℕ) (t : List Char) (acc n : ℕ) :
    parseDigits base t acc = some n ↔ ∃ ds, Digits base t ds ∧ n = acc * base ^ ds.length + denote base ds := by
  induction t generalizing acc with
  | nil =>
    simp only [parseDigits, Option.some.injEq]
    constructor
    · rintro rfl; exact ⟨[], .nil, by simp [denote]⟩
    · rintro ⟨ds, h, rfl⟩; cases h; simp [denote]
  | cons c cs ih =>
    rw [parseDigits]
    by_cases hs : isSpaceC c = true
    · rw [if_pos hs, ih]
      have hb := (isSpaceC_iff c).1 hs
      constructor
      · rintro ⟨ds, h, rfl⟩; exact ⟨ds, .blank hb h, rfl⟩
      · rintro ⟨ds, h, rfl⟩
        cases h with
        | blank _ h => exact ⟨ds, h, rfl⟩
        | digit hd => exact absurd hb (digit_not_blank hd)
    · rw [if_neg hs]
      have hb : ¬ Blank c := fun h => hs ((isSpaceC_iff c).2 h)
      have step : (∃ d ds, Digit c d ∧ d < base ∧ Digits base cs ds ∧
            n = (acc * base + d) * base ^ ds.length + denote base ds) ↔
          ∃ ds, Digits base (c :: cs) ds ∧ n = acc * base ^ ds.length + denote base ds := by
        constructor
        · rintro ⟨d, ds, h1, h2, h3, rfl⟩
          refine ⟨d :: ds, .digit h1 h2 h3, ?_⟩
          rw [denote_cons, List.length_cons, pow_succ]; ring
        · rintro ⟨ds, h, rfl⟩
          cases h with
          | blank h => exact absurd h hb
          | @digit _ _ d ds h1 h2 h3 =>
            refine ⟨d, ds, h1, h2, h3, ?_⟩
            rw [denote_cons, List.length_cons, pow_succ]; ring
      rw [← step]
      rcases hv : digitValue c with _ | d
      · simp only [reduceCtorEq, false_iff]
        rintro ⟨d, ds, h1, -⟩
        rw [← digitValue_iff, hv] at h1; cases h1
      · simp only
        have hu : ∀ e, Digit c e → e = d := fun e he => by
          rw [← digitValue_iff, hv, Option.some.injEq] at he; exact he.symm
        have hd : Digit c d := (digitValue_iff c d).1 hv
        split_ifs with hlt
        · rw [ih]
          constructor
          · rintro ⟨ds, h, rfl⟩; exact ⟨d, ds, hd, hlt, h, rfl⟩
          · rintro ⟨e, ds, he, -, h, rfl⟩; obtain rfl := hu e he; exact ⟨ds, h, rfl⟩
        · simp only [reduceCtorEq, false_iff]
          rintro ⟨e, ds, he, h2, -⟩
          obtain rfl := hu e he; exact hlt h2

theorem parseUnsigned_iff (base : ℕ) (t : List Char) (n : ℕ) :
    parseUnsigned base t = some n ↔
      ∃ ds, (∀ c ∈ t.head?, ¬ Blank c) ∧ ds ≠ [] ∧ Digits base t ds ∧ n = denote base ds := by
  rcases t with _ | ⟨c, cs⟩
  · simp only [parseUnsigned, reduceCtorEq, false_iff]
    rintro ⟨ds, -, h, h', -⟩
    cases h'; exact h rfl
  · have key := parseDigits_iff base (c :: cs) 0 n
    simp only [zero_mul, zero_add] at key
    rcases hv : digitValue c with _ | d
    · simp only [parseUnsigned, hv, reduceCtorEq, false_iff]
      rintro ⟨ds, h1, -, h, -⟩
      cases h with
      | blank hb => exact h1 c rfl hb
      | digit hd => rw [← digitValue_iff, hv] at hd; cases hd
    · have hd : Digit c d := (digitValue_iff c d).1 hv
      simp only [parseUnsigned, hv]
      split_ifs with hlt
      · rw [key]
        constructor
        · rintro ⟨ds, h, rfl⟩
          refine ⟨ds, ?_, ?_, h, rfl⟩
          · intro c' hc'
            obtain rfl : c = c' := by simpa using hc'
            exact digit_not_blank hd
          · rintro rfl
            cases h with
            | blank hb => exact digit_not_blank hd hb
        · rintro ⟨ds, -, -, h, rfl⟩; exact ⟨ds, h, rfl⟩
      · simp only [reduceCtorEq, false_iff]
        rintro ⟨ds, h1, -, h, -⟩
        cases h with
        | blank hb => exact h1 c rfl hb
        | @digit _ _ e _ he h2 =>
          rw [← digitValue_iff, hv, Option.some.injEq] at he
          exact hlt (he ▸ h2)

theorem dropWhile_blank {ws t : List Char} (hws : ∀ c ∈ ws, Blank c) (ht : ∀ c ∈ t.head?, ¬ Blank c) :
    (ws ++ t).dropWhile isSpaceC = t := by
  rw [List.dropWhile_append_of_pos (fun c hc => (isSpaceC_iff c).2 (hws c hc))]
  rcases t with _ | ⟨c, cs⟩
  · rfl
  · rw [List.dropWhile_cons_of_neg]
    intro h; exact ht c rfl ((isSpaceC_iff c).1 h)

theorem cStr_split (s : List Char) :
    ∃ u, s = cStr s ++ u ∧ (u = [] ∨ ∃ u', u = '\x00' :: u') := by
  refine ⟨s.dropWhile (· != '\x00'), (List.takeWhile_append_dropWhile).symm, ?_⟩
  rcases h : s.dropWhile (· != '\x00') with _ | ⟨c, cs⟩
  · exact .inl rfl
  · right
    have := List.head_dropWhile_not (p := (· != '\x00')) (l := s) (by rw [h]; simp)
    simp only [h, List.head_cons] at this
    exact ⟨cs, by simpa using this⟩

theorem parseMpz_iff (base : ℕ) (s : List Char) (v : ℤ) :
    parseMpz base (cStr s) = some v ↔ Numeral base s v := by
  constructor
  · intro h
    obtain ⟨u, hs, hu⟩ := cStr_split s
    have hsplit := (List.takeWhile_append_dropWhile (p := isSpaceC) (l := cStr s)).symm
    have hws : ∀ c ∈ (cStr s).takeWhile isSpaceC, Blank c := fun c hc =>
      (isSpaceC_iff c).1 (List.mem_takeWhile_imp hc)
    unfold parseMpz at h
    split at h
    · rename_i cs heq
      rw [Option.map_eq_some_iff] at h
      obtain ⟨n, hn, rfl⟩ := h
      obtain ⟨ds, h1, h2, h3, rfl⟩ := (parseUnsigned_iff base cs n).1 hn
      refine ⟨_, cs, u, ds, hws, h1, h2, h3, hu, .inr ⟨?_, rfl⟩⟩
      rw [← heq, ← hsplit]; exact hs
    · rename_i cs heq
      rw [Option.map_eq_some_iff] at h
      obtain ⟨n, hn, rfl⟩ := h
      obtain ⟨ds, h1, h2, h3, rfl⟩ := (parseUnsigned_iff base _ n).1 hn
      refine ⟨_, _, u, ds, hws, h1, h2, h3, hu, .inl ⟨?_, rfl⟩⟩
      rw [← hsplit]; exact hs
  · rintro ⟨ws, t, u, ds, hws, h1, h2, h3, hu, ⟨rfl, rfl⟩ | ⟨rfl, rfl⟩⟩
    · have hc : cStr (ws ++ t ++ u) = ws ++ t := by
        refine cStr_append (fun c hc => ?_) hu
        rcases List.mem_append.1 hc with hc | hc
        · exact blank_ne_nul (hws c hc)
        · exact digits_no_nul h3 c hc
      have hp := (parseUnsigned_iff base t _).2 ⟨ds, h1, h2, h3, rfl⟩
      have hne : ∀ cs, t ≠ '-' :: cs := by
        rintro cs rfl
        cases h3 with
        | blank hb => exact h1 _ rfl hb
        | digit hd => exact digit_ne_minus hd rfl
      rw [hc, parseMpz, dropWhile_blank hws h1]
      split
      · rename_i cs; exact absurd rfl (hne cs)
      · rw [hp]; rfl
    · have hc : cStr (ws ++ '-' :: t ++ u) = ws ++ '-' :: t := by
        refine cStr_append (fun c hc => ?_) hu
        rcases List.mem_append.1 hc with hc | hc
        · exact blank_ne_nul (hws c hc)
        · rcases List.mem_cons.1 hc with rfl | hc
          · decide
          · exact digits_no_nul h3 c hc
      have hp := (parseUnsigned_iff base t _).2 ⟨ds, h1, h2, h3, rfl⟩
      have hb : ∀ c ∈ ('-' :: t).head?, ¬ Blank c := by
        intro c hc
        obtain rfl : '-' = c := by simpa using hc
        simp [Blank]
      rw [hc, parseMpz, dropWhile_blank hws hb]
      simp only [hp, Option.map_some]

/-- C19: the constructor on every pair of texts, in every base: a text that is a numeral (signs, white space and
embedded NULs included) gives its value; a `Px` that is none gives 0, and a `Py` that is none the value used for
`x`. -/
theorem C19_exact (C : CurveClass) (c : Option Addr) (base : ℕ) (px py : List Char) (v w : ℤ)
    (hv : Numeral base px v ∨ ((¬ ∃ z, Numeral base px z) ∧ v = 0))
    (hw : Numeral base py w ∨ ((¬ ∃ z, Numeral base py z) ∧ w = v)) :
    Pt.ofStrings C px py c base = Pt.ofZ C v w c := by
  have key : ∀ (s : List Char) (old z : ℤ), (Numeral base s z ∨ ((¬ ∃ z, Numeral base s z) ∧ z = old)) →
      setStr old s base = z := by
    rintro s old z (h | ⟨h, rfl⟩)
    · rw [setStr, (parseMpz_iff base s z).2 h]; rfl
    · rcases hp : parseMpz base (cStr s) with _ | y
      · rw [setStr, hp]; rfl
      · exact absurd ⟨y, (parseMpz_iff base s y).1 hp⟩ h
  simp only [Pt.ofStrings, key px 0 v hv, key py v w hw, Pt.ofZ]

/-- C19: a text has at most one value. -/
theorem C19_unique {base : ℕ} {s : List Char} {v w : ℤ} (h : Numeral base s v) (h' : Numeral base s w) : v = w := by
  rw [← parseMpz_iff] at h h'
  exact Option.some.inj (h.symm.trans h')

example : Numeral 10 " -1 2\x00x".toList (-12) :=
  ⟨[' '], ['1', ' ', '2'], ['\x00', 'x'], [1, 2], by simp [Blank], by simp [Blank], by simp,
    .digit (.inl ⟨by decide, rfl⟩) (by decide) (.blank (by simp [Blank])
      (.digit (.inl ⟨by decide, rfl⟩) (by decide) .nil)), .inr ⟨_, rfl⟩, .inr ⟨rfl, by decide⟩⟩
example : ¬ ∃ z, Numeral 10 "- 5".toList z := by
  rintro ⟨z, h⟩
  rw [← parseMpz_iff] at h
  exact absurd h (by rw [show parseMpz 10 (cStr "- 5".toList) = none by decide +kernel]; simp)
example : Pt.ofStrings bn254 "- 5".toList "-1".toList none 10 = Pt.ofZ bn254 0 (-1) none := by decide +kernel

/-- C19: a number whose text is longer than the modulus is reduced, not rejected. -/
example : Pt.ofStrings bn254 "12".toList "007".toList none 10 = Pt.ofZ bn254 12 7 none := by decide +kernel
example : Pt.ofStrings bn254 "12".toList "7x".toList none 10 = Pt.ofZ bn254 12 12 none := by decide +kernel
example : Malformed 10 "7x".toList :=
  ⟨['7', 'x'], [], rfl, by decide, .inl rfl, .inr ⟨'x', by decide, by decide, by decide, by decide⟩⟩

/-- C06: the constants are the values of the hexadecimal strings in the constructors of the curve classes
(`src/ecc/ecc_bn254.cpp:13-23`, `src/ecc/ecc_secp256r1.cpp:13-23`) and of the field classes. -/
theorem C06_text :
    Numeral 16 "2523648240000001BA344D80000000086121000000000013A700000000000013".toList bn254.prime ∧
    Numeral 16 "0000000000000000000000000000000000000000000000000000000000000000".toList bn254.a ∧
    Numeral 16 "0000000000000000000000000000000000000000000000000000000000000002".toList bn254.b ∧
    Numeral 16 "2523648240000001BA344D80000000086121000000000013A700000000000012".toList bn254.gx ∧
    Numeral 16 "0000000000000000000000000000000000000000000000000000000000000001".toList bn254.gy ∧
    Numeral 16 "2523648240000001BA344D8000000007FF9F800000000010A10000000000000D".toList bn254.order ∧
    Numeral 16 "1".toList bn254.cofactor ∧
    Numeral 16 "2523648240000001BA344D8000000007FF9F800000000010A10000000000000D".toList (bn254.fn : ℤ) ∧
    Numeral 16 "2523648240000001BA344D80000000086121000000000013A700000000000013".toList (bn254.fp : ℤ) ∧
    Numeral 16 "ffffffff00000001000000000000000000000000ffffffffffffffffffffffff".toList secp256r1.prime ∧
    Numeral 16 "ffffffff00000001000000000000000000000000fffffffffffffffffffffffc".toList secp256r1.a ∧
    Numeral 16 "5ac635d8aa3a93e7b3ebbd55769886bc651d06b0cc53b0f63bce3c3e27d2604b".toList secp256r1.b ∧
    Numeral 16 "6b17d1f2e12c4247f8bce6e563a440f277037d812deb33a0f4a13945d898c296".toList secp256r1.gx ∧
    Numeral 16 "4fe342e2fe1a7f9b8ee7eb4a7c0f9e162bce33576b315ececbb6406837bf51f5".toList secp256r1.gy ∧
    Numeral 16 "ffffffff00000000ffffffffffffffffbce6faada7179e84f3b9cac2fc632551".toList secp256r1.order ∧
    Numeral 16 "1".toList secp256r1.cofactor ∧
    Numeral 16 "ffffffff00000000ffffffffffffffffbce6faada7179e84f3b9cac2fc632551".toList (secp256r1.fn : ℤ) ∧
    Numeral 16 "ffffffff00000001000000000000000000000000ffffffffffffffffffffffff".toList (secp256r1.fp : ℤ) := by
  simp only [← parseMpz_iff]
  decide +kernel

end Verif
