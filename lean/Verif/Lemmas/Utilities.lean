import Mathlib.Tactic.Ring
import Mathlib.Tactic.Linarith
import Mathlib.Tactic.Positivity
import Verif.Model.Utilities
import Verif.Spec.Utilities

/-!
# Integers and byte strings
-/

namespace Verif
namespace Utils

open BytesSpec

theorem val_append (a b : List Byte) : val (a ++ b) = val a * 256 ^ b.length + val b := by
  induction a with
  | nil => simp [val]
  | cons x a ih => simp only [List.cons_append, val, ih, List.length_append, pow_add]; ring

theorem val_snoc (l : List Byte) (b : Byte) : val (l ++ [b]) = 256 * val l + b.toNat := by
  rw [val_append]; simp [val]; ring

theorem setRawMpz_val (l : List Byte) : setRawMpz l = val l := by
  induction l using List.reverseRecOn with
  | nil => rfl
  | append_singleton l b ih =>
    have : setRawMpz (l ++ [b]) = setRawMpz l * 256 + b.toNat := by simp [setRawMpz, List.foldl_append]
    rw [this, ih, val_snoc]; push_cast; ring

/-- the digits of a natural number -/
def digits (n : ℕ) : List Byte := digitsAux n n []

theorem digitsAux_append (f n : ℕ) (acc : List Byte) : digitsAux f n acc = digitsAux f n [] ++ acc := by
  induction f generalizing n acc with
  | zero => rfl
  | succ f ih =>
    unfold digitsAux
    by_cases h : n = 0
    · simp [h]
    · simp only [h, if_false]
      rw [ih, ih _ [_]]; simp

theorem digitsAux_fuel (f g n : ℕ) (hf : n ≤ f) (hg : n ≤ g) : digitsAux f n [] = digitsAux g n [] := by
  induction n using Nat.strong_induction_on generalizing f g with
  | _ n ih =>
    by_cases h : n = 0
    · subst h; cases f <;> cases g <;> simp [digitsAux]
    · obtain ⟨f, rfl⟩ : ∃ f', f = f' + 1 := ⟨f - 1, by omega⟩
      obtain ⟨g, rfl⟩ : ∃ f', g = f' + 1 := ⟨g - 1, by omega⟩
      simp only [digitsAux, h, if_false]
      rw [digitsAux_append f, digitsAux_append g, ih (n / 256) (by omega) f g (by omega) (by omega)]

theorem digits_zero : digits 0 = [] := rfl

theorem digits_eq (n : ℕ) (h : n ≠ 0) : digits n = digits (n / 256) ++ [BitVec.ofNat 8 n] := by
  unfold digits
  obtain ⟨f, hf⟩ : ∃ f, n = f + 1 := ⟨n - 1, by omega⟩
  have : digitsAux n n [] = digitsAux f (n / 256) [BitVec.ofNat 8 n] := by
    conv_lhs => rw [show digitsAux n n [] = digitsAux (f + 1) n [] by rw [← hf]]
    simp [digitsAux, h]
  rw [this, digitsAux_append, digitsAux_fuel f (n / 256) _ (by omega) le_rfl]

theorem ofNat_toNat (n : ℕ) : (BitVec.ofNat 8 n).toNat = n % 256 := by simp

theorem val_digits (n : ℕ) : val (digits n) = n := by
  induction n using Nat.strong_induction_on with
  | _ n ih =>
    by_cases h : n = 0
    · subst h; rfl
    · rw [digits_eq n h, val_snoc, ih _ (by omega), ofNat_toNat]; omega

theorem digits_head (n : ℕ) (h : n ≠ 0) : ∃ b l, digits n = b :: l ∧ b ≠ 0 := by
  induction n using Nat.strong_induction_on with
  | _ n ih =>
    rw [digits_eq n h]
    by_cases h' : n / 256 = 0
    · rw [h']
      refine ⟨_, [], rfl, ?_⟩
      intro h0
      have := congrArg BitVec.toNat h0
      rw [ofNat_toNat] at this
      simp at this; omega
    · obtain ⟨b, l, e, hb⟩ := ih (n / 256) (by omega) h'
      exact ⟨b, l ++ [_], by rw [e]; rfl, hb⟩

theorem val_lt (l : List Byte) : val l < 256 ^ l.length := by
  induction l with
  | nil => simp [val]
  | cons b l ih =>
    simp only [val, List.length_cons, pow_succ]
    have := b.isLt
    nlinarith [Nat.pow_pos (n := l.length) (show 0 < 256 by norm_num)]

theorem val_ge (b : Byte) (l : List Byte) (hb : b ≠ 0) : 256 ^ l.length ≤ val (b :: l) := by
  have : 1 ≤ b.toNat := by
    rcases Nat.eq_zero_or_pos b.toNat with h | h
    · exact absurd (BitVec.eq_of_toNat_eq (by simpa using h)) hb
    · exact h
  simp only [val]
  nlinarith [Nat.pow_pos (n := l.length) (show 0 < 256 by norm_num)]

theorem digits_val (l : List Byte) : digits (val l) = l.dropWhile (· == 0) := by
  induction l using List.reverseRecOn with
  | nil => rfl
  | append_singleton l b ih =>
    rw [val_snoc, List.dropWhile_append]
    have hb := b.isLt
    by_cases h0 : val l = 0
    · have hl : l.dropWhile (· == 0) = [] := by rw [← ih, h0]; rfl
      rw [hl, h0]
      by_cases hb0 : b = 0
      · subst hb0; simp [digits, digitsAux]
      · have hb1 : b.toNat ≠ 0 := fun h => hb0 (BitVec.eq_of_toNat_eq (by simpa using h))
        rw [digits_eq _ (by omega)]
        have : (256 * 0 + b.toNat) / 256 = 0 := by omega
        rw [this, digits_zero, List.dropWhile_cons_of_neg (by simpa using hb0)]
        simp
    · have hne : l.dropWhile (· == 0) ≠ [] := by
        rw [← ih, digits_eq _ h0]; simp
      rw [if_neg (by simpa using hne), digits_eq _ (by omega), ← ih]
      have h1 : (256 * val l + b.toNat) / 256 = val l := by omega
      rw [h1]
      congr 2
      apply BitVec.eq_of_toNat_eq
      rw [ofNat_toNat]; omega

theorem digits_val_of_head (b : Byte) (l : List Byte) (hb : b ≠ 0) : digits (val (b :: l)) = b :: l := by
  rw [digits_val, List.dropWhile_cons_of_neg (by simpa using hb)]

theorem getRawMpz_eq (n : ℤ) : getRawMpz n = digits n.natAbs := rfl

theorem length_digits (n : ℕ) : (digits n).length = (n.size + 7) / 8 := by
  by_cases h : n = 0
  · subst h; simp [digits_zero]
  · obtain ⟨b, l, e, hb⟩ := digits_head n h
    have h1 := val_lt (digits n)
    have h2 := val_ge b l hb
    rw [← e, val_digits] at h2
    rw [val_digits] at h1
    have hl : (digits n).length = l.length + 1 := by rw [e]; rfl
    rw [hl] at h1 ⊢
    have p1 : n.size ≤ 8 * (l.length + 1) := by
      rw [Nat.size_le, pow_mul]; simpa using h1
    have p2 : 8 * l.length < n.size := by
      rw [Nat.lt_size, pow_mul]; simpa using h2
    omega

theorem length_getRawMpz (n : ℤ) : (getRawMpz n).length = byteLen n := length_digits _

theorem setRaw_getRaw (n : ℤ) : setRawMpz (getRawMpz n) = |n| := by
  rw [setRawMpz_val, getRawMpz_eq, val_digits]; simp

theorem IsBytes.raw {n : ℤ} {l : List Byte} (h : IsBytes n l) : getRawMpz n = l := by
  rw [getRawMpz_eq, ← h.value, Int.natAbs_natCast]
  have hh := h.head
  cases l with
  | nil => rfl
  | cons b l => exact digits_val_of_head b l (by simpa using hh)

theorem IsBytes.nonneg {n : ℤ} {l : List Byte} (h : IsBytes n l) : 0 ≤ n := by rw [← h.value]; positivity

theorem IsBytes.byteLen {n : ℤ} {l : List Byte} (h : IsBytes n l) : byteLen n = l.length := by
  rw [← length_getRawMpz, IsBytes.raw h]

theorem exists_bytes (n : ℤ) (hn : 0 ≤ n) : IsBytes n (getRawMpz n) := by
  constructor
  · rw [← setRawMpz_val, setRaw_getRaw, abs_of_nonneg hn]
  · rw [getRawMpz_eq]
    by_cases h : n.natAbs = 0
    · rw [h]; simp [digits_zero]
    · obtain ⟨b, l, e, hb⟩ := digits_head _ h
      rw [e]; simpa using hb

end Utils
end Verif
