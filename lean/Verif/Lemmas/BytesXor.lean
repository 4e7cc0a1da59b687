import Verif.Lemmas.Aes

/-!
# Exclusive or of byte strings and of numbers
-/

namespace Verif
namespace Utils

open BytesSpec

theorem xor_snoc (a b x y : ℕ) (hx : x < 256) (hy : y < 256) :
    (256 * a + x) ^^^ (256 * b + y) = 256 * (a ^^^ b) + (x ^^^ y) := by
  have hd : ((256 * a + x) ^^^ (256 * b + y)) / 256 = a ^^^ b := by
    have := @Nat.shiftRight_xor_distrib 8 (256 * a + x) (256 * b + y)
    simp only [Nat.shiftRight_eq_div_pow] at this
    rw [show (2 : ℕ) ^ 8 = 256 from rfl] at this
    rw [this]
    congr 1 <;> omega
  have hm : ((256 * a + x) ^^^ (256 * b + y)) % 256 = x ^^^ y := by
    have := @Nat.xor_mod_two_pow (256 * a + x) (256 * b + y) 8
    rw [show (2 : ℕ) ^ 8 = 256 from rfl] at this
    rw [this]
    congr 1 <;> omega
  rw [← hd, ← hm]
  omega

/-- exclusive or of two byte strings of equal length -/
def xorB (a b : List Byte) : List Byte := List.zipWith (· ^^^ ·) a b

theorem xorB_length (a b : List Byte) (h : a.length = b.length) : (xorB a b).length = a.length := by simp [xorB, h]

theorem val_xorB (a b : List Byte) (h : a.length = b.length) : val (xorB a b) = val a ^^^ val b := by
  induction a using List.reverseRecOn generalizing b with
  | nil =>
    have : b = [] := List.eq_nil_of_length_eq_zero h.symm
    subst this; rfl
  | append_singleton a x ih =>
    rcases List.eq_nil_or_concat b with rfl | ⟨b', y, rfl⟩
    · simp at h
    · rw [List.concat_eq_append] at *
      have h' : a.length = b'.length := by simpa using h
      have : xorB (a ++ [x]) (b' ++ [y]) = xorB a b' ++ [x ^^^ y] := by
        unfold xorB; rw [List.zipWith_append h']; rfl
      rw [this, val_snoc, val_snoc, val_snoc, ih b' h', BitVec.toNat_xor, xor_snoc _ _ _ _ x.isLt y.isLt]

theorem val_inj (a b : List Byte) (h : a.length = b.length) (hv : val a = val b) : a = b := by
  induction a using List.reverseRecOn generalizing b with
  | nil => exact (List.eq_nil_of_length_eq_zero h.symm).symm
  | append_singleton a x ih =>
    rcases List.eq_nil_or_concat b with rfl | ⟨b', y, rfl⟩
    · simp at h
    · rw [List.concat_eq_append] at *
      have h' : a.length = b'.length := by simpa using h
      rw [val_snoc, val_snoc] at hv
      have hx := x.isLt; have hy := y.isLt
      rw [ih b' h' (by omega)]
      congr 2
      apply BitVec.eq_of_toNat_eq; omega

/-- a number as a byte string of a given length -/
def pad (L n : ℕ) : List Byte := List.replicate (L - (digits n).length) 0#8 ++ digits n

theorem val_pad (L n : ℕ) : val (pad L n) = n := by
  have hz : ∀ k, val (List.replicate k 0#8) = 0 := by
    intro k
    induction k with
    | zero => rfl
    | succ k ih => simp [List.replicate_succ, val, ih]
  rw [pad, val_append, hz, val_digits]; simp

theorem pad_length (L n : ℕ) (h : (digits n).length ≤ L) : (pad L n).length = L := by
  simp [pad]; omega

theorem mask_xorB (ks : ℕ → Byte) (a b : List Byte) : Aes.mask ks (xorB a b) = xorB (Aes.mask ks a) b := by
  apply List.ext_getElem
  · simp [Aes.mask, xorB]
  · intro i h1 h2
    simp only [Aes.mask, xorB, List.getElem_mapIdx, List.getElem_zipWith, BitVec.xor_assoc]
    congr 1
    exact BitVec.xor_comm _ _

theorem byteLen_lt_iff (n L : ℕ) : byteLen n ≤ L ↔ n < 256 ^ L := by
  have h : (256 : ℕ) ^ L = 2 ^ (8 * L) := by rw [pow_mul]; norm_num
  rw [h, ← Nat.size_le]
  change (n.size + 7) / 8 ≤ L ↔ _
  omega

theorem byteLen_xor_le (a b L : ℕ) (ha : byteLen a ≤ L) (hb : byteLen b ≤ L) : byteLen (a ^^^ b : ℕ) ≤ L := by
  rw [byteLen_lt_iff] at *
  have h : (256 : ℕ) ^ L = 2 ^ (8 * L) := by rw [pow_mul]; norm_num
  rw [h] at ha hb ⊢
  exact Nat.xor_lt_two_pow ha hb

/-- the byte string of `a ^^^ d` if it has as many bytes as `a` -/
theorem bytes_xor (a d : ℕ) (ab : List Byte) (ha : IsBytes a ab) (hl : byteLen (a ^^^ d : ℕ) = byteLen a) :
    byteLen d ≤ ab.length ∧ IsBytes (a ^^^ d : ℕ) (xorB ab (pad ab.length d)) := by
  have hla := IsBytes.byteLen ha
  have hd : byteLen d ≤ ab.length := by
    have := byteLen_xor_le a (a ^^^ d) (byteLen a) le_rfl hl.le
    rw [← Nat.xor_assoc, Nat.xor_self, Nat.zero_xor, hla] at this
    exact this
  refine ⟨hd, ?_⟩
  have hp : (pad ab.length d).length = ab.length := pad_length _ _ (by rw [length_digits]; exact hd)
  have hv : val (xorB ab (pad ab.length d)) = a ^^^ d := by
    rw [val_xorB _ _ hp.symm, val_pad]
    have : val ab = a := by exact_mod_cast ha.value
    rw [this]
  have hb := exists_bytes ((a ^^^ d : ℕ) : ℤ) (by positivity)
  have he : getRawMpz ((a ^^^ d : ℕ) : ℤ) = xorB ab (pad ab.length d) := by
    apply val_inj
    · rw [length_getRawMpz, hl, hla, xorB_length _ _ hp.symm]
    · rw [hv]; exact_mod_cast hb.value
  rwa [he] at hb

end Utils
end Verif
