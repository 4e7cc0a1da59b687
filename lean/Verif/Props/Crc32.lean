import Verif.Model.Crc32
import Verif.Spec.Crc32
import Verif.Lemmas.Crc

/-!
# C106: the table of CRC-32
-/

namespace Verif
namespace Crc

open Crc32Spec

theorem step32_xor (a b : BitVec 32) : stepBit (a ^^^ b) = stepBit a ^^^ stepBit b := by
  unfold stepBit
  rw [BitVec.getLsbD_xor, BitVec.ushiftRight_xor_distrib]
  cases a.getLsbD 0 <;> cases b.getLsbD 0 <;> simp [BitVec.xor_assoc]
  · rw [BitVec.xor_comm poly]
  · rw [BitVec.xor_comm (b >>> 1), ← BitVec.xor_assoc poly, BitVec.xor_self, BitVec.zero_xor]

theorem step32_iter_xor (k : ℕ) (a b : BitVec 32) : stepBit^[k] (a ^^^ b) = stepBit^[k] a ^^^ stepBit^[k] b := by
  induction k generalizing a b with
  | zero => rfl
  | succ k ih => simp only [Function.iterate_succ, Function.comp, step32_xor, ih]

theorem step32_iter_shift (k : ℕ) (hk : k ≤ 8) (r : BitVec 32) (h : ∀ i < 8, r.getLsbD i = false) :
    stepBit^[k] r = r >>> k := by
  induction k with
  | zero => simp
  | succ k ih =>
    rw [Function.iterate_succ_apply', ih (by omega)]
    unfold stepBit
    have : (r >>> k).getLsbD 0 = false := by
      rw [BitVec.getLsbD_ushiftRight]; exact h _ (by omega)
    rw [this, ← BitVec.shiftRight_add]
    simp

theorem step32_lo (r : BitVec 32) : stepBit^[8] r = stepBit^[8] (lo r) ^^^ (r >>> 8) := by
  have h : r = lo r ^^^ (r ^^^ lo r) := by
    rw [BitVec.xor_comm r, ← BitVec.xor_assoc, BitVec.xor_self, BitVec.zero_xor]
  have h8 : stepBit^[8] (r ^^^ lo r) = r >>> 8 := by
    rw [step32_iter_shift 8 le_rfl]
    · apply BitVec.eq_of_getLsbD_eq
      intro i hi
      rw [BitVec.getLsbD_ushiftRight, BitVec.getLsbD_ushiftRight, BitVec.getLsbD_xor]
      by_cases h : 8 + i < 32
      · rw [lo_bit r _ h]; simp
      · rw [BitVec.getLsbD_of_ge _ _ (by omega), BitVec.getLsbD_of_ge _ _ (by omega)]; rfl
    · intro i hi
      rw [BitVec.getLsbD_xor, lo_bit r i (by omega)]
      simp [hi]
  conv_lhs => rw [h, step32_iter_xor, h8]

/-- **C106**: entry `i` of the table is what eight division steps make of `i`, and there are no more entries. -/
theorem C106_table : crc32_tab.length = 256 ∧ ∀ i < 256, crc32_tab.getD i 0 = stepBit^[8] (BitVec.ofNat 32 i) := by
  decide +kernel

theorem lookup32 (r : BitVec 32) (b : Byte) : ∃ x, lookup crc32_tab ((r ^^^ w b) &&& 0xff#32) = .ok x ∧
    x ^^^ (r >>> 8) = stepBit^[8] (r ^^^ w b) := by
  have hlt : ((r ^^^ w b) &&& 0xff#32).toNat < 256 := by
    rw [BitVec.toNat_and]
    exact lt_of_le_of_lt Nat.and_le_right (by decide)
  have hl : ((r ^^^ w b) &&& 0xff#32).toNat < crc32_tab.length := by rw [C106_table.1]; exact hlt
  have ht := C106_table.2 _ hlt
  rw [List.getD_eq_getElem?_getD, List.getElem?_eq_getElem hl, Option.getD_some, BitVec.ofNat_toNat, BitVec.setWidth_eq] at ht
  refine ⟨_, by rw [lookup, List.getElem?_eq_getElem hl], ?_⟩
  have : (r ^^^ w b) >>> 8 = r >>> 8 := by
    apply BitVec.eq_of_getLsbD_eq
    intro i hi
    rw [BitVec.getLsbD_ushiftRight, BitVec.getLsbD_ushiftRight, BitVec.getLsbD_xor]
    by_cases h : 8 + i < 32
    · rw [w_bit b _ h]; simp
    · rw [BitVec.getLsbD_of_ge _ _ (by omega), BitVec.getLsbD_of_ge _ _ (by omega)]; rfl
  rw [ht, step32_lo (r ^^^ w b), this]
  rfl

theorem byteLoop32 (buf : List Byte) (n : ℕ) (r : BitVec 32) (h : n ≤ buf.length) :
    byteLoop crc32_tab n r buf = .ok ((buf.take n).foldl (fun r b => stepBit^[8] (r ^^^ w b)) r, buf.drop n) := by
  induction n generalizing buf r with
  | zero => rfl
  | succ n ih =>
    rcases buf with _ | ⟨b, buf⟩
    · simp at h
    obtain ⟨x, h1, h2⟩ := lookup32 r b
    rw [byteLoop, h1, R.ok_bind, h2, ih _ _ (by simpa using h)]
    rfl

theorem byteLoop32_short (buf : List Byte) (n : ℕ) (r : BitVec 32) (h : buf.length < n) :
    byteLoop crc32_tab n r buf = .error .oobRead := by
  induction n generalizing buf r with
  | zero => omega
  | succ n ih =>
    rcases buf with _ | ⟨b, buf⟩
    · rfl
    obtain ⟨x, h1, -⟩ := lookup32 r b
    rw [byteLoop, h1, R.ok_bind, ih _ _ (by simpa using h)]

/-- **C106**: the function of the comment computes the CRC-32 of the first `size` bytes of every buffer that has as many. -/
theorem C106_crc32 (buf : List Byte) (size : ℕ) (h : size ≤ buf.length) :
    crc32 buf size = .ok (Crc32Spec.crc (buf.take size)) := by
  rw [crc32, byteLoop32 _ _ _ h]
  exact congrArg _ BitVec.xor_allOnes

/-- **C106**: it reads beyond a shorter one. -/
theorem C106_short (buf : List Byte) (size : ℕ) (h : buf.length < size) : crc32 buf size = .error .oobRead := by
  rw [crc32, byteLoop32_short _ _ _ h]
  rfl

/-- the check value of CRC-32, of the digits 1 to 9 -/
example : crc32 [0x31, 0x32, 0x33, 0x34, 0x35, 0x36, 0x37, 0x38, 0x39] 9 = .ok 0xcbf43926#32 := by decide +kernel

end Crc
end Verif
