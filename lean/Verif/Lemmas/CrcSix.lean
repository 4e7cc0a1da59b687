import Verif.Lemmas.CrcSixData

/-!
# Six flipped bits

That no six bits of an integer of up to 26 bytes cancel: the lowest three and the highest three would be equal, that is two
logarithms of three bits would be close.
-/

namespace Verif
namespace Crc

open CrcSpec

/-- what the data say: number `i` is the logarithm of three bits -/
theorem log6 {i : ℕ} (hi : i < 21321) : stepBit^[cell 31 z6 i] 1#32 =
    stepBit^[cell 8 k6 i] 1#32 ^^^ stepBit^[cell 8 (k6 >>> 8) i] 1#32 ^^^ 1#32 := by
  have one := const_lane (n := 32 * 21321) (i := 32 * i) (by omega) 1#32
  have e := every_bit hi
  have h1 := onlyS_lane (powS_lane (digitsOf z6 0 31) 0 rows0_rows one) e
  have h2 := onlyS_lane (xorS_lane (xorS_lane (powS_lane (digitsOf k6 0 8) 0 rows0_rows one)
    (powS_lane (digitsOf k6 8 8) 0 rows0_rows one)) one) e
  rw [cert6] at h1
  have := lane_unique h1 h2
  rw [val_digitsOf, val_digitsOf, val_digitsOf, pow_zero, one_mul, one_mul, one_mul, Nat.zero_add, Nat.shiftRight_add] at this
  exact this

theorem cyclic6 : Cyclic 207 21321 z6 k6 := fun _ hi => sweepP_at sweep6 hi

/-- all pairs up to 207 are there -/
theorem all6 {a b : ℕ} (h0 : 0 < a) (hab : a < b) (hb : b ≤ 207) : ∃ i < 21321, cell 8 k6 i = a ∧ cell 8 (k6 >>> 8) i = b :=
  cyclic6.log_all (by norm_num [Nat.choose_two_right]) (fun _ hi => log6 hi) h0 hab hb

/-- six bits within 207 do not cancel -/
theorem six_steps {a b c d e : ℕ} (ha : 0 < a) (hb : a < b) (hc : b < c) (hd : c < d) (he : d < e) (hN : e ≤ 207) :
    stepBit^[e] 1#32 ^^^ stepBit^[d] 1#32 ^^^ stepBit^[c] 1#32 ^^^ stepBit^[b] 1#32 ^^^ stepBit^[a] 1#32 ^^^ 1#32 ≠ 0#32 := by
  intro h
  obtain ⟨i, hi, i1, i2⟩ := all6 ha hb (by omega)
  obtain ⟨j, hj, j1, j2⟩ := all6 (a := d - c) (b := e - c) (by omega) (by omega) (by omega)
  have l1 := log6 hi
  have l2 := log6 hj
  rw [i1, i2] at l1
  rw [j1, j2] at l2
  have key : stepBit^[cell 31 z6 i] 1#32 = stepBit^[c + cell 31 z6 j] 1#32 := by
    rw [l1, Function.iterate_add_apply, l2, stepBit_iter_xor, stepBit_iter_xor, ← Function.iterate_add_apply,
      ← Function.iterate_add_apply, show c + (d - c) = d by omega, show c + (e - c) = e by omega]
    apply xor_eq_zero
    rw [← h]
    ac_rfl
  have := cyclic6.no_shift (by norm_num) hi hj (by omega) key
  rw [j2] at this
  omega

end Crc
end Verif
