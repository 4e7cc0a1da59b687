import Verif.Lemmas.CrcFourData

/-!
# Four flipped bits

That no four bits of an integer of up to 659 bytes cancel.  The register step acts on the differences of two bits like a
multiplication by a generator of a group of prime order `2^31 - 1`; with their logarithms at hand, four bits cancel exactly
if two logarithms are close.
-/

namespace Verif
namespace Crc

open CrcSpec

/-- what the data say: number `i` is the logarithm of the difference of two bits `k` apart -/
theorem log4 {i : ℕ} (hi : i < 5271) :
    stepBit^[val i zMasks] u1 = stepBit^[val i kMasks] 1#32 ^^^ 1#32 := by
  have h1 := powS_lane zMasks 0 rows0_rows (const_lane hi u1)
  have h2 := xorS_lane (powS_lane kMasks 0 rows0_rows (const_lane hi 1#32)) (const_lane hi 1#32)
  rw [pow_zero, one_mul] at h1 h2
  rw [cert4] at h1
  exact lane_unique h1 h2

/-- all distances up to 5271 are there -/
theorem all4 {a : ℕ} (h0 : 0 < a) (ha : a ≤ 5271) : ∃ i < 5271, val i kMasks = a :=
  log_all sweep4 (fun i hi j hj e => by rw [log4 hi, log4 hj, e]) h0 ha

/-- four bits within 5271 do not cancel -/
theorem four_steps {a b c : ℕ} (hc : 0 < c) (hb : c < b) (ha : b < a) (hN : a ≤ 5271) :
    stepBit^[a] 1#32 ^^^ stepBit^[b] 1#32 ^^^ stepBit^[c] 1#32 ^^^ 1#32 ≠ 0#32 := by
  intro h
  obtain ⟨i, hi, hia⟩ := all4 (a := a) (by omega) hN
  obtain ⟨j, hj, hje⟩ := all4 (a := b - c) (by omega) (by omega)
  have l1 := log4 hi
  have l2 := log4 hj
  rw [hia] at l1
  rw [hje] at l2
  have e : stepBit^[val i zMasks] u1 = stepBit^[c + val j zMasks] u1 := by
    rw [l1, Function.iterate_add_apply, l2, stepBit_iter_xor, ← Function.iterate_add_apply, show c + (b - c) = b by omega]
    apply xor_eq_zero
    rw [← h]
    ac_rfl
  have := no_shift sweep4 (by norm_num) hi hj hc e
  rw [hje] at this
  omega

end Crc
end Verif
