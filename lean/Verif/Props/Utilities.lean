import Verif.Lemmas.Utilities

/-!
# C47: integers and byte strings
-/

namespace Verif

open BytesSpec Utils

/-- **C47**: reading the bytes back gives the magnitude (the sign is lost). -/
theorem C47_read_back (n : ℤ) : setRawMpz (getRawMpz n) = |n| := setRaw_getRaw n

/-- **C47**: the number of bytes is the number of bits divided by eight, rounded up. -/
theorem C47_length (n : ℤ) : (getRawMpz n).length = byteLen n := length_getRawMpz n

/-- **C47**: no leading zero byte. -/
theorem C47_no_leading_zero (n : ℤ) : (getRawMpz n).head? ≠ some 0#8 := by
  rw [getRawMpz_eq]
  by_cases h : n.natAbs = 0
  · rw [h]; simp [digits_zero]
  · obtain ⟨b, l, e, hb⟩ := digits_head _ h
    rw [e]; simpa using hb

/-- **C47**: bytes are read most significant first. -/
theorem C47_value (l : List Byte) : setRawMpz l = val l := setRawMpz_val l

/-- **C47**: bytes to integer to bytes drops exactly the leading zero bytes. -/
theorem C47_drops_zeros (l : List Byte) : getRawMpz (setRawMpz l) = l.dropWhile (· == 0#8) := by
  rw [setRawMpz_val, getRawMpz_eq, Int.natAbs_natCast]
  exact digits_val l

/-- The bytes of an integer are the only byte string without leading zero that denotes its magnitude. -/
theorem C47_unique (n : ℤ) (l : List Byte) (h0 : l.head? ≠ some 0#8) (hv : val l = n.natAbs) : getRawMpz n = l := by
  rw [getRawMpz_eq, ← hv]
  cases l with
  | nil => rfl
  | cons b l => exact digits_val_of_head b l (by simpa using h0)

example : getRawMpz (-0x10203) = [1#8, 2#8, 3#8] := by decide +kernel
example : setRawMpz [0#8, 0#8, 1#8, 0#8] = 256 := by decide +kernel

end Verif
