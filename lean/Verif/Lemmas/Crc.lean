import Mathlib.Tactic.IntervalCases
import Mathlib.Tactic.Ring
import Verif.Model.Crc
import Verif.Spec.Crc
import Verif.Lemmas.Field

/-!
# CRC-32C: the register map is linear, the tables are its powers
-/

namespace Verif
namespace Crc

open CrcSpec

/-- eight division steps -/
def T (r : BitVec 32) : BitVec 32 := stepBit^[8] r

theorem stepBit_xor (a b : BitVec 32) : stepBit (a ^^^ b) = stepBit a ^^^ stepBit b := by
  unfold stepBit
  rw [BitVec.getLsbD_xor, BitVec.ushiftRight_xor_distrib]
  cases a.getLsbD 0 <;> cases b.getLsbD 0 <;> simp [BitVec.xor_assoc]
  · rw [BitVec.xor_comm poly]
  · rw [BitVec.xor_comm (b >>> 1), ← BitVec.xor_assoc poly, BitVec.xor_self, BitVec.zero_xor]

theorem stepBit_iter_xor (k : ℕ) (a b : BitVec 32) : stepBit^[k] (a ^^^ b) = stepBit^[k] a ^^^ stepBit^[k] b := by
  induction k generalizing a b with
  | zero => rfl
  | succ k ih => simp only [Function.iterate_succ, Function.comp, stepBit_xor, ih]

theorem T_xor (a b : BitVec 32) : T (a ^^^ b) = T a ^^^ T b := stepBit_iter_xor 8 a b

theorem T_iter_xor (k : ℕ) (a b : BitVec 32) : T^[k] (a ^^^ b) = T^[k] a ^^^ T^[k] b := by
  induction k generalizing a b with
  | zero => rfl
  | succ k ih => simp only [Function.iterate_succ, Function.comp, T_xor, ih]

theorem stepBit_iter_shift (k : ℕ) (hk : k ≤ 8) (r : BitVec 32) (h : ∀ i < 8, r.getLsbD i = false) :
    stepBit^[k] r = r >>> k := by
  induction k with
  | zero => simp
  | succ k ih =>
    rw [Function.iterate_succ_apply', ih (by omega)]
    unfold stepBit
    have : (r >>> k).getLsbD 0 = false := by
      rw [BitVec.getLsbD_ushiftRight]; exact h _ (by omega)
    rw [this, ← BitVec.shiftRight_add]
    simp

/-- the low byte of a register -/
def lo (r : BitVec 32) : BitVec 32 := r &&& 0xff#32

theorem ff_bit (i : ℕ) (hi : i < 32) : (0xff#32).getLsbD i = decide (i < 8) := by
  interval_cases i <;> rfl

theorem lo_bit (r : BitVec 32) (i : ℕ) (hi : i < 32) : (lo r).getLsbD i = (r.getLsbD i && decide (i < 8)) := by
  rw [lo, BitVec.getLsbD_and, ff_bit i hi]

theorem T_lo (r : BitVec 32) : T r = T (lo r) ^^^ (r >>> 8) := by
  have h : r = lo r ^^^ (r ^^^ lo r) := by
    rw [BitVec.xor_comm r, ← BitVec.xor_assoc, BitVec.xor_self, BitVec.zero_xor]
  have h8 : T (r ^^^ lo r) = r >>> 8 := by
    unfold T
    rw [stepBit_iter_shift 8 le_rfl]
    · apply BitVec.eq_of_getLsbD_eq
      intro i hi
      rw [BitVec.getLsbD_ushiftRight, BitVec.getLsbD_ushiftRight, BitVec.getLsbD_xor]
      by_cases h : 8 + i < 32
      · rw [lo_bit r _ h]; simp
      · rw [BitVec.getLsbD_of_ge _ _ (by omega), BitVec.getLsbD_of_ge _ _ (by omega)]; rfl
    · intro i hi
      rw [BitVec.getLsbD_xor, lo_bit r i (by omega)]
      simp [hi]
  conv_lhs => rw [h, T_xor, h8]

theorem stepByte_eq (r : BitVec 32) (b : Byte) : stepByte r b = T (r ^^^ w b) := rfl

theorem w_bit (b : Byte) (i : ℕ) (hi : i < 32) : (w b).getLsbD i = (b.getLsbD i && decide (i < 8)) := by
  unfold w
  rw [BitVec.getLsbD_setWidth]
  by_cases h : i < 8
  · simp [hi, h]
  · simp [hi, h, BitVec.getLsbD_of_ge b i (by omega)]

theorem w_shift8 (b : Byte) : (w b) >>> 8 = 0#32 := by
  apply BitVec.eq_of_getLsbD_eq
  intro i hi
  rw [BitVec.getLsbD_ushiftRight]
  by_cases h : 8 + i < 32
  · rw [w_bit b _ h]; simp
  · rw [BitVec.getLsbD_of_ge _ _ (by omega)]; simp

/-- eight steps shift a word whose top byte is zero back from its left shift -/
theorem T_shl (y : BitVec 32) (h : ∀ i, 24 ≤ i → y.getLsbD i = false) : T (y <<< 8) = y := by
  unfold T
  rw [stepBit_iter_shift 8 le_rfl]
  · apply BitVec.eq_of_getLsbD_eq
    intro i hi
    rw [BitVec.getLsbD_ushiftRight, BitVec.getLsbD_shiftLeft]
    by_cases h' : i < 24
    · simp [show 8 + i < 32 by omega]
    · rw [h i (by omega)]; simp [show ¬ 8 + i < 32 by omega]
  · intro i hi
    rw [BitVec.getLsbD_shiftLeft]; simp [hi]

theorem w_high (b : Byte) (i : ℕ) (h : 8 ≤ i) : (w b).getLsbD i = false := by
  unfold w; rw [BitVec.getLsbD_setWidth, BitVec.getLsbD_of_ge b i h]; simp

theorem shl_high (b : Byte) (k i : ℕ) (h : 8 + k ≤ i) : (w b <<< k).getLsbD i = false := by
  rw [BitVec.getLsbD_shiftLeft]
  by_cases h' : i < 32
  · rw [w_high b (i - k) (by omega)]; simp
  · simp [h']

theorem T_w8 (b : Byte) : T (w b <<< 8) = w b := T_shl _ (fun i hi => w_high b i (by omega))

theorem T_w16 (b : Byte) : T (w b <<< 16) = w b <<< 8 := by
  rw [show (16 : ℕ) = 8 + 8 from rfl, BitVec.shiftLeft_add]
  exact T_shl _ (fun i hi => shl_high b 8 i (by omega))

theorem T_w24 (b : Byte) : T (w b <<< 24) = w b <<< 16 := by
  rw [show (24 : ℕ) = 16 + 8 from rfl, BitVec.shiftLeft_add]
  exact T_shl _ (fun i hi => shl_high b 16 i (by omega))

/-- the word with the given four bytes, least significant first -/
def word (b0 b1 b2 b3 : Byte) : BitVec 32 := w b0 ^^^ w b1 <<< 8 ^^^ w b2 <<< 16 ^^^ w b3 <<< 24

theorem word_or (b0 b1 b2 b3 : Byte) : w b0 ||| w b1 <<< 8 ||| w b2 <<< 16 ||| w b3 <<< 24 = word b0 b1 b2 b3 := by
  unfold word w
  apply BitVec.eq_of_getLsbD_eq
  intro i hi
  simp only [BitVec.getLsbD_or, BitVec.getLsbD_xor, BitVec.getLsbD_shiftLeft, BitVec.getLsbD_setWidth]
  interval_cases i <;> simp

/-- four message bytes at once -/
theorem four_bytes (r : BitVec 32) (b0 b1 b2 b3 : Byte) :
    stepByte (stepByte (stepByte (stepByte r b0) b1) b2) b3 = T^[4] (r ^^^ word b0 b1 b2 b3) := by
  simp only [stepByte_eq, Function.iterate_succ, Function.comp, Function.iterate_zero, id, word, T_xor, T_w8, T_w16,
    T_w24, BitVec.xor_assoc]

/-- the bytes of a word -/
def byte (k : ℕ) (x : BitVec 32) : Byte := (x >>> (8 * k)).setWidth 8

theorem word_bytes (x : BitVec 32) : word (byte 0 x) (byte 1 x) (byte 2 x) (byte 3 x) = x := by
  unfold word w byte
  apply BitVec.eq_of_getLsbD_eq
  intro i hi
  simp only [BitVec.getLsbD_xor, BitVec.getLsbD_shiftLeft, BitVec.getLsbD_setWidth, BitVec.getLsbD_ushiftRight]
  interval_cases i <;> simp

theorem T4_word (b0 b1 b2 b3 : Byte) :
    T^[4] (word b0 b1 b2 b3) = T^[4] (w b0) ^^^ T^[3] (w b1) ^^^ T^[2] (w b2) ^^^ T^[1] (w b3) := by
  simp only [Function.iterate_succ, Function.comp, Function.iterate_zero, id, word, T_xor, T_w8, T_w16, T_w24]

theorem T8_word (b0 b1 b2 b3 : Byte) :
    T^[8] (word b0 b1 b2 b3) = T^[8] (w b0) ^^^ T^[7] (w b1) ^^^ T^[6] (w b2) ^^^ T^[5] (w b3) := by
  simp only [Function.iterate_succ, Function.comp, Function.iterate_zero, id, word, T_xor, T_w8, T_w16, T_w24]

/-! ## the tables -/

/-- the table of a function of a byte -/
def tabulate (f : BitVec 32 → BitVec 32) : Table := (List.range 256).map fun i => f (BitVec.ofNat 32 i)

theorem crc32Table_eq : crc32Table = tabulate T := by decide +kernel
theorem o32_eq : o32 = tabulate (T^[1]) := by decide +kernel
theorem o40_eq : o40 = tabulate (T^[2]) := by decide +kernel
theorem o48_eq : o48 = tabulate (T^[3]) := by decide +kernel
theorem o56_eq : o56 = tabulate (T^[4]) := by decide +kernel
theorem o64_eq : o64 = tabulate (T^[5]) := by decide +kernel
theorem o72_eq : o72 = tabulate (T^[6]) := by decide +kernel
theorem o80_eq : o80 = tabulate (T^[7]) := by decide +kernel
theorem o88_eq : o88 = tabulate (T^[8]) := by decide +kernel

theorem lookup_tabulate (f : BitVec 32 → BitVec 32) (b : Byte) : lookup (tabulate f) (w b) = .ok (f (w b)) := by
  have h : (w b).toNat = b.toNat := by
    unfold w; rw [BitVec.toNat_setWidth, Nat.mod_eq_of_lt]; have := b.isLt; omega
  have hb := b.isLt
  unfold lookup tabulate
  rw [h]
  have : ((List.range 256).map fun i => f (BitVec.ofNat 32 i))[b.toNat]? = some (f (w b)) := by
    rw [List.getElem?_map, List.getElem?_range (by omega)]
    simp only [Option.map_some]
    congr 2
    apply BitVec.eq_of_toNat_eq
    rw [h, BitVec.toNat_ofNat, Nat.mod_eq_of_lt]; omega
  rw [this]

theorem and_ff (x : BitVec 32) : x &&& 0xff#32 = w (byte 0 x) := by
  apply BitVec.eq_of_getLsbD_eq
  intro i hi
  rw [← lo, lo_bit x i hi, w_bit _ i hi]
  unfold byte
  rw [BitVec.getLsbD_setWidth]
  by_cases h : i < 8 <;> simp [h]

theorem byte_shift (k j : ℕ) (x : BitVec 32) : byte k (x >>> (8 * j)) = byte (k + j) x := by
  unfold byte
  rw [← BitVec.shiftRight_add]; congr 2; ring

theorem lookup_T (t : Table) (f : BitVec 32 → BitVec 32) (h : t = tabulate f) (x : BitVec 32) :
    lookup t (x &&& 0xff#32) = .ok (f (w (byte 0 x))) := by
  rw [h, and_ff, lookup_tabulate]

/-! ## the loops -/

theorem byteLoop_spec (t : Table) (h : t = tabulate T) (n : ℕ) (r : BitVec 32) (buf : List Byte)
    (hn : n ≤ buf.length) : byteLoop t n r buf = .ok (crc r (buf.take n), buf.drop n) := by
  induction n generalizing r buf with
  | zero => simp [byteLoop, crc]
  | succ n ih =>
    cases buf with
    | nil => simp at hn
    | cons b buf =>
      simp only [byteLoop, lookup_T t T h, R.ok_bind]
      rw [ih _ _ (by simpa using hn)]
      have : T (w (byte 0 (r ^^^ w b))) ^^^ r >>> 8 = stepByte r b := by
        rw [stepByte_eq, T_lo (r ^^^ w b), lo, and_ff, BitVec.ushiftRight_xor_distrib, w_shift8, BitVec.xor_zero]
      rw [this]
      simp [crc]

theorem crc_append (r : BitVec 32) (a b : List Byte) : crc r (a ++ b) = crc (crc r a) b := by
  simp [crc, List.foldl_append]

theorem byte1 (x : BitVec 32) : byte 0 (x >>> 8) = byte 1 x := byte_shift 0 1 x
theorem byte2 (x : BitVec 32) : byte 0 (x >>> 16) = byte 2 x := byte_shift 0 2 x
theorem byte3 (x : BitVec 32) : byte 1 (x >>> 16) = byte 3 x := byte_shift 1 2 x

theorem byte_word0 (b0 b1 b2 b3 : Byte) : byte 0 (word b0 b1 b2 b3) = b0 := by
  unfold byte word w
  apply BitVec.eq_of_getLsbD_eq
  intro i hi
  simp only [BitVec.getLsbD_xor, BitVec.getLsbD_shiftLeft, BitVec.getLsbD_setWidth, BitVec.getLsbD_ushiftRight]
  interval_cases i <;> simp
theorem byte_word1 (b0 b1 b2 b3 : Byte) : byte 1 (word b0 b1 b2 b3) = b1 := by
  unfold byte word w
  apply BitVec.eq_of_getLsbD_eq
  intro i hi
  simp only [BitVec.getLsbD_xor, BitVec.getLsbD_shiftLeft, BitVec.getLsbD_setWidth, BitVec.getLsbD_ushiftRight]
  interval_cases i <;> simp
theorem byte_word2 (b0 b1 b2 b3 : Byte) : byte 2 (word b0 b1 b2 b3) = b2 := by
  unfold byte word w
  apply BitVec.eq_of_getLsbD_eq
  intro i hi
  simp only [BitVec.getLsbD_xor, BitVec.getLsbD_shiftLeft, BitVec.getLsbD_setWidth, BitVec.getLsbD_ushiftRight]
  interval_cases i <;> simp
theorem byte_word3 (b0 b1 b2 b3 : Byte) : byte 3 (word b0 b1 b2 b3) = b3 := by
  unfold byte word w
  apply BitVec.eq_of_getLsbD_eq
  intro i hi
  simp only [BitVec.getLsbD_xor, BitVec.getLsbD_shiftLeft, BitVec.getLsbD_setWidth, BitVec.getLsbD_ushiftRight]
  interval_cases i <;> simp

/-- the eight-byte step on words -/
theorem eight_bytes (r : BitVec 32) (b0 b1 b2 b3 c0 c1 c2 c3 : Byte) :
    crc r [b0, b1, b2, b3, c0, c1, c2, c3] =
      (T^[8] (w (byte 0 (r ^^^ word b0 b1 b2 b3))) ^^^ T^[7] (w (byte 1 (r ^^^ word b0 b1 b2 b3))) ^^^
        T^[6] (w (byte 2 (r ^^^ word b0 b1 b2 b3))) ^^^ T^[5] (w (byte 3 (r ^^^ word b0 b1 b2 b3)))) ^^^
      (T^[4] (w c0) ^^^ T^[3] (w c1) ^^^ T^[2] (w c2) ^^^ T^[1] (w c3)) := by
  have h : crc r [b0, b1, b2, b3, c0, c1, c2, c3] =
      stepByte (stepByte (stepByte (stepByte (stepByte (stepByte (stepByte (stepByte r b0) b1) b2) b3) c0) c1) c2) c3 := rfl
  rw [h, four_bytes, four_bytes, ← T8_word, word_bytes, ← T4_word, T_iter_xor 4, ← Function.iterate_add_apply]

theorem step8LE_spec (addr : ℕ) (ha : addr % 4 = 0) (r : BitVec 32) (buf : List Byte) (h : 8 ≤ buf.length) :
    step8LE addr r buf = .ok (crc r (buf.take 8), buf.drop 8) := by
  match buf, h with
  | b0 :: b1 :: b2 :: b3 :: c0 :: c1 :: c2 :: c3 :: buf, _ =>
    have ha' : (addr + 4) % 4 = 0 := by omega
    simp only [step8LE, load32, ha, ha', if_true, R.ok_bind, word_or, List.drop_succ_cons, List.drop_zero,
      lookup_T _ _ o88_eq, lookup_T _ _ o80_eq, lookup_T _ _ o72_eq, lookup_T _ _ o64_eq, lookup_T _ _ o56_eq,
      lookup_T _ _ o48_eq, lookup_T _ _ o40_eq, lookup_T _ _ o32_eq, byte1, byte2, byte3, byte_word0, byte_word1,
      byte_word2, byte_word3, List.take_succ_cons, List.take_zero]
    rw [eight_bytes]
    simp only [BitVec.xor_assoc]

theorem step8BE_spec (r : BitVec 32) (buf : List Byte) (h : 8 ≤ buf.length) :
    step8BE r buf = .ok (crc r (buf.take 8), buf.drop 8) := by
  match buf, h with
  | b0 :: b1 :: b2 :: b3 :: c0 :: c1 :: c2 :: c3 :: buf, _ =>
    have hw : r ^^^ w b0 ^^^ w b1 <<< 8 ^^^ w b2 <<< 16 ^^^ w b3 <<< 24 = r ^^^ word b0 b1 b2 b3 := by
      simp only [word, BitVec.xor_assoc]
    simp only [step8BE, next, R.ok_bind, hw, List.drop_succ_cons, List.drop_zero,
      lookup_T _ _ o88_eq, lookup_T _ _ o80_eq, lookup_T _ _ o72_eq, lookup_T _ _ o64_eq, byte1, byte2, byte3,
      List.take_succ_cons, List.take_zero]
    simp only [o56_eq, o48_eq, o40_eq, o32_eq, lookup_tabulate, R.ok_bind]
    rw [eight_bytes]
    simp only [BitVec.xor_assoc]

theorem mainLoop_spec (be : Bool) (n addr : ℕ) (ha : addr % 4 = 0) (r : BitVec 32) (buf : List Byte)
    (h : 8 * n ≤ buf.length) : mainLoop be n addr r buf = .ok (crc r (buf.take (8 * n)), buf.drop (8 * n)) := by
  induction n generalizing r buf addr with
  | zero => simp [mainLoop, crc]
  | succ n ih =>
    have h8 : 8 ≤ buf.length := by omega
    have hs : (if be then step8BE r buf else step8LE addr r buf) = .ok (crc r (buf.take 8), buf.drop 8) := by
      cases be
      · exact step8LE_spec addr ha r buf h8
      · exact step8BE_spec r buf h8
    have hm : mainLoop be (n + 1) addr r buf =
        (if be then step8BE r buf else step8LE addr r buf) >>= fun p => mainLoop be n (addr + 8) p.1 p.2 := by
      simp only [mainLoop]; cases be <;> rfl
    rw [hm, hs, R.ok_bind]
    rw [ih (addr + 8) (by omega) _ _ (by simp; omega), ← crc_append, List.drop_drop]
    have : buf.take (8 * (n + 1)) = buf.take 8 ++ (buf.drop 8).take (8 * n) := by
      rw [show 8 * (n + 1) = 8 + 8 * n by ring, List.take_add]
    rw [this, show 8 + 8 * n = 8 * (n + 1) by ring]

theorem sub32_eq (a b : ℕ) (h : b ≤ a) (ha : a < 2 ^ 32) : sub32 a b = a - b := by
  unfold sub32
  rw [show a + (2 ^ 32 - b) = (a - b) + 2 ^ 32 by omega, Nat.add_mod_right, Nat.mod_eq_of_lt (by omega)]

theorem sub64_eq (a b : ℕ) (h : b ≤ a) (ha : a < 2 ^ 64) : sub64 a b = a - b := by
  unfold sub64
  rw [show a + (2 ^ 64 - b) = (a - b) + 2 ^ 64 by omega, Nat.add_mod_right, Nat.mod_eq_of_lt (by omega)]

theorem o32_T : o32 = tabulate T := o32_eq

theorem sb8_spec (be : Bool) (addr : ℕ) (r : BitVec 32) (buf : List Byte) (len init : ℕ) (hi : init ≤ len)
    (hl : len < 2 ^ 32) (hb : len ≤ buf.length) (ha : (addr + init) % 4 = 0) :
    sb8 be addr r buf len init = .ok (crc r (buf.take len)) := by
  unfold sb8
  rw [sub32_eq len init hi hl]
  obtain ⟨q, e, he, hq⟩ : ∃ q e, e < 8 ∧ len = init + 8 * q + e :=
    ⟨(len - init) / 8, (len - init) % 8, Nat.mod_lt _ (by omega), by omega⟩
  have h1 : (len - init) / 8 * 8 = 8 * q := by omega
  have h3 : 8 * q / 8 = q := by omega
  simp only [h1, h3, sub32_eq (len - init) (8 * q) (by omega) (by omega)]
  rw [byteLoop_spec o32 o32_T init r buf (by omega)]
  simp only [R.ok_bind]
  rw [mainLoop_spec be q _ ha _ _ (by simp; omega)]
  simp only [R.ok_bind]
  rw [byteLoop_spec o32 o32_T _ _ _ (by simp; omega)]
  simp only [R.ok_bind, ← crc_append]
  have : buf.take len = buf.take init ++ ((buf.drop init).take (8 * q) ++
      ((buf.drop init).drop (8 * q)).take (len - init - 8 * q)) := by
    rw [← List.take_add, ← List.take_add]
    congr 1; omega
  rw [this]; simp only [List.append_assoc]

theorem calculate_spec (be : Bool) (addr : ℕ) (r : BitVec 32) (buf : List Byte) (len : ℕ)
    (hb : len % 2 ^ 32 ≤ buf.length) :
    calculate be addr r buf len = .ok (crc r (buf.take (len % 2 ^ 32))) := by
  have hl : len % 2 ^ 32 < 2 ^ 32 := Nat.mod_lt _ (by positivity)
  simp only [calculate]
  generalize len % 2 ^ 32 = n at *
  split
  · unfold singletable
    rw [byteLoop_spec crc32Table crc32Table_eq n r buf hb]; rfl
  · unfold multitable
    rw [if_neg (by omega), sb8_spec be addr r buf n _ (by omega) hl hb (by omega)]

end Crc
end Verif
