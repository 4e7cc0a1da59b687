import Verif.Props.Field
import Verif.Props.AesTotal
import Verif.Props.AesHeader
import Verif.Props.CurveCopy
import Verif.Props.EccText
import Verif.Props.ShamirMore

/-!
# Theorems of the first files on concrete data

The examples beside those theorems show what the code does on sample data; here each theorem is applied to such data, which
shows that its hypotheses can be met.
-/

namespace Verif

open BytesSpec Crc Fld

/-! ## Fields -/

/-- an object of `Field_secp256r1_n` -/
theorem elem_n (k : ℤ) (h0 : 0 ≤ k) (h1 : k < secpN) : IsElem secpN ⟨k, secpN⟩ := ⟨rfl, h0, h1⟩

theorem mod_n : IsModulus secpN := .inr (.inr (.inl rfl))

example := C01_sub env0 mod_n (elem_n 3 (by decide) (by decide)) (elem_n 5 (by decide) (by decide))
example := C01_mul env0 mod_n (elem_n (secpN - 1) (by decide) (by decide)) (elem_n 5 (by decide) (by decide))
example := C01_neg mod_n (elem_n 5 (by decide) (by decide))
example := C01_square mod_n (elem_n (secpN - 2) (by decide) (by decide))
example := C01_mulZ mod_n (elem_n 5 (by decide) (by decide)) (-7)
example := C03_invert env0 mod_n (elem_n 5 (by decide) (by decide)) (by decide)
example := C03_div env0 mod_n (elem_n 3 (by decide) (by decide)) (elem_n 5 (by decide) (by decide)) (by decide)
example := C03_zero env0 mod_n (elem_n 3 (by decide) (by decide)) (elem_n 0 le_rfl (by decide)) rfl
example := C04_programs env0 mod_n [.div 0 0, .sub 1 1, .div 0 1] (fun _ => ⟨3, secpN⟩) fun _ => elem_n 3 (by decide) (by decide)
example := C04_agrees env0 mod_n (elem_n 3 (by decide) (by decide)) (elem_n 5 (by decide) (by decide)) (-2)
example := C05_field_laws env0 mod_n (elem_n 3 (by decide) (by decide)) (elem_n 5 (by decide) (by decide))
  (elem_n 7 (by decide) (by decide)) (-2)
example := C07_different env0 rfl secpN (mk' secpN 3) (mk' secpN 5) 7 11 (by decide)
example := C07_same env0 mod_n (a := mk' secpN 3) (b := mk' secpN 5) 7 (by decide)
example := C07_same_sub_mul env0 mod_n (a := mk' secpN 3) (b := mk' secpN 5) 7 (by decide)

/-! ## Points -/

/-- the generator of secp256r1 on the same curve object -/
def gSecp : Pt := Pt.ofZ secp256r1 secp256r1.gx secp256r1.gy (some 0)

theorem gSecp_finite : IsFinite env0 secp256r1 gSecp :=
  ⟨rfl, ⟨rfl, by decide +kernel, by decide +kernel⟩, ⟨rfl, by decide +kernel, by decide +kernel⟩,
    by unfold CurveEq; decide +kernel, env0_live⟩

example := C08_isValid env0 (.inr rfl) 3 4 env0_live
example := C08_isValid_object env0 (.inl rfl) gBn_finite.x gBn_finite.y env0_live
example := C09_add env0 (.inl rfl) gBn_valid (infty_valid env0 bn254)
example := C09_smul env0 (.inr rfl) (.inr gSecp_finite) (-5) (elem_n 5 (by decide) (by decide))
example := C10_assoc env0 (.inl rfl) gBn_valid gBn_valid (infty_valid env0 bn254)
example := C10_comm env0 (.inr rfl) (.inr gSecp_finite) (infty_valid env0 secp256r1)
example := C10_neutral env0 (.inr rfl) (.inr gSecp_finite)
example := C10_inverse env0 (.inr rfl) (.inr gSecp_finite)
example := C11_repeated_addition env0 (.inr rfl) (.inr gSecp_finite) 1000
example := C11_negative env0 (.inl rfl) gBn_valid (-7)
example := C11_add_scalar env0 (.inl rfl) gBn_valid (2 ^ 300) (-7)
example := C11_mul_scalar env0 (.inl rfl) gBn_valid (2 ^ 300) (-7)
example := C11_add_point env0 (.inr rfl) (.inr gSecp_finite) (.inr gSecp_finite) 9
example := C12_order env0 (.inr rfl) (.inr gSecp_finite)
example := C13_bijection env0 (.inr rfl) env0_liveGen
example := C14_sub_partial env0 (.inr rfl) gSecp_finite gSecp_finite
example := C14_debug_counterexample env0 rfl bn254 gBn
example := C14_minus_infinity_counterexample { env0 with ndebug := true } rfl (.inl rfl)
  ⟨gBn_finite.1, gBn_finite.2, gBn_finite.3, gBn_finite.4, gBn_finite.5⟩ (I := Pt.infty bn254) ⟨rfl, rfl, rfl⟩
example := C15_double_partial env0 (.inr rfl) gSecp_finite
example := C16_eq env0 (.inl rfl) gBn_valid (infty_valid env0 bn254)
example := C17_py2 env0 (.inr rfl) env0_live gSecp_finite.x
example := C18_roundtrip env0 (.inr rfl) gSecp_finite (T := gSecp) env0_live
example := C18_injective env0 (.inl rfl) gBn_finite gBn_finite rfl
example := C19_digits bn254 none (base := 16) le_rfl (xs := [15, 0, 10]) (ys := [7]) (by simp) (by simp) (by decide) (by decide)
example := C87_exact env0 (.inr rfl) env0_live (k := 77) (by decide) (by decide)
example := C87_copy_partial env0 secp256r1 (a := 0) (b := 1) rfl (by decide)
example := C87_dangling_counterexample env0 (.inr rfl) (a := 0) (b := 1) rfl (by decide) (k := 77) (by decide) (by decide)

/-! ## Checksums and encryption -/

example := C46_concat true false true 3 5 8 7#32 [1#8, 2#8] [3#8] (by decide)
example := C46_linear true false true 3 5 8 7#32 9#32 [1#8, 2#8] [3#8, 4#8] rfl (by decide)
example := C46_leading_zeros true false 3 5 4 [3#8, 4#8] (by decide)
example := C43_round_trip_partial pfSlack pfStrict 0x4142 (by decide) (by decide +kernel) (by decide +kernel)
example := C43_exact pfSlack pfStrict 0x4142 (by decide) (by decide +kernel)
example := C44_validate_remove_partial pfStrict (2 ^ 100) (by decide +kernel)
/-- an odd number of flipped bits in a checksummed integer -/
example := C58_odd_flips pfStrict pfStrict 4353911794 (4353911794 ^^^ 1) (by decide +kernel) (by decide +kernel) rfl
  (by decide +kernel)
theorem exists_byteLen {n : ℕ} (h : 0 < n) : ∃ a : ℕ, byteLen a = n := by
  refine ⟨2 ^ (8 * n - 1), ?_⟩
  unfold byteLen
  rw [Int.natAbs_natCast, Nat.size_pow]
  omega

/-- there are integers of `2 ^ 32` bytes -/
example : ∃ a : ℕ, validateCRC pfStrict (a * 2 ^ 32 : ℕ) = .ok true :=
  (exists_byteLen (show 0 < 2 ^ 32 by decide)).imp fun a h => C45_uncovered pfStrict a h

theorem tiv_readable : IvReadable tiv := by unfold IvReadable; decide

theorem bytes_AB : IsBytes 0x4142 [0x41#8, 0x42#8] := ⟨by decide, by decide⟩

theorem tkey_abs : IsBytes |tkey| tkb := by rw [abs_of_nonneg (by decide +kernel)]; exact tkey_bytes

example := C48_exact_partial tE tiv tkey 0x4142 tkb _ _ tkey_bytes (by decide) bytes_AB (by decide) tiv_readable
example := C48_zero_partial tE tiv tkey tkb tkey_bytes (by decide) tiv_readable
example := C48_encrypt_exact tE tiv tkey 0x4142 49475 tkb _ tkey_abs bytes_AB (by decide)
example := C48_decrypt_exact tE tiv tkey 0x4142 49475 tkb _ tkey_abs bytes_AB (by decide)
example := C60_encrypt_partial tE tiv 0x4142 tkey (by decide +kernel)
example := C60_decrypt_partial tE tiv 0x4142 tkey (by decide +kernel)
example := C72_encrypt_partial pfSlack tE tiv tkey 0x4142 tkb _ tkey_bytes (by decide) bytes_AB (by decide) (by decide) tiv_readable
  (by decide)
example := C72_encrypt_exact pfSlack tE tiv tkey 0x4142 7 tkb _ tkey_abs bytes_AB (by decide)
example := C72_decrypt_exact pfSlack tE tiv tkey 0x4142 7 tkb _ tkey_abs bytes_AB (by decide)
example := C49_exact pfSlack pfStrict tE tiv tkey 0x4142 tkb _ tkey_abs bytes_AB (by decide)
example := C49_checked pfStrict tE tiv tkey 212494483255625 0x4142 (by decide +kernel)

/-! ## Shares -/

example := Shamir.C20_reconstruct env0 (t := 3) (n := 5) (by decide) (by decide) (by decide) (elem_n 7 (by decide) (by decide))
  (rand := fun i => 41 + i % 10) fun i => ⟨by dsimp only; omega, by dsimp only; omega⟩
example := Shamir.C22_sum env0 (t := 3) (n := 5) (by decide) (by decide) (by decide) (elem_n 7 (by decide) (by decide))
  (elem_n 8 (by decide) (by decide)) (rand := fun _ => 41) (rand' := fun _ => 43) (fun i => by norm_num) fun i => by norm_num
example := Shamir.C22_scale env0 (t := 3) (n := 5) (by decide) (by decide) (by decide) (elem_n 7 (by decide) (by decide))
  (elem_n 8 (by decide) (by decide)) (rand := fun _ => 41) fun i => by norm_num
example := Shamir.C92_exact env0 (t := 3) (n := 5) (by decide) (by decide) (by decide) (elem_n 7 (by decide) (by decide))
  (rand := fun _ => 41) fun i => by norm_num
example := Shamir.C92_counterexample env0 (t := 3) (n := 5) (by decide) (by decide) (by decide)
  (elem_n 7 (by decide) (by decide)) (rand := fun _ => 41) fun i => by norm_num

end Verif
