import Mathlib.Data.Set.Card
import Mathlib.SetTheory.Cardinal.Finite
import Mathlib.Data.Int.Interval
import Verif.Props.Dme
import Verif.Props.Elgamal

/-!
# C83: how many messages can be encoded
-/

namespace Verif
namespace Dme

open EC

/-- the field elements that are abscissas -/
def abscissae : Set (ZMod CC.fp) := {x | ∃ y, On CC x y}

theorem card_le_abscissae : CC.fn ≤ 2 * abscissae.ncard + 1 := by
  let f : Grp CC → Option (abscissae × Bool) := fun A =>
    match A with
    | .zero => none
    | .some x y h => some (⟨x, y, on_of_nonsingular h⟩, decide (2 * y.val < CC.fp))
  have hf : Function.Injective f := by
    intro A B h
    apply compress_injective
    rcases A with _ | ⟨x, y, hA⟩ <;> rcases B with _ | ⟨x', y', hB⟩
    · rfl
    · simp [f] at h
    · simp [f] at h
    · simp only [f, Option.some.injEq, Prod.mk.injEq, Subtype.mk.injEq] at h
      have h1 : x = x' := congrArg Subtype.val h.1
      simp only [compress, h1, h.2]
  have h := Nat.card_le_card_of_injective f hf
  rw [GoodCurve.card_eq, Finite.card_option, Nat.card_prod, Nat.card_coe_set_eq] at h
  simp at h
  omega

theorem isAbscissa_val (x : ZMod CC.fp) : IsAbscissa (x.val : ℤ) ↔ x ∈ abscissae := by
  rw [isAbscissa_iff, root_sq_iff]
  simp [abscissae]

/-- the messages whose whole window of `w` values lies below the prime and contains an abscissa -/
def windows (w : ℕ) : Set ℤ := {m | 0 ≤ m ∧ (m + 1) * w ≤ CC.prime ∧ ∃ i : ℕ, i < w ∧ IsAbscissa (m * w + i)}

theorem windows_finite {w : ℕ} (hw : 0 < w) : (windows w).Finite := by
  refine (Set.finite_Ico 0 CC.prime).subset fun m hm => ⟨hm.1, ?_⟩
  have h := hm.2.1
  have : (1 : ℤ) ≤ w := by exact_mod_cast hw
  nlinarith [hm.1]

theorem abscissae_le {w : ℕ} (hw : 0 < w) : abscissae.ncard ≤ w * (windows w).ncard + CC.fp % w := by
  have hp : CC.prime = (CC.fp : ℤ) := GoodCurve0.prime_eq
  have := (windows_finite hw).to_subtype
  have key : ∀ x : abscissae, (x.1.val / w + 1) * w ≤ CC.fp → ((x.1.val / w : ℕ) : ℤ) ∈ windows w := by
    intro x h
    refine ⟨Int.natCast_nonneg _, by rw [hp]; exact_mod_cast h, x.1.val % w, Nat.mod_lt _ hw, ?_⟩
    have e : ((x.1.val / w : ℕ) : ℤ) * w + ((x.1.val % w : ℕ) : ℤ) = (x.1.val : ℤ) := by
      rw [mul_comm]
      exact_mod_cast Nat.div_add_mod x.1.val w
    rw [e, isAbscissa_val]
    exact x.2
  have key2 : ∀ x : abscissae, ¬ (x.1.val / w + 1) * w ≤ CC.fp → x.1.val % w < CC.fp % w ∧ x.1.val / w = CC.fp / w := by
    intro x h
    have h1 := ZMod.val_lt x.1
    have h2 : x.1.val / w ≤ CC.fp / w := Nat.div_le_div_right h1.le
    have h3 : CC.fp / w < x.1.val / w + 1 := by
      rw [Nat.div_lt_iff_lt_mul hw]
      omega
    have h4 : x.1.val / w = CC.fp / w := by omega
    have h5 := Nat.div_add_mod x.1.val w
    have h6 := Nat.div_add_mod CC.fp w
    rw [h4] at h5
    exact ⟨by omega, h4⟩
  let f : abscissae → (Fin w × windows w) ⊕ Fin (CC.fp % w) := fun x =>
    if h : (x.1.val / w + 1) * w ≤ CC.fp then .inl (⟨x.1.val % w, Nat.mod_lt _ hw⟩, ⟨_, key x h⟩)
    else .inr ⟨x.1.val % w, (key2 x h).1⟩
  have hf : Function.Injective f := by
    intro x y h
    apply Subtype.ext
    apply ZMod.val_injective
    have e1 := Nat.div_add_mod x.1.val w
    have e2 := Nat.div_add_mod y.1.val w
    by_cases hx : (x.1.val / w + 1) * w ≤ CC.fp <;> by_cases hy : (y.1.val / w + 1) * w ≤ CC.fp
    · simp only [f, dif_pos hx, dif_pos hy, Sum.inl.injEq, Prod.mk.injEq, Fin.mk.injEq, Subtype.mk.injEq, Nat.cast_inj] at h
      rw [← e1, ← e2, h.1, h.2]
    · simp only [f, dif_pos hx, dif_neg hy, reduceCtorEq] at h
    · simp only [f, dif_neg hx, dif_pos hy, reduceCtorEq] at h
    · simp only [f, dif_neg hx, dif_neg hy, Sum.inr.injEq, Fin.mk.injEq] at h
      rw [← e1, ← e2, h, (key2 x hx).2, (key2 y hy).2]
  have h := Nat.card_le_card_of_injective f hf
  rw [Nat.card_sum, Nat.card_prod, Nat.card_coe_set_eq, Nat.card_coe_set_eq] at h
  simpa using h

/-- at least 49.9999 % of the windows contain an abscissa -/
theorem windows_half {w : ℕ} (hw : 0 < w) (hw' : w ≤ 2 ^ 20) : 999999 * (CC.fp / w) ≤ 2000000 * (windows w).ncard := by
  have h1 := card_le_abscissae
  have h2 := abscissae_le hw
  have h3 := Nat.mod_lt CC.fp hw
  have h4 : CC.fp + 1 ≤ CC.fn + 2 ^ 200 := by decide
  have h5 : 2 ^ 250 ≤ CC.fp := by decide
  have h6 := Nat.div_add_mod CC.fp w
  generalize (windows w).ncard = E at *
  generalize CC.fp / w = q at *
  generalize CC.fp % w = r at *
  have h7 : w * q ≤ 2 * (w * E) + 2 * 2 ^ 20 + 2 ^ 200 := by omega
  have h8 : 2 ^ 229 ≤ q := by
    by_contra h
    have : w * q ≤ 2 ^ 20 * 2 ^ 229 := Nat.mul_le_mul hw' (by omega)
    omega
  by_contra h
  have h9 : 2000000 * E + 1 ≤ 999999 * q := by omega
  have h10 : w * (2000000 * E + 1) ≤ w * (999999 * q) := Nat.mul_le_mul_left _ h9
  have h11 : w * q ≥ 2 ^ 229 := le_trans h8 (Nat.le_mul_of_pos_left _ hw)
  have e1 : w * (2000000 * E + 1) = 2000000 * (w * E) + w := by ring
  have e2 : w * (999999 * q) = 999999 * (w * q) := by ring
  rw [e1, e2] at h10
  omega

/-- C83: of the integers `m ≥ 0` with `(m + 1) * 1024 ≤ p`, at least 49.9999 % are returned by `decode(encode(m))`. -/
theorem C83_dme (env : Env) {d : Inst} (hl : Live env d.curve) :
    999999 * {m : ℤ | 0 ≤ m ∧ (m + 1) * 1024 ≤ CC.prime}.ncard ≤
      2000000 * {m : ℤ | (0 ≤ m ∧ (m + 1) * 1024 ≤ CC.prime) ∧ Ends (encode env d m) fun P => decode P = m}.ncard := by
  have hp : CC.prime = (CC.fp : ℤ) := GoodCurve0.prime_eq
  have e1 : {m : ℤ | (0 ≤ m ∧ (m + 1) * 1024 ≤ CC.prime) ∧ Ends (encode env d m) fun P => decode P = m} =
      windows 1024 := by
    ext m
    simp only [windows, Set.mem_setOf_eq]
    rw [and_assoc]
    refine and_congr_right fun h0 => and_congr_right fun h1 => ?_
    obtain ⟨P, h2, h3⟩ := C30_round_trip_partial env hl h0 h1
    refine Iff.trans ?_ h3
    constructor
    · rintro ⟨P', h4, h5⟩
      rw [h2] at h4
      obtain rfl := Except.ok.inj h4
      exact h5
    · exact fun h => ⟨P, h2, h⟩
  have e2 : {m : ℤ | 0 ≤ m ∧ (m + 1) * 1024 ≤ CC.prime}.ncard = CC.fp / 1024 := by
    have : {m : ℤ | 0 ≤ m ∧ (m + 1) * 1024 ≤ CC.prime} = (fun n : ℕ => (n : ℤ)) '' Set.Iio (CC.fp / 1024) := by
      ext m
      simp only [Set.mem_setOf_eq, Set.mem_image, Set.mem_Iio, hp]
      constructor
      · rintro ⟨h0, h1⟩
        exact ⟨m.toNat, by omega, by omega⟩
      · rintro ⟨n, h, rfl⟩
        omega
    rw [this, Set.ncard_image_of_injective _ Nat.cast_injective, Set.ncard_eq_toFinset_card']
    simp
  rw [e1, e2]
  exact windows_half (by norm_num) (by norm_num)

/-- the instance of the sample has a live curve object -/
example : Live env0 (some 0) := env0_live

end Dme

namespace ElGamal

open EC
open Dme (IsAbscissa F)

theorem round_trip_iff {env : Env} {c : Option Addr} (hl : Live env c) {m : ℤ} (h0 : 0 ≤ m)
    (hm : (m + 1) * 2 ^ 20 ≤ CC.prime) :
    (Ends (encode env c m) fun P => decode P = m) ↔ ∃ i : ℕ, i < 2 ^ 20 ∧ IsAbscissa (m * 2 ^ 20 + i) := by
  obtain ⟨k, P, h1, h2, h3, h4, h5, h6, h7⟩ := encode_ok hl m
  have hp : CC.prime = (CC.fp : ℤ) := by decide
  rw [hp] at hm
  have e : (Ends (encode env c m) fun P => decode P = m) ↔ ((m * 2 ^ 20 + k) % (CC.fp : ℤ)) / 2 ^ 20 = m := by
    constructor
    · rintro ⟨P', h8, h9⟩
      rw [h4] at h8
      obtain rfl := Except.ok.inj h8
      rw [decode, h6] at h9
      exact h9
    · intro h
      exact ⟨P, h4, by change decode P = m; rw [decode, h6]; exact h⟩
  rw [e]
  have h1' : (k : ℤ) < (CC.fp : ℤ) := by exact_mod_cast h1
  clear hp h1
  generalize (CC.fp : ℤ) = p at *
  constructor
  · intro hd
    refine ⟨k, ?_, h2⟩
    by_contra hk
    by_cases hw : m * 2 ^ 20 + k < p
    · rw [Int.emod_eq_of_lt (by omega) hw] at hd
      omega
    · have : (m * 2 ^ 20 + k) % p = m * 2 ^ 20 + k - p := by
        rw [← Int.sub_emod_right, Int.emod_eq_of_lt (by omega) (by omega)]
      rw [this] at hd
      omega
  · rintro ⟨i, hi, ha⟩
    have hk : k ≤ i := by
      by_contra h
      exact h3 i (by omega) ha
    rw [Int.emod_eq_of_lt (by omega) (by omega)]
    omega

/-- C83: of the integers `m ≥ 0` with `(m + 1) * 2^20 ≤ p`, at least 49.9999 % are returned by `decode(encode(m))`. -/
theorem C83_elgamal (env : Env) {c : Option Addr} (hl : Live env c) :
    999999 * {m : ℤ | 0 ≤ m ∧ (m + 1) * 2 ^ 20 ≤ CC.prime}.ncard ≤
      2000000 * {m : ℤ | (0 ≤ m ∧ (m + 1) * 2 ^ 20 ≤ CC.prime) ∧ Ends (encode env c m) fun P => decode P = m}.ncard := by
  have hp : CC.prime = (CC.fp : ℤ) := GoodCurve0.prime_eq
  have e1 : {m : ℤ | (0 ≤ m ∧ (m + 1) * 2 ^ 20 ≤ CC.prime) ∧ Ends (encode env c m) fun P => decode P = m} =
      Dme.windows (2 ^ 20) := by
    ext m
    simp only [Dme.windows, Set.mem_setOf_eq]
    rw [and_assoc]
    push_cast
    refine and_congr_right fun h0 => and_congr_right fun h1 => ?_
    exact round_trip_iff hl h0 h1
  have e2 : {m : ℤ | 0 ≤ m ∧ (m + 1) * 2 ^ 20 ≤ CC.prime}.ncard = CC.fp / 2 ^ 20 := by
    have : {m : ℤ | 0 ≤ m ∧ (m + 1) * 2 ^ 20 ≤ CC.prime} = (fun n : ℕ => (n : ℤ)) '' Set.Iio (CC.fp / 2 ^ 20) := by
      ext m
      simp only [Set.mem_setOf_eq, Set.mem_image, Set.mem_Iio, hp]
      constructor
      · rintro ⟨h0, h1⟩
        exact ⟨m.toNat, by omega, by omega⟩
      · rintro ⟨n, h, rfl⟩
        omega
    rw [this, Set.ncard_image_of_injective _ Nat.cast_injective, Set.ncard_eq_toFinset_card']
    simp
  rw [e1, e2]
  exact Dme.windows_half (by norm_num) (by norm_num)

/-- the hypothesis: a live curve object -/
example : Live env0 (some 0) := env0_live

end ElGamal
end Verif
