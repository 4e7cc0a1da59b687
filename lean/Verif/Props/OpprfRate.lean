import Verif.Props.OpprfStream
import Mathlib.SetTheory.Cardinal.Finite
import Mathlib.Data.Fintype.Card

/-!
# C75: how many keys cannot be handed over
-/

namespace Verif
namespace Opprf

open EC Dme Ot Aes BytesSpec StreamSpec

theorem val_first (b : BitVec 8) (l : List (BitVec 8)) (h : l.length = 15) : val (b :: l) / 2 ^ 120 = b.toNat := by
  have h1 := Utils.val_lt l
  rw [h] at h1
  rw [val, h]
  norm_num at h1 ⊢
  omega

theorem key_first {m : ℕ} (h : 2 ^ 120 ≤ m) (h' : m < 2 ^ 128) :
    ∃ b mb, IsBytes (m : ℤ) (b :: mb) ∧ m / 2 ^ 120 = b.toNat := by
  obtain ⟨b, mb, h1, -⟩ := message_bytes (m := (m : ℤ)) (by exact_mod_cast lt_of_lt_of_le (by norm_num) h)
    (key_lt (by exact_mod_cast h'))
  obtain ⟨kb, h2, h3⟩ := key_bytes (k := (m : ℤ)) (by exact_mod_cast h)
  obtain rfl := (Utils.IsBytes.raw h2).symm.trans (Utils.IsBytes.raw h1)
  have h4 : byteLen (m : ℤ) ≤ 16 := by
    rw [Utils.byteLen_lt_iff]
    norm_num at h' ⊢
    exact h'
  rw [Utils.IsBytes.byteLen h1] at h4
  refine ⟨b, mb, h1, ?_⟩
  have h5 : val (b :: mb) = m := by exact_mod_cast h1.value
  rw [← h5]
  exact val_first b mb (by simp only [List.length_cons] at h3 h4; omega)

theorem shows_iff {W : World} {key : ℤ} {kb : List (BitVec 8)} (hk : IsBytes key kb) {m : ℕ} (h : 2 ^ 120 ≤ m) (h' : m < 2 ^ 128) :
    Shows W key m ↔ m / 2 ^ 120 ≠ (W.stream kb 0).toNat := by
  obtain ⟨b, mb, h1, h2⟩ := key_first h h'
  rw [h2]
  constructor
  · intro hs he
    exact hs kb b mb hk h1 (BitVec.eq_of_toNat_eq he)
  · intro hs kb' b' mb' hk' hm' he
    obtain rfl := (Utils.IsBytes.raw hk').symm.trans (Utils.IsBytes.raw hk)
    have e := (Utils.IsBytes.raw hm').symm.trans (Utils.IsBytes.raw h1)
    rw [← (List.cons.inj e).1, he] at hs
    exact hs rfl

/-- **C75**: on a machine with four spare bytes per heap block and with a readable IV, of the `255 * 2^120` keys of 16 bytes exactly
`2^120` do not open when they are sealed with a given key of 16 bytes, or none if the first byte of its keystream is zero. -/
theorem C75_count {W : World} (hiv : IvReadable W.iv) (hs : ∀ n, n + 4 ≤ W.pf.usable n) {key : ℤ} (hk : 2 ^ 120 ≤ key)
    {kb : List (BitVec 8)} (hkb : IsBytes key kb) :
    Nat.card {m : ℕ // (2 ^ 120 ≤ m ∧ m < 2 ^ 128) ∧ ¬ Opens W key m} = if W.stream kb 0 = 0#8 then 0 else 2 ^ 120 := by
  set a := (W.stream kb 0).toNat with ha
  have ha' : a < 256 := (W.stream kb 0).isLt
  have key_iff : ∀ m : ℕ, ((2 ^ 120 ≤ m ∧ m < 2 ^ 128) ∧ ¬ Opens W key m) ↔ 0 < a ∧ m ∈ Finset.Ico (a * 2 ^ 120) ((a + 1) * 2 ^ 120) := by
    intro m
    rw [Finset.mem_Ico]
    constructor
    · rintro ⟨⟨h1, h2⟩, h3⟩
      rw [C74_opens_iff hiv hs hk (by exact_mod_cast lt_of_lt_of_le (by norm_num) h1) (key_lt (by exact_mod_cast h2)),
        shows_iff hkb h1 h2, not_not] at h3
      have h4 : 1 ≤ m / 2 ^ 120 := (Nat.one_le_div_iff (by norm_num)).2 h1
      have h5 := Nat.div_add_mod m (2 ^ 120)
      have h6 := Nat.mod_lt m (show 2 ^ 120 > 0 by norm_num)
      rw [h3, ← ha] at h4 h5
      rw [mul_comm] at h5
      refine ⟨h4, ?_, ?_⟩
      · rw [← h5]; exact Nat.le_add_right _ _
      · rw [← h5, add_mul, one_mul]; exact Nat.add_lt_add_left h6 _
    · rintro ⟨h0, h1, h2⟩
      have b1 : 2 ^ 120 ≤ m := le_trans (by nlinarith) h1
      have b2 : m < 2 ^ 128 := lt_of_lt_of_le h2
        (le_trans (Nat.mul_le_mul_right _ (show a + 1 ≤ 256 by omega)) (by norm_num))
      refine ⟨⟨b1, b2⟩, ?_⟩
      rw [C74_opens_iff hiv hs hk (by exact_mod_cast lt_of_lt_of_le (by norm_num) b1) (key_lt (by exact_mod_cast b2)),
        shows_iff hkb b1 b2, not_not]
      exact Nat.div_eq_of_lt_le h1 h2
  rw [Nat.card_congr (Equiv.subtypeEquivRight key_iff)]
  by_cases h0 : W.stream kb 0 = 0#8
  · rw [if_pos h0]
    have : a = 0 := by rw [ha, h0]; rfl
    haveI : IsEmpty {m : ℕ // 0 < a ∧ m ∈ Finset.Ico (a * 2 ^ 120) ((a + 1) * 2 ^ 120)} := ⟨fun m => by have := m.2.1; omega⟩
    exact Nat.card_of_isEmpty
  · rw [if_neg h0]
    have hpos : 0 < a := by
      rw [Nat.pos_iff_ne_zero]
      intro h
      exact h0 (BitVec.eq_of_toNat_eq h)
    have e : ∀ m : ℕ, (0 < a ∧ m ∈ Finset.Ico (a * 2 ^ 120) ((a + 1) * 2 ^ 120)) ↔ m ∈ Finset.Ico (a * 2 ^ 120) ((a + 1) * 2 ^ 120) :=
      fun m => and_iff_right hpos
    rw [Nat.card_congr (Equiv.subtypeEquivRight e), Nat.card_eq_fintype_card, Fintype.card_coe, Nat.card_Ico]
    rw [add_mul, one_mul, Nat.add_sub_cancel_left]

/-- the cipher and key of the AES samples -/
def tW : World := ⟨env2, pfSlack, tE, tiv⟩

example : IvReadable tW.iv ∧ (∀ n, n + 4 ≤ tW.pf.usable n) ∧ 2 ^ 120 ≤ tkey ∧ IsBytes tkey tkb ∧ tW.stream tkb 0 ≠ 0#8 := ⟨by unfold IvReadable; decide, fun n => by simp [tW, pfSlack], by decide +kernel, tkey_bytes, by decide +kernel⟩

/-- the keys of 16 bytes -/
abbrev Key16 : Type := {m : ℕ // 2 ^ 120 ≤ m ∧ m < 2 ^ 128}

instance : Finite Key16 :=
  Finite.of_injective (fun m : Key16 => (⟨m.1, m.2.2⟩ : Fin (2 ^ 128))) fun a b h => Subtype.ext (Fin.mk.inj h)

theorem card_key16 : Nat.card Key16 = 255 * 2 ^ 120 := by
  have e : ∀ m : ℕ, (2 ^ 120 ≤ m ∧ m < 2 ^ 128) ↔ m ∈ Finset.Ico (2 ^ 120) (2 ^ 128) := fun m => Finset.mem_Ico.symm
  rw [Nat.card_congr (Equiv.subtypeEquivRight e), Nat.card_eq_fintype_card, Fintype.card_coe, Nat.card_Ico]
  norm_num

theorem card_chain {α : Type} [Finite α] (R : α → α → Prop) (c : ℕ) (h : ∀ a, Nat.card {m // R a m} = c) (n : ℕ) :
    Nat.card {K : Fin (n + 1) → α // ∀ i : Fin n, R (K i.succ) (K i.castSucc)} = Nat.card α * c ^ n := by
  induction n with
  | zero =>
    rw [pow_zero, mul_one, ← Nat.card_congr (Equiv.funUnique (Fin 1) α)]
    exact Nat.card_congr (Equiv.subtypeUnivEquiv fun K i => i.elim0)
  | succ n ih =>
    let e : {K : Fin (n + 2) → α // ∀ i : Fin (n + 1), R (K i.succ) (K i.castSucc)} ≃
        (k : {K : Fin (n + 1) → α // ∀ i : Fin n, R (K i.succ) (K i.castSucc)}) × {m // R (k.1 0) m} :=
      { toFun := fun K => ⟨⟨fun i => K.1 i.succ, fun i => K.2 i.succ⟩, ⟨K.1 0, K.2 0⟩⟩
        invFun := fun p => ⟨Fin.cons p.2.1 p.1.1, fun i => by
          refine Fin.cases ?_ (fun j => ?_) i
          · simpa using p.2.2
          · simpa [Fin.castSucc_succ] using p.1.2 j⟩
        left_inv := fun K => by
          apply Subtype.ext
          funext i
          refine Fin.cases ?_ (fun j => ?_) i <;> simp
        right_inv := fun p => by
          obtain ⟨⟨k, hk⟩, m, hm⟩ := p
          rfl }
    rw [Nat.card_congr e]
    haveI : Fintype {K : Fin (n + 1) → α // ∀ i : Fin n, R (K i.succ) (K i.castSucc)} := Fintype.ofFinite _
    rw [Nat.card_sigma]
    simp only [h, Finset.sum_const, Finset.card_univ, smul_eq_mul]
    rw [← Nat.card_eq_fintype_card, ih, pow_succ, mul_assoc]

theorem card_chain_ge {α : Type} [Finite α] (R : α → α → Prop) (c : ℕ) (h : ∀ a, c ≤ Nat.card {m // R a m}) (n : ℕ) :
    Nat.card α * c ^ n ≤ Nat.card {K : Fin (n + 1) → α // ∀ i : Fin n, R (K i.succ) (K i.castSucc)} := by
  have hsub : ∀ a, ∃ S : Set α, (∀ m ∈ S, R a m) ∧ Nat.card S = c := by
    intro a
    have h1 : c ≤ {m | R a m}.ncard := h a
    obtain ⟨S, hS, hc⟩ := Set.exists_subset_card_eq h1
    exact ⟨S, fun m hm => hS hm, hc⟩
  choose S hS hc using hsub
  rw [← card_chain (fun a m => m ∈ S a) c hc n]
  exact Nat.card_le_card_of_injective (fun K => ⟨K.1, fun i => hS _ _ (K.2 i)⟩) fun a b e => by
    apply Subtype.ext
    exact congrArg (fun z => z.1) e

theorem key16_bytes (k : Key16) : ∃ kb, IsBytes (k.1 : ℤ) kb ∧ kb.length = 16 := by
  obtain ⟨kb, h2, h3⟩ := key_bytes (k := (k.1 : ℤ)) (by exact_mod_cast k.2.1)
  refine ⟨kb, h2, ?_⟩
  have h4 : byteLen (k.1 : ℤ) ≤ 16 := by
    rw [Utils.byteLen_lt_iff]
    have := k.2.2
    norm_num at this ⊢
    exact this
  rw [Utils.IsBytes.byteLen h2] at h4
  omega

theorem card_opens {W : World} (hiv : IvReadable W.iv) (hs : ∀ n, n + 4 ≤ W.pf.usable n) (k : Key16) {kb : List (BitVec 8)}
    (hkb : IsBytes (k.1 : ℤ) kb) :
    Nat.card {m : Key16 // Opens W k.1 m.1} = if W.stream kb 0 = 0#8 then 255 * 2 ^ 120 else 254 * 2 ^ 120 := by
  have hc := C75_count hiv hs (key := (k.1 : ℤ)) (by exact_mod_cast k.2.1) hkb
  have e1 : Nat.card {m : Key16 // ¬ Opens W k.1 m.1} = if W.stream kb 0 = 0#8 then 0 else 2 ^ 120 := by
    refine Eq.trans ?_ hc
    exact Nat.card_congr (Equiv.subtypeSubtypeEquivSubtypeInter (fun m : ℕ => 2 ^ 120 ≤ m ∧ m < 2 ^ 128) fun m : ℕ => ¬ Opens W k.1 m)
  classical
  have e2 := Nat.card_congr (Equiv.sumCompl fun m : Key16 => Opens W k.1 m.1)
  rw [Nat.card_sum, e1, card_key16] at e2
  split_ifs at e2 ⊢ <;> omega

/-- **C75**: whatever the cipher, of all sequences of 16 keys of 16 bytes, each but the first sealed with the one before, at least
the fraction `(254 / 255) ^ 15` opens all the way; and it is exactly this fraction if no keystream starts with a zero byte: then more
than one evaluation in 18 stops before its end. -/
theorem C75_path {W : World} (hiv : IvReadable W.iv) (hs : ∀ n, n + 4 ≤ W.pf.usable n) :
    Nat.card (Fin 16 → Key16) * 254 ^ 15 ≤
      Nat.card {K : Fin 16 → Key16 // ∀ i : Fin 15, Opens W (K i.succ).1 (K i.castSucc).1} * 255 ^ 15 ∧
    ((∀ kb : List (BitVec 8), kb.length = 16 → W.stream kb 0 ≠ 0#8) →
      Nat.card {K : Fin 16 → Key16 // ∀ i : Fin 15, Opens W (K i.succ).1 (K i.castSucc).1} * 255 ^ 15 =
        Nat.card (Fin 16 → Key16) * 254 ^ 15) := by
  constructor
  · have h1 : ∀ k : Key16, 254 * 2 ^ 120 ≤ Nat.card {m : Key16 // Opens W k.1 m.1} := by
      intro k
      obtain ⟨kb, hkb, -⟩ := key16_bytes k
      rw [card_opens hiv hs k hkb]
      split_ifs <;> norm_num
    have h2 := card_chain_ge (fun k m : Key16 => Opens W k.1 m.1) _ h1 15
    refine le_trans (le_of_eq ?_) (Nat.mul_le_mul_right (255 ^ 15) h2)
    rw [Nat.card_fun, card_key16, Nat.card_fin]
    norm_num
  · intro hz
    have h1 : ∀ k : Key16, Nat.card {m : Key16 // Opens W k.1 m.1} = 254 * 2 ^ 120 := by
      intro k
      obtain ⟨kb, hkb, hl⟩ := key16_bytes k
      rw [card_opens hiv hs k hkb, if_neg (hz kb hl)]
    rw [card_chain (fun k m : Key16 => Opens W k.1 m.1) _ h1 15, Nat.card_fun, card_key16, Nat.card_fin]
    norm_num

/-- a cipher no keystream of which starts with a zero byte -/
example : IvReadable tiv ∧ (∀ n, n + 4 ≤ pfSlack.usable n) ∧
    ∀ kb : List (BitVec 8), kb.length = 16 → World.stream ⟨env2, pfSlack, fun k _ i => k.getD i 0#8 ||| 1#8, tiv⟩ kb 0 ≠ 0#8 := by
  refine ⟨by unfold IvReadable; decide, fun n => by simp [pfSlack], fun kb _ => ?_⟩
  unfold World.stream keystream
  intro h
  have := congrArg (fun v : BitVec 8 => v.getLsbD 0) h
  simp at this

end Opprf
end Verif
