import Mathlib.Data.Set.Card
import Mathlib.SetTheory.Cardinal.Finite
import Mathlib.Data.ZMod.Basic
import Mathlib.Data.Int.Interval
import Verif.Props.Dme
import Verif.Props.Elgamal

/-!
# C82: how many draws make a decryption fail
-/

namespace Verif
namespace Dme

open EC

theorem card_F : Nat.card F = CC.fn := by rw [Nat.card_eq_fintype_card, ZMod.card]

/-- every value of `s g + t h` is taken equally often -/
theorem ncard_fibre {g h : Grp CC} (hgh : ¬ (g = 0 ∧ h = 0)) (A : Grp CC) :
    {p : F × F | p.1 • g + p.2 • h = A}.ncard = CC.fn := by
  by_cases hh : h = 0
  · have hg : g ≠ 0 := fun h0 => hgh ⟨h0, hh⟩
    obtain ⟨a, ha⟩ := exists_smul hg A
    have : {p : F × F | p.1 • g + p.2 • h = A} = Set.range fun t : F => (a, t) := by
      ext ⟨s, t⟩
      simp only [Set.mem_setOf_eq, Set.mem_range, Prod.mk.injEq, exists_eq_right_right, hh, smul_zero, add_zero, ha]
      rw [smul_inj hg]
      exact ⟨fun h => ⟨t, h.symm, rfl⟩, fun ⟨_, h, _⟩ => h.symm⟩
    rw [this, ← Set.image_univ, Set.ncard_image_of_injective _ (fun x y h => (Prod.mk.inj h).2), Set.ncard_univ, card_F]
  · choose f hf using fun s : F => exists_smul hh (A - s • g)
    have : {p : F × F | p.1 • g + p.2 • h = A} = Set.range fun s : F => (s, f s) := by
      ext ⟨s, t⟩
      simp only [Set.mem_setOf_eq, Set.mem_range, Prod.mk.injEq, exists_eq_left]
      rw [← smul_inj hh, ← hf s]
      constructor
      · intro h; rw [← h]; abel
      · intro h; rw [← h]; abel
    rw [this, ← Set.image_univ, Set.ncard_image_of_injective _ (fun x y h => (Prod.mk.inj h).1), Set.ncard_univ, card_F]

theorem ncard_avoid {g h : Grp CC} (hgh : ¬ (g = 0 ∧ h = 0)) (B : Grp CC) :
    {p : F × F | p.1 • g + p.2 • h ≠ 0 ∧ p.1 • g + p.2 • h ≠ B}.ncard =
      if B = 0 then CC.fn ^ 2 - CC.fn else CC.fn ^ 2 - 2 * CC.fn := by
  have hcard : Nat.card (F × F) = CC.fn ^ 2 := by rw [Nat.card_prod, card_F, sq]
  have h1 := ncard_fibre hgh 0
  have h2 := ncard_fibre hgh B
  set S0 := {p : F × F | p.1 • g + p.2 • h = 0} with hS0
  set S1 := {p : F × F | p.1 • g + p.2 • h = B} with hS1
  have hset : {p : F × F | p.1 • g + p.2 • h ≠ 0 ∧ p.1 • g + p.2 • h ≠ B} = (S0 ∪ S1)ᶜ := by
    ext p; simp [hS0, hS1, not_or]
  have hadd := Set.ncard_add_ncard_compl (S0 ∪ S1)
  rw [hset]
  split_ifs with hB
  · have : S1 = S0 := by rw [hS1, hB]
    rw [this, Set.union_self, h1, hcard] at hadd
    rw [this, Set.union_self]
    omega
  · have hd : Disjoint S0 S1 := by
      rw [Set.disjoint_left]
      intro p hp hp'
      exact hB (hp'.symm.trans hp)
    have hu := Set.ncard_union_eq hd
    rw [h1, h2] at hu
    omega

/-- pairs of coins are pairs of scalars -/
theorem ncard_coins (S : Set (F × F)) :
    {p : ℤ × ℤ | Coin p.1 ∧ Coin p.2 ∧ ((p.1 : F), (p.2 : F)) ∈ S}.ncard = S.ncard := by
  have hn : CC.order = CC.fn := GoodCurve0.order_eq
  have hc : ∀ x : F, Coin (x.val : ℤ) := fun x =>
    ⟨Int.natCast_nonneg _, by rw [hn]; exact_mod_cast ZMod.val_lt x⟩
  have : {p : ℤ × ℤ | Coin p.1 ∧ Coin p.2 ∧ ((p.1 : F), (p.2 : F)) ∈ S} =
      (fun q : F × F => ((q.1.val : ℤ), (q.2.val : ℤ))) '' S := by
    ext ⟨s, t⟩
    simp only [Set.mem_setOf_eq, Set.mem_image, Prod.exists, Prod.mk.injEq]
    constructor
    · rintro ⟨h1, h2, h3⟩
      exact ⟨_, _, h3, coin_cast_inj (hc _) h1 (by simp), coin_cast_inj (hc _) h2 (by simp)⟩
    · rintro ⟨x, y, h, rfl, rfl⟩
      exact ⟨hc x, hc y, by simpa using h⟩
  rw [this, Set.ncard_image_of_injective]
  rintro ⟨x, y⟩ ⟨x', y'⟩ h
  obtain ⟨h1, h2⟩ := Prod.mk.inj h
  exact Prod.ext (ZMod.val_injective _ (by exact_mod_cast h1)) (ZMod.val_injective _ (by exact_mod_cast h2))

/-- encryption with the given coins, then decryption -/
def roundTrip (env : Env) (d' : Inst) (kp : KeyPair) (b : Branch) (m : Pt) (s t : ℤ) : R Pt := do
  let c ← enc env d' kp.pk b m s t
  dec env kp.sk c

/-- C82: let the CRS points of the branch not both be infinity and the draw of the key not be 0.  Of the `n²` pairs of
encryption coins, exactly `2n` do not give a finite message back, and exactly `n` do not give infinity back; with the
draw 0 for the key none gives the message back. -/
theorem C82_dme (env : Env) {d d' : Inst} (hl : Live env d.curve) (hl' : Live env d'.curve)
    (hc : ValidCrs env d.crs) (hc' : ValidCrs env d'.crs) (hs : SameCrs d.crs d'.crs) (b : Branch)
    (hb : match b with
      | .b0 => ¬ (d.crs.g0.inf = true ∧ d.crs.h0.inf = true)
      | .b1 => ¬ (d.crs.g1.inf = true ∧ d.crs.h1.inf = true))
    {m : Pt} (hm : Valid env CC m) {k : ℤ} (hk : Coin k) :
    Ends (keyGen env d b k) fun kp =>
      {p : ℤ × ℤ | Coin p.1 ∧ Coin p.2 ∧ EqP env CC (roundTrip env d' kp b m p.1 p.2) (.ok m)}.ncard =
        if k = 0 then 0
        else if m.inf then CC.order.toNat ^ 2 - CC.order.toNat
        else CC.order.toNat ^ 2 - 2 * CC.order.toNat := by
  obtain ⟨g, h, r⟩ := hc.rep
  obtain ⟨M, hM⟩ := valid_iff.1 hm
  obtain ⟨pg, ph, e1, r1, r2⟩ := keyGen_rep hl r b k
  refine ⟨_, e1, ?_⟩
  have hgh : ¬ (g b = 0 ∧ h b = 0) := by
    have h1 := r.g b
    have h2 := r.h b
    rw [← rep_inf h1, ← rep_inf h2]
    cases b <;> exact hb
  have key : ∀ s t : ℤ, EqP env CC (roundTrip env d' ⟨⟨pg, ph⟩, Fld.ofZ (k : F)⟩ b m s t) (.ok m) ↔
      (s : F) • g b + (t : F) • h b ≠ 0 ∧ (k : F) ≠ 0 ∧ (k : F) • ((s : F) • g b + (t : F) • h b) + M ≠ 0 := by
    intro s t
    obtain ⟨c, v, e2, ru, rv, ha, rmv⟩ := enc_rep (pk := ⟨pg, ph⟩) hl' (r.congr hs hc') r1 r2 hM b s t
    have e : (s : F) • (k : F) • g b + (t : F) • (k : F) • h b = (k : F) • ((s : F) • g b + (t : F) • h b) := by
      module
    rw [e] at rv rmv
    simp only [roundTrip, e2, R.ok_bind]
    rw [dec_iff ru rv hM ha]
    simp only [ne_eq, ← rep_inf ru, ← rep_inf rmv, Bool.not_eq_true]
  have hn : CC.order.toNat = CC.fn := by rw [GoodCurve0.order_eq]; simp
  simp only [key, hn]
  split_ifs with hk0 hmi
  · have : (k : F) = 0 := by rw [hk0, Int.cast_zero]
    simp [this]
  all_goals
    have hk' : (k : F) ≠ 0 := by rw [Ne, coin_zero_iff hk]; exact hk0
    have hset : {p : ℤ × ℤ | Coin p.1 ∧ Coin p.2 ∧ ((p.1 : F) • g b + (p.2 : F) • h b ≠ 0 ∧ (k : F) ≠ 0 ∧
        (k : F) • ((p.1 : F) • g b + (p.2 : F) • h b) + M ≠ 0)} =
        {p : ℤ × ℤ | Coin p.1 ∧ Coin p.2 ∧ ((p.1 : F), (p.2 : F)) ∈
          {q : F × F | q.1 • g b + q.2 • h b ≠ 0 ∧ q.1 • g b + q.2 • h b ≠ -((k : F)⁻¹ • M)}} := by
      ext p
      simp only [Set.mem_setOf_eq]
      refine and_congr_right fun _ => and_congr_right fun _ => and_congr_right fun _ => ?_
      generalize (p.1 : F) • g b + (p.2 : F) • h b = U
      rw [and_iff_right hk', not_iff_not]
      constructor
      · intro h0
        have h1 : (k : F)⁻¹ • ((k : F) • U + M) = 0 := by rw [h0, smul_zero]
        rw [smul_add, inv_smul_smul₀ hk'] at h1
        exact eq_neg_of_add_eq_zero_left h1
      · rintro rfl
        rw [smul_neg, smul_inv_smul₀ hk', neg_add_cancel]
    rw [hset, ncard_coins, ncard_avoid hgh]
  · have hM0 : M = 0 := (rep_inf hM).1 hmi
    rw [if_pos (by rw [hM0, smul_zero, neg_zero])]
  · have hM0 : M ≠ 0 := fun h0 => hmi ((rep_inf hM).2 h0)
    rw [if_neg]
    intro h0
    rw [neg_eq_zero, smul_eq_zero] at h0
    rcases h0 with h0 | h0
    · exact inv_ne_zero hk' h0
    · exact hM0 h0

/-- the hypotheses are met by a messy-mode instance -/
example : ∃ d m, ctorMessy tenv (some 0) ⟨5, 7, 2, 3⟩ = .ok d ∧ Live tenv d.curve ∧ ValidCrs tenv d.crs ∧
    ¬ (d.crs.g1.inf = true ∧ d.crs.h1.inf = true) ∧ Valid tenv CC m ∧ m.inf = false ∧ Coin 11 := by
  obtain ⟨d, h1, h2, -, -, r⟩ := ctorMessy_rep (env := tenv) env0_liveGen ⟨5, 7, 2, 3⟩
  obtain ⟨m, -, hm⟩ := randomPoint_rep (C := CC) env0_liveGen 13
  have hc : ∀ k : ℤ, 0 < k → k < 20 → (k : F) • (G : Grp CC) ≠ 0 := by
    intro k h1 h2 h0
    rcases smul_eq_zero.1 h0 with h | h
    · rw [coin_zero_iff ⟨h1.le, lt_trans h2 (by decide)⟩] at h
      omega
    · exact G_ne_zero h
  refine ⟨d, m, h1, by rw [h2]; exact env0_live, r.valid, ?_, hm.valid, rep_inf_false hm (hc 13 (by norm_num) (by norm_num)),
    by norm_num, by decide⟩
  rintro ⟨h, -⟩
  exact hc 3 (by norm_num) (by norm_num) ((rep_inf (r.g .b1)).1 h)

end Dme

namespace ElGamal

open EC
open Dme (IsAbscissa F Coin)

/-- C82: under a key other than 0, at least `n - 2` of the `n` coins give a message whose window contains an abscissa
back. -/
theorem C82_elgamal (env : Env) {c : Option Addr} (hl : LiveGen env c) {sk : ℤ} (hsk : ¬ CC.order ∣ sk) {m : ℤ}
    (h0 : 0 ≤ m) (hm : (m + 1) * 2 ^ 20 ≤ CC.prime) (hw : ∃ i : ℕ, i < 2 ^ 20 ∧ IsAbscissa (m * 2 ^ 20 + i)) :
    Ends (Curve.getDefaultGen env CC c) fun g => Ends (g.smulZ env CC sk) fun pk =>
      CC.order.toNat - 2 ≤ {coin : ℤ | Coin coin ∧ (do
        let ct ← encrypt env c pk m coin
        decrypt env (Fld.mk' CC.fn sk) ct) = .ok m}.ncard := by
  obtain ⟨g, g1, g2⟩ := getDefaultGen_rep (C := CC) hl
  obtain ⟨pk, p1, p2⟩ := smulI_rep g2 sk
  refine ⟨g, g1, pk, p1, ?_⟩
  obtain ⟨-, P, -, -, -, h4, -, -, h7⟩ := encode_ok hl.live m
  obtain ⟨M, hM0, hM⟩ := isFinite_iff.1 h7
  have hn : CC.order = CC.fn := GoodCurve0.order_eq
  have hsk' : (sk : F) ≠ 0 := by
    rw [Ne, ZMod.intCast_zmod_eq_zero_iff_dvd]
    exact hsk
  have hskG : (sk : F) • (G : Grp CC) ≠ 0 := fun h => (smul_eq_zero.1 h).elim hsk' G_ne_zero
  obtain ⟨x0, hx0⟩ := exists_smul hskG (-M)
  have hc : ∀ x : F, Coin (x.val : ℤ) := fun x =>
    ⟨Int.natCast_nonneg _, by rw [hn]; exact_mod_cast ZMod.val_lt x⟩
  have hfin : {coin : ℤ | Coin coin ∧ (do
        let ct ← encrypt env c pk m coin
        decrypt env (Fld.mk' CC.fn sk) ct) = .ok m}.Finite :=
    (Set.finite_Ico 0 CC.order).subset fun x hx => ⟨hx.1.1, hx.1.2⟩
  have hsub : (fun x : F => (x.val : ℤ)) '' ({0, x0} : Set F)ᶜ ⊆ {coin : ℤ | Coin coin ∧ (do
        let ct ← encrypt env c pk m coin
        decrypt env (Fld.mk' CC.fn sk) ct) = .ok m} := by
    rintro _ ⟨x, hx, rfl⟩
    simp only [Set.mem_compl_iff, Set.mem_insert_iff, Set.mem_singleton_iff, not_or] at hx
    refine ⟨hc x, ?_⟩
    obtain ⟨g', g1', pk', p1', ct, e1, h⟩ := C41_round_trip_partial env hl sk (x.val : ℤ) h0 hm
    rw [g1] at g1'
    obtain rfl := Except.ok.inj g1'
    rw [p1] at p1'
    obtain rfl := Except.ok.inj p1'
    obtain ⟨u, a1, a2⟩ := smulF_rep g2 ((x.val : ℤ) : F)
    obtain ⟨v, b1, b2⟩ := smulF_rep p2 ((x.val : ℤ) : F)
    obtain ⟨mv, d1, d2⟩ := add_rep b2 hM
    have e2 : encrypt env c pk m (x.val : ℤ) = .ok ⟨u, mv⟩ := by
      simp only [encrypt, h4, R.ok_bind, encryptP, getRandomScalar_ok hl.live, g1, a1, b1, d1]
    rw [e2] at e1
    obtain rfl := (Except.ok.inj e1).symm
    have hxx : ((x.val : ℤ) : F) = x := by simp
    rw [hxx] at a2 d2
    obtain ⟨m', f1, f2⟩ := h (rep_inf_false a2 fun h => (smul_eq_zero.1 h).elim hx.1 G_ne_zero)
      (rep_inf_false d2 fun h => hx.2 ((smul_inj hskG).1 (by rw [← hx0]; exact eq_neg_of_add_eq_zero_left h))) hsk
    rw [e2, R.ok_bind, f1, f2.2 hw]
  refine le_trans ?_ (Set.ncard_le_ncard hsub hfin)
  rw [Set.ncard_image_of_injective _ (fun x y h => ZMod.val_injective _ (by exact_mod_cast h))]
  have h1 := Set.ncard_add_ncard_compl ({0, x0} : Set F)
  have h2 := Set.ncard_insert_le (0 : F) {x0}
  rw [Set.ncard_singleton] at h2
  rw [show Nat.card F = CC.fn from Dme.card_F] at h1
  have h3 : CC.order.toNat = CC.fn := by rw [hn]; simp
  omega

/-- the window of the message 5 contains an abscissa -/
example : ¬ CC.order ∣ 11 ∧ (0 : ℤ) ≤ 5 ∧ (5 + 1) * 2 ^ 20 ≤ CC.prime ∧ ∃ i : ℕ, i < 2 ^ 20 ∧ IsAbscissa (5 * 2 ^ 20 + i) := by
  refine ⟨by decide, by norm_num, by decide, 1, by norm_num,
    89430462307411555468922628904682164806527467598081190361172240863437453099829, ?_⟩
  unfold CurveEq Int.ModEq
  decide +kernel

end ElGamal
end Verif
