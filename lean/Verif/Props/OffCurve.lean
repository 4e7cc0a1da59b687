import Verif.Lemmas.OffCurve
import Verif.Props.Elgamal
import Verif.Props.DmeKeys

/-!
# C108: points that are not on the curve
-/

namespace Verif

open EC OffCurve

/-- C108 (part): what is computed from a point off the curve is infinity or off the curve too, and `isValid` says so.
Missing: `operator*` and the decryption functions never ask `isValid` (see the counterexamples). -/
theorem C108_stays_off_partial (env : Env) {C : CurveClass} (hC : IsCurve C) {x y : ℤ} {c : Option Addr} (hc : Live env c)
    (hoff : ¬ CurveEq C x y) (k : Fld) {Q : Pt} (h : (Pt.ofZ C x y c).smul env C k = .ok Q) :
    Q.inf = true ∨ Pt.isValid env C Q = .ok false := by
  have := hC.good
  rw [Pt.ofZ, Fld.mk'_eq, Fld.mk'_eq, Pt.smul] at h
  simp only [Bool.false_eq_true, if_false] at h
  have hb : OnB C ((y : ZMod C.fp) * y - (x * x * x + C.a * x)) (x : ZMod C.fp) (y : ZMod C.fp) := by unfold OnB; ring
  rcases smulLoop_onB hc _ hb (.inl rfl) h with rfl | ⟨x', y', rfl, h'⟩
  · exact .inl rfl
  · right
    rw [isValid_ofZ hc, decide_eq_false]
    intro e
    apply hoff
    rw [CurveEq, GoodCurve0.prime_eq, ← ZMod.intCast_eq_intCast_iff]
    push_cast
    unfold OnB at h'
    unfold rhs at e
    linear_combination e - h'

/-- C108 is false: for every divisor `r > 1` of 3·5²·17·257·641·1531·65537·490463·6700417 (about 2^96) there is a point off
`Curve_secp256r1` all of whose multiples `operator*` computes, and two multiples are equal exactly if the scalars agree
modulo `r`: the point has order `r`, though every point of the curve has the prime order `n`. -/
theorem C108_smul_counterexample {r : ℕ} (h1 : 1 < r) (hr : r ∣ 3 * 5 ^ 2 * 17 * 257 * 641 * 1531 * 65537 * 490463 * 6700417) :
    ∃ x y : ℤ, ¬ CurveEq secp256r1 x y ∧ ∀ (env : Env) (c : Option Addr), Live env c → ∀ k k' : Fld,
      IsElem secp256r1.fn k → IsElem secp256r1.fn k' →
      Ends ((Pt.ofZ secp256r1 x y c).smul env secp256r1 k) fun Q =>
        Ends ((Pt.ofZ secp256r1 x y c).smul env secp256r1 k') fun Q' => SamePoint Q Q' ↔ k.value ≡ k'.value [ZMOD r] := by
  rw [← nOrd_factors] at hr
  obtain ⟨B, hB⟩ := exists_order hr
  have h2 := odd_order hB h1 fun h => nOrd_odd (h.trans hr)
  have hB0 : B ≠ 0 := by simpa using h2 0
  obtain ⟨x, y, hx, hy⟩ := exists_coords B
  refine ⟨x, y, off hB0 hx hy, fun env c hc k k' hk hk' => ?_⟩
  rw [pt_ofZ hB0 c hx hy]
  refine ⟨_, node.smul_pt two_ne hc h2 k hk.nonneg, _, node.smul_pt two_ne hc h2 k' hk'.nonneg, ?_⟩
  rw [← hB, ← zsmul_eq_zsmul_iff_modEq]
  constructor
  · intro h
    apply node.pt_inj two_ne c
    rcases h with ⟨ha, hb⟩ | ⟨ha, hb, hx, hy⟩
    · rw [node.pt_inf] at ha hb
      rw [of_decide_eq_true ha, of_decide_eq_true hb]
    · rw [node.pt_inf] at ha hb
      rw [node.pt_ne c (of_decide_eq_false ha), node.pt_ne c (of_decide_eq_false hb)] at hx hy ⊢
      simp only at hx hy
      rw [hx, hy]
  · intro h
    rw [h]
    cases hi : (node.pt c (k'.value • B)).inf
    · exact .inr ⟨hi, hi, rfl, rfl⟩
    · exact .inl ⟨hi, hi⟩

example : 1 < 6700417 ∧ 6700417 ∣ 3 * 5 ^ 2 * 17 * 257 * 641 * 1531 * 65537 * 490463 * 6700417 := by
  refine ⟨by decide, ⟨_, mul_comm _ _⟩⟩

/-- (3, 4) on `Curve_secp256r1`: its multiples by 2 and 5 are (3, -4), its multiple by 3 is infinity -/
example : Live env0 (some 0) ∧ ¬ CurveEq secp256r1 3 4 ∧ (do
    let P := Pt.ofZ secp256r1 3 4 (some 0)
    let P2 ← P.smul env0 secp256r1 (Fld.mk' secpN 2)
    let P3 ← P.smul env0 secp256r1 (Fld.mk' secpN 3)
    let P5 ← P.smul env0 secp256r1 (Fld.mk' secpN 5)
    let v ← Pt.isValid env0 secp256r1 P2
    .ok (P2.x.value, P2.y.value - secpP, P3.inf, decide (P2 = P5), v)) = .ok (3, -4, true, true, false) := by
  refine ⟨⟨0, _, rfl, rfl⟩, by unfold CurveEq Int.ModEq; decide +kernel, by decide +kernel⟩

namespace Dme

/-- what `Dec` does with the second component (6, 14) -/
theorem dec_node {env : Env} {c : Option Addr} (hc : Live env c) {B : U} (hB : ∀ i : ℕ, 2 ^ i • B ≠ 0) {sk : Fld}
    (hk : 0 ≤ sk.value) : dec env sk ⟨node.pt c B, Pt.ofZ CC 6 14 c⟩ =
      if sk.value • B = 0 then (node.pt c tV).sub env CC (Pt.infty CC) else .ok (node.pt c (tV - sk.value • B)) := by
  have e : Pt.ofZ CC 6 14 c = node.pt c tV :=
    pt_ofZ tV_ne' c (by rw [tV_lit.1]; norm_cast) (by rw [tV_lit.2]; norm_cast)
  rw [e]
  simp only [dec]
  rw [node.smul_pt two_ne hc hB sk hk, R.ok_bind]
  by_cases h : sk.value • B = 0
  · rw [if_pos h, h, node.pt_zero]
  · rw [if_neg h]
    exact node.sub_pt two_ne hc h tV_ne' fun _ => tV_ne

/-- C108 is false for `Dec`: for every such `r` there is a ciphertext of two points off the curve for which `Dec` gives the
same outcome under two secret keys exactly if they agree modulo `r`.  So its answers to a few such ciphertexts, the
divisors being small numbers, tell about 96 of the 256 bits of the key. -/
theorem C108_dec_counterexample {r : ℕ} (h1 : 1 < r) (hr : r ∣ 3 * 5 ^ 2 * 17 * 257 * 641 * 1531 * 65537 * 490463 * 6700417) :
    ∃ ux uy vx vy : ℤ, ¬ CurveEq CC ux uy ∧ ¬ CurveEq CC vx vy ∧ ∀ (env : Env) (c : Option Addr), Live env c →
      ∀ sk sk' : Fld, IsElem CC.fn sk → IsElem CC.fn sk' →
        (dec env sk ⟨Pt.ofZ CC ux uy c, Pt.ofZ CC vx vy c⟩ = dec env sk' ⟨Pt.ofZ CC ux uy c, Pt.ofZ CC vx vy c⟩ ↔
          sk.value ≡ sk'.value [ZMOD r]) := by
  rw [← nOrd_factors] at hr
  obtain ⟨B, hB⟩ := exists_order hr
  have h2 := odd_order hB h1 fun h => nOrd_odd (h.trans hr)
  have hB0 : B ≠ 0 := by simpa using h2 0
  obtain ⟨x, y, hx, hy⟩ := exists_coords B
  refine ⟨x, y, 6, 14, off hB0 hx hy, off tV_ne' (by rw [tV_lit.1]; norm_cast) (by rw [tV_lit.2]; norm_cast),
    fun env c hc sk sk' hk hk' => ?_⟩
  rw [pt_ofZ hB0 c hx hy, dec_node hc h2 hk.nonneg, dec_node hc h2 hk'.nonneg, ← hB, ← zsmul_eq_zsmul_iff_modEq]
  have key : ∀ A : U, (node.pt c tV).sub env CC (Pt.infty CC) ≠ .ok (node.pt c A) := by
    intro A
    cases hd : env.ndebug
    · obtain ⟨e, he⟩ := sub_infty_debug hd hc
      rw [he]; exact fun h => nomatch h
    · rw [sub_infty_release hd]
      exact fun h => bogus_ne c A (Except.ok.inj h)
  by_cases h : sk.value • B = 0 <;> by_cases h' : sk'.value • B = 0
  · rw [if_pos h, if_pos h', h, h']
    exact ⟨fun _ => rfl, fun _ => rfl⟩
  · rw [if_pos h, if_neg h', h]
    exact ⟨fun e => absurd e (key _), fun e => absurd e.symm h'⟩
  · rw [if_neg h, if_pos h', h']
    exact ⟨fun e => absurd e.symm (key _), fun e => absurd e h⟩
  · rw [if_neg h, if_neg h']
    constructor
    · intro e
      exact sub_right_injective (node.pt_inj two_ne c (Except.ok.inj e))
    · intro e
      rw [e]

/-- `Dec` of the ciphertext ((3, 4), (6, 14)) is the same under 5 and 8 and another under 4 -/
example : Live env0 (some 0) ∧ IsElem CC.fn (Fld.mk' CC.fn 5) ∧ (do
    let ct : Ctxt := ⟨Pt.ofZ CC 3 4 (some 0), Pt.ofZ CC 6 14 (some 0)⟩
    let m4 ← dec env0 (Fld.mk' CC.fn 4) ct
    let m5 ← dec env0 (Fld.mk' CC.fn 5) ct
    let m8 ← dec env0 (Fld.mk' CC.fn 8) ct
    .ok (decide (m5 = m8), decide (m4 = m5), m4.x.value, m4.y.value - secpP)) = .ok (true, false, 27, -140) := by
  refine ⟨⟨0, _, rfl, rfl⟩, ⟨rfl, by decide, by decide⟩, by decide +kernel⟩

end Dme

namespace ElGamal

theorem decrypt_eq (env : Env) (sk : Fld) (u mv : Pt) :
    decrypt env sk ⟨u, mv⟩ = (do let P ← Dme.dec env sk ⟨u, mv⟩; .ok (decode P)) := by
  simp only [decrypt, Dme.dec]
  rcases u.smul env CC sk with e | w
  · rfl
  · rfl

/-- C108 is false for `ElGamal::decrypt`: neither (3, 4) nor (6, 14) is on the curve, and the answer to the ciphertext of
these two tells the secret key modulo 3. -/
theorem C108_decrypt_counterexample : ¬ CurveEq CC 3 4 ∧ ¬ CurveEq CC 6 14 ∧ ∃ d0 d1 d2 : ℤ, d0 ≠ d1 ∧ d0 ≠ d2 ∧ d1 ≠ d2 ∧
    ∀ (env : Env) (c : Option Addr), Live env c → ∀ sk : Fld, IsElem CC.fn sk →
      (sk.value % 3 = 1 → decrypt env sk ⟨Pt.ofZ CC 3 4 c, Pt.ofZ CC 6 14 c⟩ = .ok d1) ∧
      (sk.value % 3 = 2 → decrypt env sk ⟨Pt.ofZ CC 3 4 c, Pt.ofZ CC 6 14 c⟩ = .ok d2) ∧
      (sk.value % 3 = 0 → env.ndebug = true → decrypt env sk ⟨Pt.ofZ CC 3 4 c, Pt.ofZ CC 6 14 c⟩ = .ok d0) ∧
      (sk.value % 3 = 0 → env.ndebug = false → Faults (decrypt env sk ⟨Pt.ofZ CC 3 4 c, Pt.ofZ CC 6 14 c⟩)) := by
  have h2 := odd_order tW_order (by decide) (by decide)
  have hW0 : tW ≠ 0 := by simpa using h2 0
  have x3 : ((3 : ℤ) : ZMod secp256r1.fp) = node.X tW := by rw [tW_lit.1]; norm_cast
  have y4 : ((4 : ℤ) : ZMod secp256r1.fp) = node.Y tW := by rw [tW_lit.2]; norm_cast
  have x6 : ((6 : ℤ) : ZMod secp256r1.fp) = node.X tV := by rw [tV_lit.1]; norm_cast
  have y14 : ((14 : ℤ) : ZMod secp256r1.fp) = node.Y tV := by rw [tV_lit.2]; norm_cast
  have hxx : node.X tV - node.X tW = 3 := by rw [tV_lit.1, tW_lit.1]; norm_num
  have h3 := three_ne
  have hne : node.X tV ≠ node.X tW := by
    intro h; rw [h, sub_self] at hxx; exact h3 hxx.symm
  -- the sum and the difference
  have hadd : node.X (tV + tW) = 19 / 9 := by
    rw [← node.addX tV tW tV_ne' hW0 hne, hxx, tV_lit.1, tV_lit.2, tW_lit.1, tW_lit.2]
    have h9 : (9 : ZMod secp256r1.fp) ≠ 0 := by
      rw [show (9 : ZMod secp256r1.fp) = 3 * 3 by norm_num]; exact mul_ne_zero h3 h3
    field_simp
    norm_num
  have hsub : node.X (tV - tW) = 27 := by
    rw [sub_eq_add_neg, ← node.addX tV (-tW) tV_ne' (neg_ne_zero.2 hW0) (by rwa [node.negX tW hW0]), node.negX tW hW0,
      node.negY tW hW0, hxx, tV_lit.1, tV_lit.2, tW_lit.1, tW_lit.2]
    field_simp
    norm_num
  have hnp : tV + tW ≠ 0 := by
    intro h
    apply hne
    rw [eq_neg_of_add_eq_zero_left h, node.negX tW hW0]
  have hnm : tV - tW ≠ 0 := by
    intro h
    apply hne
    rw [sub_eq_zero.1 h]
  refine ⟨off hW0 x3 y4, off tV_ne' x6 y14,
    98158170242611566130487608972683015213085719990446568972722058875924935, 0,
    24539542560652891532621902243170753803271429997611642243180514718981233, by decide, by decide, by decide, ?_⟩
  intro env c hc sk hk
  have hu : Pt.ofZ CC 3 4 c = node.pt c tW := pt_ofZ hW0 c x3 y4
  have hdec := Dme.dec_node hc h2 hk.nonneg
  have hmod : ∀ j : ℤ, sk.value % 3 = j % 3 → sk.value • tW = j • tW := fun j h => by
    rw [zsmul_eq_zsmul_iff_modEq, tW_order]; exact h
  have h19 : (19 / 9 : ZMod secp256r1.fp).val = 25731575380079166391710543766535016340019142981175625376785251401970466189769 := by
    have : (19 / 9 : ZMod secp256r1.fp) =
        ((25731575380079166391710543766535016340019142981175625376785251401970466189769 : ℕ) : ZMod secp256r1.fp) := by
      have h9 : (9 : ZMod secp256r1.fp) ≠ 0 := by
        rw [show (9 : ZMod secp256r1.fp) = 3 * 3 by norm_num]; exact mul_ne_zero h3 h3
      rw [div_eq_iff h9]
      have : ((19 : ℕ) : ZMod secp256r1.fp) =
          ((25731575380079166391710543766535016340019142981175625376785251401970466189769 * 9 : ℕ) : ZMod secp256r1.fp) := by
        rw [ZMod.natCast_eq_natCast_iff]; unfold Nat.ModEq; decide +kernel
      rw [Nat.cast_mul] at this
      exact this
    rw [this, ZMod.val_natCast]
    decide +kernel
  have h5 : (-5 / 9 : ZMod secp256r1.fp).val = 102926301520316665566842175066140065360076571924702501507141005607881864759067 := by
    have : (-5 / 9 : ZMod secp256r1.fp) =
        ((102926301520316665566842175066140065360076571924702501507141005607881864759067 : ℕ) : ZMod secp256r1.fp) := by
      have h9 : (9 : ZMod secp256r1.fp) ≠ 0 := by
        rw [show (9 : ZMod secp256r1.fp) = 3 * 3 by norm_num]; exact mul_ne_zero h3 h3
      rw [div_eq_iff h9, eq_comm, eq_neg_iff_add_eq_zero]
      have : ((102926301520316665566842175066140065360076571924702501507141005607881864759067 * 9 + 5 : ℕ) :
          ZMod secp256r1.fp) = 0 := by
        rw [ZMod.natCast_eq_zero_iff]; decide +kernel
      rw [Nat.cast_add, Nat.cast_mul] at this
      exact this
    rw [this, ZMod.val_natCast]
    decide +kernel
  have h27 : (27 : ZMod secp256r1.fp).val = 27 := by
    rw [← Nat.cast_ofNat, ZMod.val_natCast]; decide +kernel
  rw [decrypt_eq, hu, hdec]
  refine ⟨fun h => ?_, fun h => ?_, fun h hd => ?_, fun h hd => ?_⟩
  · have e := hmod 1 h
    rw [one_zsmul] at e
    rw [e, if_neg hW0, R.ok_bind, node.pt_ne c hnm, decode, Fld.getRawValue]
    simp only [Fld.ofZ_value, hsub, h27]
    rfl
  · have e := hmod (-1) (by rw [h]; rfl)
    rw [neg_one_zsmul] at e
    rw [e, if_neg (neg_ne_zero.2 hW0), R.ok_bind, sub_neg_eq_add, node.pt_ne c hnp, decode, Fld.getRawValue]
    simp only [Fld.ofZ_value, hadd, h19]
    norm_num
  · have e := hmod 0 (by rw [h]; rfl)
    rw [zero_zsmul] at e
    rw [e, if_pos rfl, sub_infty_release hd, R.ok_bind, decode, Fld.getRawValue]
    simp only [bogus, Pt.ofFld, Fld.ofZ_value, h5]
    norm_num
  · have e := hmod 0 (by rw [h]; rfl)
    rw [zero_zsmul] at e
    rw [e, if_pos rfl]
    obtain ⟨er, he⟩ := sub_infty_debug hd hc
    exact ⟨er, by rw [he]; rfl⟩

example : Live env0 (some 0) ∧ IsElem CC.fn (Fld.mk' CC.fn 1001) ∧ (Fld.mk' CC.fn 1001).value % 3 = 2 ∧
    decrypt env0 (Fld.mk' CC.fn 1001) ⟨Pt.ofZ CC 3 4 (some 0), Pt.ofZ CC 6 14 (some 0)⟩ =
      .ok 24539542560652891532621902243170753803271429997611642243180514718981233 := by
  refine ⟨⟨0, _, rfl, rfl⟩, ⟨rfl, by decide, by decide⟩, by decide, by decide +kernel⟩

end ElGamal

/-- C108 is false on `Curve_bn254` as well: the point (1, 1) is not on it, and from its multiple by a non-zero scalar the
scalar is read off by one division, `k = Q.x / Q.y`. -/
theorem C108_bn254_counterexample : ¬ CurveEq bn254 1 1 ∧ ∀ (env : Env) (c : Option Addr), Live env c → ∀ k : Fld,
    IsElem bn254.fn k → k.value ≠ 0 → Ends ((Pt.ofZ bn254 1 1 c).smul env bn254 k) fun Q =>
      Q.inf = false ∧ Q.y.value * k.value ≡ Q.x.value [ZMOD bn254.prime] ∧ ¬ bn254.prime ∣ Q.y.value := by
  have h2 : (2 : ZMod bn254.fp) ≠ 0 := by
    rw [← Nat.cast_ofNat, Ne, ZMod.natCast_eq_zero_iff]
    decide +kernel
  have hcast : ∀ n : ℕ, 0 < n → n < bn254.fp → ((n : ℕ) : ZMod bn254.fp) ≠ 0 := fun n h0 hn h => by
    rw [ZMod.natCast_eq_zero_iff] at h
    exact absurd (Nat.le_of_dvd h0 h) (not_le.2 hn)
  have hpow : ∀ i : ℕ, 2 ^ i • (1 : ZMod bn254.fp) ≠ 0 := fun i => by
    rw [nsmul_one, Nat.cast_pow]
    exact pow_ne_zero _ h2
  let ch := cusp bn254 h2 (by norm_num [bn254])
  refine ⟨by unfold CurveEq Int.ModEq; decide +kernel, fun env c hc k hk h0 => ?_⟩
  have e : Pt.ofZ bn254 1 1 c = ch.pt c 1 := by
    rw [ch.pt_ne c one_ne_zero, Pt.ofZ, Fld.mk'_eq]
    simp [ch, cusp]
  rw [e]
  refine ⟨_, ch.smul_pt h2 hc hpow k hk.nonneg, ?_⟩
  have hk0 : k.value • (1 : ZMod bn254.fp) = (k.value : ZMod bn254.fp) := zsmul_one _
  have hkn : (k.value : ZMod bn254.fp) ≠ 0 := by
    rw [Ne, ZMod.intCast_zmod_eq_zero_iff_dvd]
    intro h
    have h1 := Int.le_of_dvd (lt_of_le_of_ne hk.nonneg h0.symm) h
    have h3 : (bn254.fn : ℤ) < bn254.fp := by decide +kernel
    exact absurd (lt_of_lt_of_le (hk.lt.trans h3) h1) (lt_irrefl _)
  rw [hk0, ch.pt_ne c hkn]
  have hy : ch.Y (k.value : ZMod bn254.fp) * k.value = ch.X (k.value : ZMod bn254.fp) := by
    simp only [ch, cusp]
    field_simp
  refine ⟨rfl, ?_, ?_⟩
  · rw [GoodCurve0.prime_eq, ← ZMod.intCast_eq_intCast_iff]
    push_cast
    simp only [Fld.ofZ_value, Int.cast_natCast, ZMod.natCast_zmod_val]
    exact hy
  · rw [GoodCurve0.prime_eq, ← ZMod.intCast_zmod_eq_zero_iff_dvd]
    simp only [Fld.ofZ_value, Int.cast_natCast, ZMod.natCast_zmod_val]
    simp only [ch, cusp]
    exact inv_ne_zero (pow_ne_zero _ hkn)

/-- the multiple by 7: (1/49, 1/343) -/
example : Live env0 (some 0) ∧ IsElem bn254.fn (Fld.mk' bn254.fn 7) ∧ (do
    let Q ← (Pt.ofZ bn254 1 1 (some 0)).smul env0 bn254 (Fld.mk' bn254.fn 7)
    .ok (Q.x.value * 49 % bn254.prime, Q.y.value * 343 % bn254.prime)) = .ok (1, 1) := by
  refine ⟨⟨0, _, rfl, rfl⟩, ⟨rfl, by decide, by decide⟩, by decide +kernel⟩

end Verif
