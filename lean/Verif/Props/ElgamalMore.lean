import Verif.Props.ExactInt

/-!
# C98: ElGamal decryption with a wrong key, and of altered ciphertexts
-/

namespace Verif
namespace ElGamal

open EC
open Dme (IsAbscissa F eqP_ok_iff)

theorem decrypt_rep {env : Env} {k : F} {u mv : Pt} {U V : Grp CC} (hU : Rep env u U) (hV : Rep env mv V) (h1 : k • U ≠ 0)
    (h2 : V ≠ 0) : ∃ m, decrypt env (Fld.ofZ k) ⟨u, mv⟩ = .ok (decode m) ∧ Rep env m (V - k • U) := by
  obtain ⟨w, w1, w2⟩ := smulF_rep hU k
  obtain ⟨m, m1, m2⟩ := sub_rep hV w2 h2 h1
  exact ⟨m, by simp only [decrypt, w1, R.ok_bind, m1], m2⟩

theorem decode_congr {env : Env} {P m : Pt} {M : Grp CC} (hP : Rep env P M) (hm : Rep env m M) : decode m = decode P := by
  rcases (samePoint_iff hm hP).2 rfl with ⟨h1, h2⟩ | ⟨-, -, h, -⟩
  · rw [rep_inf hm] at h1
    subst h1
    rw [decode, decode, (rep_zero_iff.1 hm).2.1, (rep_zero_iff.1 hP).2.1]
  · rw [decode, decode, h]

/-- a point and its opposite decode to the same integer -/
theorem decode_neg {env : Env} {P m : Pt} {M : Grp CC} (hM : M ≠ 0) (hP : Rep env P M) (hm : Rep env m (-M)) :
    decode m = decode P := by
  rcases cases_pt M with h | ⟨x, y, hon, rfl⟩
  · exact absurd h hM
  · rw [neg_pt] at hm
    rw [decode, decode, ((rep_pt_iff _).1 hm).2.1, ((rep_pt_iff hon).1 hP).2.1]

/-- C98 is false: decryption reports nothing.  With finite components and any key but 0 it returns an integer. -/
theorem C98_silent_counterexample (env : Env) {u mv : Pt} (hu : IsFinite env CC u) (hmv : IsFinite env CC mv) {sk : Fld}
    (hsk : IsElem CC.fn sk) (h0 : sk.value ≠ 0) :
    Ends (decrypt env sk ⟨u, mv⟩) fun m => 0 ≤ m ∧ m * 2 ^ 20 < CC.prime := by
  obtain ⟨U, hU0, hU⟩ := isFinite_iff.1 hu
  obtain ⟨V, hV0, hV⟩ := isFinite_iff.1 hmv
  obtain ⟨k, rfl⟩ := isElem_iff.1 hsk
  have hk : k ≠ 0 := by
    rintro rfl
    exact h0 (by simp)
  obtain ⟨m, m1, m2⟩ := decrypt_rep hU hV (fun h => (smul_eq_zero.1 h).elim hk hU0) hV0
  have hx : IsElem CC.fp m.x := by
    rcases cases_pt (V - k • U) with h | ⟨x, y, hon, h⟩
    · rw [h] at m2
      rw [(rep_zero_iff.1 m2).2.1]
      exact isElem_iff.2 ⟨0, by decide⟩
    · rw [h] at m2
      rw [((rep_pt_iff hon).1 m2).2.1]
      exact isElem_ofZ _
  have hp : CC.prime = (CC.fp : ℤ) := by decide
  refine ⟨_, m1, ?_⟩
  have h1 : 0 ≤ m.x.value := hx.2
  have h2 : m.x.value < CC.fp := hx.3
  change 0 ≤ m.x.value / 2 ^ 20 ∧ m.x.value / 2 ^ 20 * 2 ^ 20 < _
  rw [hp]
  omega

/-- C98 is false: every ciphertext with finite components decrypts to every integer that fits, with a suitable key. -/
theorem C98_wrong_key_counterexample (env : Env) {u mv : Pt} (hu : IsFinite env CC u) (hmv : IsFinite env CC mv) {m : ℤ}
    (hm : Fits (2 ^ 20) m) : ∃ sk, IsElem CC.fn sk ∧ sk.value ≠ 0 ∧ decrypt env sk ⟨u, mv⟩ = .ok m := by
  obtain ⟨U, hU0, hU⟩ := isFinite_iff.1 hu
  obtain ⟨V, hV0, hV⟩ := isFinite_iff.1 hmv
  obtain ⟨j, P, h1, h2, h3, h4, h5, h6, h7⟩ := encode_ok (c := mv.curve) (rep_live hV hV0) m
  obtain ⟨M, hM0, hM⟩ := isFinite_iff.1 h7
  have hdec : decode P = m := by
    rw [decode, h6]
    exact (Dme.fits_iff (W := 2 ^ 20) (by norm_num) h2 h3).2 hm
  have hneg : -M ≠ M := by
    intro h
    have h8 : (2 : F) • M = 0 := by rw [two_smul]; nth_rw 1 [← h]; abel
    rcases smul_eq_zero.1 h8 with h9 | h9
    · exact absurd h9 (by decide +kernel)
    · exact hM0 h9
  obtain ⟨T, hT, hd⟩ : ∃ T : Grp CC, T ≠ V ∧ ∀ r, Rep env r T → decode r = m := by
    by_cases h : M = V
    · exact ⟨-M, by rw [← h]; exact hneg, fun r hr => by rw [decode_neg hM0 hM hr, hdec]⟩
    · exact ⟨M, h, fun r hr => by rw [decode_congr hM hr, hdec]⟩
  obtain ⟨k, hk⟩ := exists_smul hU0 (V - T)
  have hk0 : k • U ≠ 0 := by rw [← hk]; exact sub_ne_zero.2 hT.symm
  obtain ⟨r, r1, r2⟩ := decrypt_rep hU hV hk0 hV0
  rw [← hk, sub_sub_cancel] at r2
  refine ⟨Fld.ofZ k, isElem_ofZ k, ?_, by rw [r1, hd r r2]⟩
  intro h
  refine hk0 ?_
  have : (Fld.ofZ k) = Fld.ofZ (0 : F) := isElem_ext (isElem_ofZ _) (isElem_ofZ _) (by rw [h]; simp)
  rw [Fld.ofZ_injective this]
  exact zero_smul F U

/-- C98 is false: whoever adds a point `D` to the second component, without any key, makes the receiver decode the
message's point plus `D`. -/
theorem C98_shift_counterexample (env : Env) {c : Option Addr} (hl : LiveGen env c) (sk coin : ℤ) {P D : Pt}
    (hP : Valid env CC P) (hD : Valid env CC D) (hsk : ¬ CC.order ∣ sk) (hcoin : ¬ CC.order ∣ coin) :
    Ends (Curve.getDefaultGen env CC c) fun g => Ends (g.smulZ env CC sk) fun pk =>
      Ends (encryptP env c pk P coin) fun ct => Ends (ct.mv.add env CC D) fun mv' => Ends (P.add env CC D) fun P' =>
        mv'.inf = false → decrypt env (Fld.mk' CC.fn sk) ⟨ct.u, mv'⟩ = .ok (decode P') := by
  obtain ⟨g, g1, g2⟩ := getDefaultGen_rep (C := CC) hl
  obtain ⟨pk, p1, p2⟩ := smulI_rep g2 sk
  obtain ⟨M, hM⟩ := valid_iff.1 hP
  obtain ⟨X, hX⟩ := valid_iff.1 hD
  obtain ⟨u, a1, a2⟩ := smulF_rep g2 (coin : F)
  obtain ⟨v, b1, b2⟩ := smulF_rep p2 (coin : F)
  obtain ⟨mv, d1, d2⟩ := add_rep b2 hM
  obtain ⟨mv', e1, e2⟩ := add_rep d2 hX
  obtain ⟨P', f1, f2⟩ := add_rep hM hX
  refine ⟨g, g1, pk, p1, ⟨u, mv⟩, ?_, mv', e1, P', f1, fun hinf => ?_⟩
  · simp only [R.ok_bind, encryptP, getRandomScalar_ok hl.live, g1, a1, b1, d1]
  have ho : CC.order = (CC.fn : ℤ) := by decide
  have h1 : (sk : F) ≠ 0 := by rw [Ne, ZMod.intCast_zmod_eq_zero_iff_dvd, ← ho]; exact hsk
  have h2 : (coin : F) ≠ 0 := by rw [Ne, ZMod.intCast_zmod_eq_zero_iff_dvd, ← ho]; exact hcoin
  obtain ⟨r, r1, r2⟩ := decrypt_rep (k := (sk : F)) a2 e2 (smul_ne_zero h1 (smul_ne_zero h2 G_ne_zero))
    (fun h => by rw [(rep_inf e2).2 h] at hinf; simp at hinf)
  rw [Fld.mk'_eq, r1, decode_congr f2 (by convert r2 using 1; module)]

/-- a ciphertext of 5 under the key 11, decrypted with 11 and with 12; and one whose second component was shifted by
the generator -/
example : (do
    let g ← Curve.getDefaultGen env0 CC (some 0)
    let pk ← g.smulZ env0 CC 11
    let P ← encode env0 (some 0) 5
    let ct ← encryptP env0 (some 0) pk P 13
    let m ← decrypt env0 (Fld.mk' CC.fn 11) ct
    let w ← decrypt env0 (Fld.mk' CC.fn 12) ct
    let mv ← ct.mv.add env0 CC g
    let P' ← P.add env0 CC g
    let n ← decrypt env0 (Fld.mk' CC.fn 11) ⟨ct.u, mv⟩
    .ok (m, decide (w = 5), mv.inf, decide (n = decode P'), decide (n = 5))) = .ok (5, false, false, true, false) := by
  decide +kernel

/-- the hypothesis on the message is met by 5 -/
example : Fits (2 ^ 20) 5 := by
  obtain ⟨j, P, -, h2, h3, h4, -, h6, -⟩ := encode_ok (env := env0) (c := some 0) env0_liveGen.live 5
  refine (Dme.fits_iff (W := 2 ^ 20) (by norm_num) h2 h3).1 ?_
  have h : (encode env0 (some 0) 5).map decode = .ok 5 := by decide +kernel
  rw [h4] at h
  have h7 : decode P = 5 := by simpa [Except.map] using h
  rw [decode, h6] at h7
  exact h7

end ElGamal
end Verif
