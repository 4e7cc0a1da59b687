import Verif.Props.ExactMessy

/-!
# C93, C94: trapdoor keys and receiver keys; altered ciphertexts
-/

namespace Verif
namespace Dme

open EC

/-! ## C93 -/

/-- C93: in a decryption-mode instance with non-zero trapdoor there is a bijection `φ` of the draws such that the public
key and the first secret key of `TrapKeyGen` are what `KeyGen(0)` returns for the same draw, and the public key and the
second secret key what `KeyGen(1)` returns for the draw `φ` of it. -/
theorem C93_trapdoor_keys (env : Env) {c : Option Addr} (hl : LiveGen env c) {k : DecCoins}
    (hy : Coin k.y) (hy0 : k.y ≠ 0) :
    Ends (ctorDec env c k) fun d => ∃ φ : ℤ → ℤ, Set.BijOn φ {x | Coin x} {x | Coin x} ∧
      ∀ coin, Coin coin → ∃ pk s0 s1 k0 k1, trapKeyGen env d coin = .ok (pk, s0, s1) ∧
        keyGen env d .b0 coin = .ok k0 ∧ keyGen env d .b1 (φ coin) = .ok k1 ∧
        SamePoint pk.g k0.pk.g ∧ SamePoint pk.h k0.pk.h ∧ SamePoint pk.g k1.pk.g ∧ SamePoint pk.h k1.pk.h ∧
        s0 = k0.sk ∧ s1 = k1.sk := by
  obtain ⟨d, e1, hd, hdy, r⟩ := ctorDec_rep (env := env) hl k
  have hlive : Live env d.curve := by rw [hd]; exact hl.live
  have hy' : (k.y : F) ≠ 0 := by rw [Ne, coin_zero_iff hy]; exact hy0
  refine ⟨d, e1, fun x => (((x : F) / (k.y : F)).val : ℤ), ⟨?_, ?_, ?_⟩, ?_⟩
  · intro x _; exact coin_val _
  · intro x hx x' hx' h
    simp only at h
    have h2 : (x : F) / (k.y : F) = (x' : F) / (k.y : F) := by
      rw [← coin_val_cast ((x : F) / (k.y : F)), h, coin_val_cast]
    exact coin_cast_inj hx hx' ((div_left_inj' hy').1 h2)
  · intro x hx
    refine ⟨(((x : F) * (k.y : F)).val : ℤ), coin_val _, coin_cast_inj (coin_val _) hx ?_⟩
    rw [coin_val_cast, coin_val_cast, mul_div_cancel_right₀ _ hy']
  · intro coin _
    obtain ⟨pg, a1, a2⟩ := smulF_rep (r.g .b0) (coin : F)
    obtain ⟨ph, b1, b2⟩ := smulF_rep (r.h .b0) (coin : F)
    obtain ⟨qg, qh, e2, r1, r2⟩ := keyGen_rep hlive r .b0 coin
    obtain ⟨wg, wh, e3, r3, r4⟩ := keyGen_rep hlive r .b1 (((coin : F) / (k.y : F)).val : ℤ)
    have a1' : d.crs.g0.smul env CC (Fld.ofZ (coin : F)) = .ok pg := a1
    have b1' : d.crs.h0.smul env CC (Fld.ofZ (coin : F)) = .ok ph := b1
    rw [coin_val_cast] at e3 r3 r4
    refine ⟨⟨pg, ph⟩, _, _, _, _, ?_, e2, e3, (samePoint_iff a2 r1).2 rfl, (samePoint_iff b2 r2).2 rfl,
      (samePoint_iff a2 r3).2 ?_, (samePoint_iff b2 r4).2 ?_, rfl, rfl⟩
    · simp only [trapKeyGen, getRandomScalar_ok hlive, R.ok_bind, a1', b1', hdy, Fld.div_ofZ env _ hy']
    · dsimp only
      rw [smul_smul ((coin : F) / (k.y : F)), div_mul_cancel₀ _ hy']
    · dsimp only
      rw [smul_comm (k.e : F) (k.y : F), smul_smul ((coin : F) / (k.y : F)), div_mul_cancel₀ _ hy']

/-- C93: in a messy-mode instance with different trapdoors and finite bases a key of branch 0 is a key of branch 1 only
if both secret keys are zero: the public key determines the branch. -/
theorem C93_messy_keys (env : Env) {c : Option Addr} (hl : LiveGen env c) {k : MessyCoins}
    (h0 : Coin k.e0) (h1 : Coin k.e1) (h2 : Coin k.g0) (h3 : Coin k.g1) (he : k.e0 ≠ k.e1) (hg0 : k.g0 ≠ 0)
    (hg1 : k.g1 ≠ 0) {s s' : ℤ} (hs : Coin s) (hs' : Coin s') :
    Ends (ctorMessy env c k) fun d => Ends (keyGen env d .b0 s) fun kp => Ends (keyGen env d .b1 s') fun kp' =>
      ((SamePoint kp.pk.g kp'.pk.g ∧ SamePoint kp.pk.h kp'.pk.h) ↔ s = 0 ∧ s' = 0) := by
  obtain ⟨d, e1, hd, -, -, r⟩ := ctorMessy_rep (env := env) hl k
  have hlive : Live env d.curve := by rw [hd]; exact hl.live
  obtain ⟨pg, ph, e2, r1, r2⟩ := keyGen_rep hlive r .b0 s
  obtain ⟨qg, qh, e3, r3, r4⟩ := keyGen_rep hlive r .b1 s'
  refine ⟨d, e1, _, e2, _, e3, ?_⟩
  dsimp only at r1 r2 r3 r4 ⊢
  rw [samePoint_iff r1 r3, samePoint_iff r2 r4]
  have n0 := (baseG_ne_zero h2).2 hg0
  have n1 := (baseG_ne_zero h3).2 hg1
  constructor
  · rintro ⟨a1, a2⟩
    have a3 : (s : F) • (k.g0 : F) • (G : Grp CC) = 0 := by
      by_contra hne
      have : (k.e0 : F) • (s : F) • (k.g0 : F) • (G : Grp CC) = (k.e1 : F) • (s : F) • (k.g0 : F) • (G : Grp CC) := by
        rw [smul_comm, a2, smul_comm, ← a1]
      exact he (coin_cast_inj h0 h1 ((smul_inj hne).1 this))
    rw [a3] at a1
    refine ⟨(coin_zero_iff hs).1 ((smul_eq_zero.1 a3).resolve_right n0),
      (coin_zero_iff hs').1 ((smul_eq_zero.1 a1.symm).resolve_right n1)⟩
  · rintro ⟨rfl, rfl⟩
    simp only [Int.cast_zero, zero_smulG, and_self]

/-- a trapdoor key pair and the receiver's key pair of branch 1 for the draw it corresponds to -/
example : Coin 3 ∧ (do
    let d ← ctorDec env0 (some 0) ⟨3, 7, 5⟩
    let (pk, s0, s1) ← trapKeyGen env0 d 12
    let k1 ← keyGen env0 d .b1 4
    let same ← pk.beq env0 k1.pk
    .ok (same, s0.value, s1.value)) = .ok (true, 12, 4) := by
  refine ⟨by unfold Coin; decide, by decide +kernel⟩

/-! ## C94 -/

/-- C94 is false: whoever adds a point `D` to the second component of a ciphertext, without any key, makes the receiver
decrypt the message plus `D`. -/
theorem C94_shift_counterexample (env : Env) {d : Inst} (hl : Live env d.curve) (hc : ValidCrs env d.crs) (b : Branch)
    (coin : ℤ) {m D : Pt} (hm : Valid env CC m) (hD : Valid env CC D) (s t : ℤ) :
    Ends (keyGen env d b coin) fun kp => Ends (enc env d kp.pk b m s t) fun ct => Ends (ct.mv.add env CC D) fun mv' =>
      Ends (m.add env CC D) fun m' => ct.u.inf = false → kp.sk.value ≠ 0 → mv'.inf = false →
        EqP env CC (dec env kp.sk ⟨ct.u, mv'⟩) (.ok m') := by
  obtain ⟨g, h, r⟩ := hc.rep
  obtain ⟨pg, ph, e1, r1, r2⟩ := keyGen_rep hl r b coin
  obtain ⟨M, hM⟩ := valid_iff.1 hm
  obtain ⟨X, hX⟩ := valid_iff.1 hD
  obtain ⟨ct, v, e2, ru, rv, ha, rm⟩ := enc_rep (pk := ⟨pg, ph⟩) hl r r1 r2 hM b s t
  obtain ⟨mv', a1, a2⟩ := add_rep rm hX
  obtain ⟨m', b1, b2⟩ := add_rep hM hX
  refine ⟨_, e1, ct, e2, mv', a1, m', b1, fun hu hsk hmv => ?_⟩
  have hk : (coin : F) ≠ 0 := by
    intro h0
    apply hsk
    simp [h0]
  have hU : (coin : F) • ((s : F) • g b + (t : F) • h b) ≠ 0 := by
    intro h0
    rcases smul_eq_zero.1 h0 with h' | h'
    · exact hk h'
    · rw [(rep_inf ru).2 h'] at hu; simp at hu
  have hV : ((s : F) • (coin : F) • g b + (t : F) • (coin : F) • h b + M) + X ≠ 0 := by
    intro h0
    rw [(rep_inf a2).2 h0] at hmv; simp at hmv
  obtain ⟨w, c1, c2⟩ := dec_rep (c := ⟨ct.u, mv'⟩) ru a2 hU hV
  refine (eqP_res_iff (r := dec env (Fld.ofZ (coin : F)) ⟨ct.u, mv'⟩) ⟨w, c1, c2⟩ b2).2 ?_
  module

/-- C94 (part): with a finite first component and a non-zero key, different finite second components give different
messages.
Missing: that an altered ciphertext is noticed (see the counterexample). -/
theorem C94_changes_partial (env : Env) {sk : Fld} (hsk : IsElem CC.fn sk) (h0 : sk.value ≠ 0) {u mv mv' : Pt}
    (hu : IsFinite env CC u) (hmv : IsFinite env CC mv) (hmv' : IsFinite env CC mv') (hne : ¬ SamePoint mv mv') :
    Ends (dec env sk ⟨u, mv⟩) fun m => Valid env CC m ∧ Ends (dec env sk ⟨u, mv'⟩) fun m' =>
      Valid env CC m' ∧ ¬ SamePoint m m' := by
  obtain ⟨k, rfl⟩ := isElem_iff.1 hsk
  obtain ⟨U, hU0, hU⟩ := isFinite_iff.1 hu
  obtain ⟨V, hV0, hV⟩ := isFinite_iff.1 hmv
  obtain ⟨V', hV0', hV'⟩ := isFinite_iff.1 hmv'
  have hk : k ≠ 0 := by
    rintro rfl
    exact h0 (by simp)
  have hkU : k • U ≠ 0 := fun h => (smul_eq_zero.1 h).elim hk hU0
  obtain ⟨m, a1, a2⟩ := dec_rep (c := ⟨u, mv⟩) hU hV hkU hV0
  obtain ⟨m', b1, b2⟩ := dec_rep (c := ⟨u, mv'⟩) hU hV' hkU hV0'
  refine ⟨m, a1, valid_iff.2 ⟨_, a2⟩, m', b1, valid_iff.2 ⟨_, b2⟩, ?_⟩
  rw [samePoint_iff a2 b2]
  rw [samePoint_iff hV hV'] at hne
  exact fun h => hne (sub_left_inj.1 h)

/-- a message altered on its way -/
example : (do
    let d ← ctorDec env0 (some 0) ⟨3, 7, 5⟩
    let kp ← keyGen env0 d .b1 4
    let m ← Curve.getRandomPoint env0 CC (some 0) 13
    let D ← Curve.getRandomPoint env0 CC (some 0) 100
    let ct ← enc env0 d kp.pk .b1 m 21 22
    let mv' ← ct.mv.add env0 CC D
    let m' ← dec env0 kp.sk ⟨ct.u, mv'⟩
    let x ← Curve.getRandomPoint env0 CC (some 0) 113
    m'.beq env0 CC x) = .ok true := by decide +kernel

end Dme
end Verif
