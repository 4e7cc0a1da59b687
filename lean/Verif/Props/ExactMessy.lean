import Verif.Props.Ot

/-!
# C26, C34: exact conditions, degenerate draws included
-/

namespace Verif

open EC

namespace Dme

/-- on a branch whose base is finite a key is a Diffie-Hellman pair exactly if the trapdoor links its components -/
theorem dh_iff {g A B : Grp CC} (hg : g ≠ 0) {e : F} : (∃ x : F, A = x • g ∧ B = x • e • g) ↔ B = e • A := by
  constructor
  · rintro ⟨x, rfl, rfl⟩
    module
  · rintro rfl
    obtain ⟨x, rfl⟩ := exists_smul hg A
    exact ⟨x, rfl, by module⟩

theorem baseG_ne_zero {k : ℤ} (hk : Coin k) : (k : F) • (G : Grp CC) ≠ 0 ↔ k ≠ 0 := by
  rw [Ne, smul_eq_zero, coin_zero_iff hk]
  simp [G_ne_zero]

/-- when the branch of a messy-mode CRS made from the coins `γ`, `ε` hides -/
theorem hides_messy {env : Env} {d : Inst} (hl : LiveGen env d.curve) {g h : Branch → Grp CC}
    (hc : RepCrs env d.crs g h) {pk : PKey} {A B : Grp CC} (hA : Rep env pk.g A) (hB : Rep env pk.h B) {b : Branch}
    {e : F} (hh : h b = e • g b) : Hides env d pk b ↔ g b ≠ 0 ∧ B ≠ e • A := by
  rw [hides_iff_det hl hc hA hB, dhPair_iff hc hA hB, hh]
  by_cases h0 : g b = 0
  · simp [h0]
  · rw [dh_iff h0]
    simp [h0]

/-- C26, exact: for every draw of a messy-mode instance and every public key, the branch `FindMessy` names hides the
message exactly under these conditions.  All of them hold unless a trapdoor or base draw is degenerate or the key has
an infinite first component. -/
theorem C26_exact (env : Env) {c : Option Addr} (hl : LiveGen env c) {k : MessyCoins}
    (h0 : Coin k.e0) (h1 : Coin k.e1) (h2 : Coin k.g0) (h3 : Coin k.g1) :
    Ends (ctorMessy env c k) fun d => ∀ pk, ValidKey env pk → Ends (findMessy env d pk) fun b =>
      (Hides env d pk b ↔ match b with
        | .b0 => k.g0 ≠ 0
        | .b1 => k.g1 ≠ 0 ∧ k.e0 ≠ k.e1 ∧ pk.g.inf = false) := by
  obtain ⟨d, e1, hd, he0, -, r⟩ := ctorMessy_rep (env := env) hl k
  refine ⟨d, e1, fun pk hpk => ?_⟩
  obtain ⟨A, hA⟩ := valid_iff.1 hpk.g
  obtain ⟨B, hB⟩ := valid_iff.1 hpk.h
  refine ⟨_, findMessy_rep he0 hA hB, ?_⟩
  by_cases hBA : B = (k.e0 : F) • A
  · rw [if_pos hBA]
    dsimp only
    rw [hides_messy (e := (k.e1 : F)) (by rwa [hd]) r hA hB rfl, baseG_ne_zero h3, hBA]
    refine and_congr_right fun _ => ?_
    have hi : pk.g.inf = false ↔ A ≠ 0 := by
      rw [Ne, ← rep_inf hA]; simp
    rw [hi]
    constructor
    · intro h
      refine ⟨fun h' => h (by rw [h']), fun h' => h (by rw [h', smul_zero, smul_zero])⟩
    · rintro ⟨h, hA0⟩ h'
      exact h (coin_cast_inj h0 h1 ((smul_inj hA0).1 h'))
  · rw [if_neg hBA]
    dsimp only
    rw [hides_messy (e := (k.e0 : F)) (by rwa [hd]) r hA hB rfl, baseG_ne_zero h2]
    exact and_iff_left hBA

/-- C26, exact, for the instance as a whole: `FindMessy` is right about every public key with a finite component exactly
if the trapdoors differ and both bases are finite. -/
theorem C26_instance_exact (env : Env) {c : Option Addr} (hl : LiveGen env c) {k : MessyCoins}
    (h0 : Coin k.e0) (h1 : Coin k.e1) (h2 : Coin k.g0) (h3 : Coin k.g1) :
    Ends (ctorMessy env c k) fun d =>
      ((∀ pk, ValidKey env pk → ¬ (pk.g.inf = true ∧ pk.h.inf = true) → Ends (findMessy env d pk) fun b => Hides env d pk b) ↔
        k.e0 ≠ k.e1 ∧ k.g0 ≠ 0 ∧ k.g1 ≠ 0) := by
  obtain ⟨d, e1, h⟩ := C26_exact env hl h0 h1 h2 h3
  obtain ⟨d', e1', hd, he0, -, r⟩ := ctorMessy_rep (env := env) hl k
  obtain rfl := Except.ok.inj (e1.symm.trans e1')
  refine ⟨d, e1, ?_⟩
  have hfm : ∀ {pk A B}, Rep env pk.g A → Rep env pk.h B → ValidKey env pk ∧
      findMessy env d pk = .ok (if B = (k.e0 : F) • A then .b1 else .b0) := fun hA hB =>
    ⟨⟨valid_iff.2 ⟨_, hA⟩, valid_iff.2 ⟨_, hB⟩⟩, findMessy_rep he0 hA hB⟩
  obtain ⟨g, g1, g2⟩ := getDefaultGen_rep (C := CC) hl
  obtain ⟨ge, j1, j2⟩ := smulF_rep g2 (k.e0 : F)
  have hgi : g.inf = false := rep_inf_false g2 G_ne_zero
  constructor
  · intro ha
    -- the key `(G, e0 G)` makes it name branch 1, the key `(∞, G)` branch 0
    obtain ⟨v1, m1⟩ := hfm (pk := ⟨g, ge⟩) g2 j2
    obtain ⟨v0, m0⟩ := hfm (pk := ⟨Pt.infty CC, g⟩) rep_infty g2
    rw [if_pos rfl] at m1
    rw [if_neg (by rw [smul_zero]; exact G_ne_zero)] at m0
    obtain ⟨β1, a1, q1⟩ := ha _ v1 (by simp [hgi])
    obtain ⟨β0, a0, q0⟩ := ha _ v0 (by simp [hgi])
    obtain rfl := Except.ok.inj (m1.symm.trans a1)
    obtain rfl := Except.ok.inj (m0.symm.trans a0)
    obtain ⟨β1, a1, p1⟩ := h _ v1
    obtain ⟨β0, a0, p0⟩ := h _ v0
    obtain rfl := Except.ok.inj (m1.symm.trans a1)
    obtain rfl := Except.ok.inj (m0.symm.trans a0)
    have c1 := p1.1 q1
    exact ⟨c1.2.1, p0.1 q0, c1.1⟩
  · rintro ⟨c1, c2, c3⟩ pk hpk hni
    obtain ⟨b, a1, p1⟩ := h pk hpk
    refine ⟨b, a1, p1.2 ?_⟩
    rcases b with _ | _
    · exact c2
    · refine ⟨c3, c1, ?_⟩
      obtain ⟨A, hA⟩ := valid_iff.1 hpk.g
      obtain ⟨B, hB⟩ := valid_iff.1 hpk.h
      refine rep_inf_false hA ?_
      rintro rfl
      have := (hfm hA hB).2
      rw [a1, smul_zero] at this
      by_cases hB0 : B = 0
      · exact hni ⟨(rep_inf hA).2 rfl, (rep_inf hB).2 hB0⟩
      · rw [if_neg hB0] at this
        cases this

/-- coins meeting the hypotheses, and degenerate ones -/
example : Coin 5 ∧ Coin 0 ∧ (do
    let d ← ctorMessy env0 (some 0) ⟨5, 5, 2, 3⟩
    let kp ← keyGen env0 d .b1 11
    findMessy env0 d kp.pk) = .ok .b1 := by
  refine ⟨by unfold Coin; decide, by unfold Coin; decide, by decide +kernel⟩

end Dme

namespace Ot

open Dme

/-- C34, exact: for all draws, the component of `encMsgs` on the branch that was not selected hides its message (it takes
every value, for every message, for exactly one choice of the sender's coins) exactly if the trapdoors differ, both
bases are finite and the key is not zero. -/
theorem C34_exact (env : Env) {c : Option Addr} (hl : LiveGen env c) {k : MessyCoins}
    (h0 : Coin k.e0) (h1 : Coin k.e1) (h2 : Coin k.g0) (h3 : Coin k.g1) (b : Branch) {sk : ℤ} (hsk : Coin sk) :
    Ends (ctorMessy env c k) fun d => Ends (selectMsg env (Recv.ctor d) b sk) fun sel =>
      ∀ s : Sndr, LiveGen env s.dme.curve → ValidCrs env s.dme.crs → SameCrs d.crs s.dme.crs →
      ((∀ mb : Pt, Valid env CC mb → ∀ kb : EncCoins,
        ∀ u mv mo : Pt, Valid env CC u → Valid env CC mv → Valid env CC mo →
        ∃! st : ℤ × ℤ, (Coin st.1 ∧ Coin st.2) ∧ ∃ res ct,
          encMsgs env s sel.1 (pick b mb mo) (pick b mo mb) (pick b kb ⟨st.1, st.2⟩) (pick b ⟨st.1, st.2⟩ kb) =
            .ok res ∧ index res.1 b.other = .ok ct ∧ SamePoint ct.u u ∧ SamePoint ct.mv mv) ↔
        k.e0 ≠ k.e1 ∧ k.g0 ≠ 0 ∧ k.g1 ≠ 0 ∧ sk ≠ 0) := by
  obtain ⟨d, e1, hd, -, -, r⟩ := ctorMessy_rep (env := env) hl k
  refine ⟨d, e1, ?_⟩
  have hlive : Live env d.curve := by rw [hd]; exact hl.live
  obtain ⟨pg, ph, f1, rg, rh⟩ := keyGen_rep hlive r b sk
  refine ⟨(⟨pg, ph⟩, { Recv.ctor d with sk := Fld.ofZ (sk : F), b := some b }),
    by simp only [selectMsg, Recv.ctor, f1, R.ok_bind], ?_⟩
  intro s hsl hsc hsame
  have rs := r.congr hsame hsc
  have hiff : ∀ mb : Pt, Valid env CC mb → ∀ kb : EncCoins, ∀ u mv mo : Pt, Valid env CC mo → ∀ st : ℤ × ℤ, (∃ res ct,
      encMsgs env s ⟨pg, ph⟩ (pick b mb mo) (pick b mo mb) (pick b kb ⟨st.1, st.2⟩) (pick b ⟨st.1, st.2⟩ kb) =
        .ok res ∧ index res.1 b.other = .ok ct ∧ SamePoint ct.u u ∧ SamePoint ct.mv mv) ↔
      ∃ ct, enc env s.dme ⟨pg, ph⟩ b.other mo st.1 st.2 = .ok ct ∧ SamePoint ct.u u ∧ SamePoint ct.mv mv := by
    intro mb hmb kb u mv mo hmo st
    obtain ⟨MB, hMB⟩ := valid_iff.1 hmb
    obtain ⟨MO, hMO⟩ := valid_iff.1 hmo
    obtain ⟨cb, -, fb, -⟩ := enc_rep (pk := ⟨pg, ph⟩) hsl.live rs rg rh hMB b kb.s kb.t
    obtain ⟨co, -, fo, -⟩ := enc_rep (pk := ⟨pg, ph⟩) hsl.live rs rg rh hMO b.other st.1 st.2
    rcases b with _ | _ <;>
    · simp only [pick, Branch.other] at fo ⊢
      simp only [encMsgs, fb, fo, R.ok_bind, Except.ok.injEq, exists_eq_left']
      constructor
      · rintro ⟨_, ct, rfl, h, h'⟩
        rw [index_pair] at h
        obtain rfl := Except.ok.inj h
        exact h'
      · intro h
        exact ⟨_, co, rfl, index_pair _ _ _, h⟩
  have hhide : (∀ mb : Pt, Valid env CC mb → ∀ kb : EncCoins,
        ∀ u mv mo : Pt, Valid env CC u → Valid env CC mv → Valid env CC mo →
        ∃! st : ℤ × ℤ, (Coin st.1 ∧ Coin st.2) ∧ ∃ res ct,
          encMsgs env s ⟨pg, ph⟩ (pick b mb mo) (pick b mo mb) (pick b kb ⟨st.1, st.2⟩) (pick b ⟨st.1, st.2⟩ kb) =
            .ok res ∧ index res.1 b.other = .ok ct ∧ SamePoint ct.u u ∧ SamePoint ct.mv mv) ↔
      Hides env s.dme ⟨pg, ph⟩ b.other := by
    constructor
    · intro h u mv mo hu hmv hmo
      have := h (Pt.infty CC) (valid_iff.2 ⟨0, rep_infty⟩) ⟨0, 0⟩ u mv mo hu hmv hmo
      simpa only [hiff _ (valid_iff.2 ⟨0, rep_infty⟩) _ u mv mo hmo] using this
    · intro h mb hmb kb u mv mo hu hmv hmo
      simpa only [hiff mb hmb kb u mv mo hmo] using h u mv mo hu hmv hmo
  refine hhide.trans ?_
  have hs0 : (sk : F) ≠ 0 ↔ sk ≠ 0 := not_congr (coin_zero_iff hsk)
  have key : ∀ {g0 g1 e0 e1 : ℤ}, Coin g0 → Coin g1 → Coin e0 → Coin e1 →
      ((g1 : F) • (G : Grp CC) ≠ 0 ∧ (sk : F) • (e0 : F) • (g0 : F) • (G : Grp CC) ≠
        (e1 : F) • (sk : F) • (g0 : F) • (G : Grp CC) ↔ g1 ≠ 0 ∧ e0 ≠ e1 ∧ g0 ≠ 0 ∧ sk ≠ 0) := by
    intro g0 g1 e0 e1 c0 c1 c2 c3
    rw [baseG_ne_zero c1, ← hs0, ← baseG_ne_zero c0]
    refine and_congr_right fun _ => ?_
    constructor
    · intro h
      refine ⟨fun h' => h (by rw [h']; module), fun h' => h (by rw [h']; simp only [smul_zero]), fun h' => h ?_⟩
      rw [h', zero_smulG, zero_smulG, smul_zero]
    · rintro ⟨a1, a2, a3⟩ h
      have h' : ((sk : F) * e0) • ((g0 : F) • (G : Grp CC)) = ((sk : F) * e1) • ((g0 : F) • (G : Grp CC)) := by
        rw [mul_smul, h]; module
      exact a1 (coin_cast_inj c2 c3 (mul_left_cancel₀ a3 ((smul_inj a2).1 h')))
  rcases b with _ | _
  · rw [hides_messy (pk := ⟨pg, ph⟩) (e := (k.e1 : F)) hsl rs rg rh rfl]
    refine (key h2 h3 h0 h1).trans ?_
    tauto
  · rw [hides_messy (pk := ⟨pg, ph⟩) (e := (k.e0 : F)) hsl rs rg rh rfl]
    refine (key h3 h2 h1 h0).trans ?_
    rw [ne_comm (a := k.e1)]
    tauto

example : Coin 5 ∧ Coin 7 ∧ Coin 2 ∧ Coin 3 ∧ Coin 11 := by unfold Coin; decide

end Ot
end Verif
