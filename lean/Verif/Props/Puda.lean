import Mathlib.Data.List.Forall2
import Mathlib.Algebra.BigOperators.Group.Finset.Basic
import Verif.Lemmas.Puda
import Verif.Lemmas.Dme
import Verif.Props.Ecc

/-!
# C37 – C40: PUDA
-/

namespace Verif
namespace Puda

open EC

theorem total_perm {ms ms' : List Msg} (h : ms.Perm ms') : total ms = total ms' := (h.map _).sum_eq

/-! ## C37 -/

/-- C37, exact result: for any number of users, any draws, any timestamp, with the ciphertexts (and any valid tags)
in any order, `Agg` returns the sum of the messages modulo the group order when that is below 65535, and 0
otherwise.  (With fewer than `2^240` users the sum is below the group order, so the reduction does nothing.) -/
theorem C37_exact (env : Env) {pp : Param} (hl1 : LiveGen env pp.curve1) (hl2 : LiveGen env pp.curve2) (k : Coins)
    (ms : List Msg) (hlen : k.users.length = ms.length) (t : ℤ) {tags : List Pt} (htags : ∀ x ∈ tags, Valid env CC x) :
    Ends (setup env pp k) fun s => Ends (encAll env s.1 t (s.2.ekv.zip ms)) fun cs =>
      ∀ cs', cs'.Perm cs → Ends (agg env s.1 s.2.ak cs' tags t) fun res =>
        (res.1.val : ℤ) = if (total ms : ℤ) % CC.order < 65535 then (total ms : ℤ) % CC.order else 0 := by
  obtain ⟨pp', v1, v2, e1, r, -, -⟩ := setup_rep hl1 hl2 k
  refine ⟨_, e1, ?_⟩
  obtain ⟨cs, As, e2, h2, h3⟩ := encAll_rep r t k.users ms hlen
  refine ⟨cs, e2, fun cs' hp => ?_⟩
  obtain ⟨As', h4, h5⟩ : ∃ As', List.Forall₂ (Rep env) cs' As' ∧ As'.Perm As :=
    List.perm_comp_forall₂ hp h2
  obtain ⟨Ts, h6⟩ : ∃ Ts : List (Grp CC), List.Forall₂ (Rep env) tags Ts := by
    clear hlen e1 e2 h2 h3 hp h4 h5
    induction tags with
    | nil => exact ⟨[], .nil⟩
    | cons x xs ih =>
      obtain ⟨T, hT⟩ := valid_iff.1 (htags x (by simp))
      obtain ⟨Ts, hTs⟩ := ih (fun y hy => htags y (by simp [hy]))
      exact ⟨T :: Ts, .cons hT hTs⟩
  obtain ⟨tg, e3, -⟩ := agg_rep r (-(k.users.map fun u : ℤ × ℤ => (u.1 : F)).sum) h4 h6 t
    (x := ((total ms : ℕ) : F)) (by rw [h5.sum_eq, h3]; module)
  refine ⟨_, e3, ?_⟩
  have ho : CC.order = (CC.fn : ℤ) := by decide
  rw [ho, ZMod.val_natCast]
  change (((if total ms % CC.fn < 65535 then Fin.ofNat 65536 (total ms % CC.fn) else 0 : Msg).val : ℕ) : ℤ) = _
  rw [← Int.natCast_mod]
  generalize total ms % CC.fn = v
  by_cases h : v < 65535
  · rw [if_pos h, if_pos (by omega)]
    simp only [Fin.ofNat, Nat.mod_eq_of_lt (show v < 65536 by omega)]
  · rw [if_neg h, if_neg (by omega)]
    rfl

/-- C37 (part): `Agg` returns the sum of the messages when that is below 65535.
Missing: the sum 65535, which fits in 16 bits but is not found (see `C37_counterexample`). -/
theorem C37_sum_partial (env : Env) {pp : Param} (hl1 : LiveGen env pp.curve1) (hl2 : LiveGen env pp.curve2) (k : Coins)
    (ms : List Msg) (hlen : k.users.length = ms.length) (t : ℤ) {tags : List Pt} (htags : ∀ x ∈ tags, Valid env CC x)
    (hsum : total ms < 65535) :
    Ends (setup env pp k) fun s => Ends (encAll env s.1 t (s.2.ekv.zip ms)) fun cs =>
      ∀ cs', cs'.Perm cs → Ends (agg env s.1 s.2.ak cs' tags t) fun res => res.1.val = total ms := by
  obtain ⟨s, e1, cs, e2, h⟩ := C37_exact env hl1 hl2 k ms hlen t htags
  refine ⟨s, e1, cs, e2, fun cs' hp => ?_⟩
  obtain ⟨res, e3, h'⟩ := h cs' hp
  refine ⟨res, e3, ?_⟩
  have ho : (65535 : ℤ) < CC.order := by decide
  rw [Int.emod_eq_of_lt (by omega) (by omega), if_pos (by omega)] at h'
  exact_mod_cast h'

/-- C37 is false: whenever the messages add up to 65535, which is a 16-bit number, `Agg` returns 0. -/
theorem C37_counterexample (env : Env) {pp : Param} (hl1 : LiveGen env pp.curve1) (hl2 : LiveGen env pp.curve2)
    (k : Coins) (ms : List Msg) (hlen : k.users.length = ms.length) (t : ℤ) {tags : List Pt}
    (htags : ∀ x ∈ tags, Valid env CC x) (hsum : total ms = 65535) :
    Ends (setup env pp k) fun s => Ends (encAll env s.1 t (s.2.ekv.zip ms)) fun cs =>
      ∀ cs', cs'.Perm cs → Ends (agg env s.1 s.2.ak cs' tags t) fun res => res.1.val = 0 := by
  obtain ⟨s, e1, cs, e2, h⟩ := C37_exact env hl1 hl2 k ms hlen t htags
  refine ⟨s, e1, cs, e2, fun cs' hp => ?_⟩
  obtain ⟨res, e3, h'⟩ := h cs' hp
  refine ⟨res, e3, ?_⟩
  have ho : (65535 : ℤ) < CC.order := by decide
  rw [hsum, Int.emod_eq_of_lt (by omega) (by simpa using ho), if_neg (by omega)] at h'
  exact_mod_cast h'

/-- three users, ciphertexts reversed; and messages meeting the hypothesis of the counterexample -/
example : (do
    let (pp, ks) ← setup env0 (ctor (some 0) (some 0)) ⟨77, 5, [(11, 12), (13, 14), (15, 16)]⟩
    let cs ← encAll env0 pp (-3) (ks.ekv.zip [1, 2, 3])
    let res ← agg env0 pp ks.ak cs.reverse [] (-3)
    .ok res.1.val) = .ok 6 := by decide +kernel
example : total [65000, 535] = 65535 := by decide

/-! ## C38 -/

/-- C38: the tag returned by `Agg` over all users' tags, in any order, satisfies the verification equation with the
sum of the messages, for every pairing. -/
theorem C38_tag_verifies (env : Env) {pp : Param} (hl1 : LiveGen env pp.curve1) (hl2 : LiveGen env pp.curve2) (k : Coins)
    (ms : List Msg) (hlen : k.users.length = ms.length) (t : ℤ) {A : Type} [AddCommGroup A] {e : Pt → Pt → A}
    (he : Pairing env e) :
    Ends (setup env pp k) fun s => Ends (encAll env s.1 t (s.2.ekv.zip ms)) fun cs =>
      Ends (tagAll env s.1 t (s.2.skv.zip ms)) fun tags =>
      ∀ tags', tags'.Perm tags → Ends (agg env s.1 s.2.ak cs tags' t) fun res =>
        VerifEq env e s.1 s.2.vk (total ms) res.2 t := by
  obtain ⟨pp', v1, v2, e1, r, hv1, hv2⟩ := setup_rep hl1 hl2 k
  refine ⟨_, e1, ?_⟩
  obtain ⟨cs, As, e2, h2, h3⟩ := encAll_rep r t k.users ms hlen
  obtain ⟨tags, Ts, e4, h4, h5⟩ := tagAll_rep r ((k.a : F).val : ℤ) t k.users ms hlen
  refine ⟨cs, e2, tags, e4, fun tags' hp => ?_⟩
  obtain ⟨Ts', h6, h7⟩ : ∃ Ts', List.Forall₂ (Rep env) tags' Ts' ∧ Ts'.Perm Ts :=
    List.perm_comp_forall₂ hp h4
  obtain ⟨tg, e3, htg⟩ := agg_rep r (-(k.users.map fun u : ℤ × ℤ => (u.1 : F)).sum) h2 h6 t
    (x := ((total ms : ℕ) : F)) (by rw [h3]; module)
  refine ⟨_, e3, ?_⟩
  obtain ⟨ht, f1, f2⟩ := smulI_rep r.hash t
  obtain ⟨gs, g1, g2⟩ := smulI_rep r.g1 (total ms : ℤ)
  refine ⟨ht, gs, f1, g1, ?_⟩
  obtain ⟨E, hE⟩ := he.hom hl1
  simp only
  rw [hE _ _ _ _ htg r.g2, hE _ _ _ _ f2 hv1, hE _ _ _ _ g2 hv2, h7.sum_eq, h5, map_add, AddMonoidHom.add_apply,
    hom_smul₂]
  congr 1
  rw [Int.cast_natCast, Int.cast_natCast, ZMod.natCast_zmod_val, ← hom_smul₂]
  congr 2
  module

/-- the pairing that multiplies discrete logarithms -/
theorem exists_pairing (env : Env) {c : Option Addr} (hl : LiveGen env c) :
    ∃ e : Pt → Pt → F, Pairing env e ∧ ∀ P Q, Rep env P (G : Grp CC) → Rep env Q (G : Grp CC) → e P Q ≠ 0 := by
  classical
  have hex : ∀ X : Grp CC, ∃ k : F, X = k • (G : Grp CC) := exists_smul G_ne_zero
  choose dl hdl using hex
  have hadd : ∀ X Y, dl (X + Y) = dl X + dl Y := by
    intro X Y
    rw [← smul_inj (G_ne_zero (C := CC)), ← hdl, add_smul, ← hdl, ← hdl]
  let g : Pt → Grp CC := fun P => if h : ∃ X : Grp CC, Rep env P X then h.choose else 0
  have hg : ∀ {P X}, Rep env P X → g P = X := by
    intro P X h
    have hx : ∃ X : Grp CC, Rep env P X := ⟨X, h⟩
    simp only [g, dif_pos hx]
    exact rep_unique hx.choose_spec h
  refine ⟨fun P Q => dl (g P) * dl (g Q), ⟨?_, ?_, ?_⟩, ?_⟩
  · intro P P' Q Q' h1 h2 h3 h4 h5 h6
    obtain ⟨X, hX⟩ := valid_iff.1 h1
    obtain ⟨Y, hY⟩ := valid_iff.1 h3
    simp only [hg hX, hg hY, hg (hX.congr h5 h2), hg (hY.congr h6 h4)]
  · intro P P' S Q h1 h2 h3 h4
    obtain ⟨X, hX⟩ := valid_iff.1 h1
    obtain ⟨Y, hY⟩ := valid_iff.1 h2
    obtain ⟨S', s1, s2⟩ := add_rep hX hY
    rw [h4] at s1
    obtain rfl := Except.ok.inj s1
    simp only [hg hX, hg hY, hg s2, hadd]
    ring
  · intro P Q Q' S h1 h2 h3 h4
    obtain ⟨X, hX⟩ := valid_iff.1 h2
    obtain ⟨Y, hY⟩ := valid_iff.1 h3
    obtain ⟨S', s1, s2⟩ := add_rep hX hY
    rw [h4] at s1
    obtain rfl := Except.ok.inj s1
    simp only [hg hX, hg hY, hg s2, hadd]
    ring
  · intro P Q hP hQ
    have h1 : dl (G : Grp CC) ≠ 0 := by
      intro h
      have := hdl (G : Grp CC)
      rw [h, zero_smulG] at this
      exact G_ne_zero this
    simp only [hg hP, hg hQ]
    exact mul_ne_zero h1 h1

/-- a non-degenerate pairing exists, so C38 and C39 are not about nothing -/
example : ∃ e : Pt → Pt → F, Pairing env0 e ∧
    ∀ P Q, Rep env0 P (G : Grp CC) → Rep env0 Q (G : Grp CC) → e P Q ≠ 0 := exists_pairing env0 env0_liveGen

/-! ## C39 -/

/-- C39 is false: for every non-degenerate pairing and every set-up whose secret `a` is not zero, the honest aggregate
tag with any other sum fails the verification equation, and `Verify` accepts it. -/
theorem C39_counterexample (env : Env) {pp : Param} (hl1 : LiveGen env pp.curve1) (hl2 : LiveGen env pp.curve2)
    (k : Coins) (ha : Coin k.a) (ha0 : k.a ≠ 0) (ms : List Msg) (hlen : k.users.length = ms.length) (t : ℤ)
    {A : Type} [AddCommGroup A] {e : Pt → Pt → A} (he : Pairing env e) :
    Ends (setup env pp k) fun s => e s.1.g1 s.1.g2 ≠ 0 → Ends (encAll env s.1 t (s.2.ekv.zip ms)) fun cs =>
      Ends (tagAll env s.1 t (s.2.skv.zip ms)) fun tags => Ends (agg env s.1 s.2.ak cs tags t) fun res =>
        ∀ wrong : Msg, ¬ (total ms : ℤ) ≡ wrong.val [ZMOD CC.order] →
          ¬ VerifEq env e s.1 s.2.vk wrong.val res.2 t ∧ verify s.2.vk wrong res.2 t = true := by
  obtain ⟨pp', v1, v2, e1, r, hv1, hv2⟩ := setup_rep hl1 hl2 k
  refine ⟨_, e1, fun hne => ?_⟩
  obtain ⟨cs, As, e2, h2, h3⟩ := encAll_rep r t k.users ms hlen
  obtain ⟨tags, Ts, e4, h4, h5⟩ := tagAll_rep r ((k.a : F).val : ℤ) t k.users ms hlen
  obtain ⟨tg, e3, htg⟩ := agg_rep r (-(k.users.map fun u : ℤ × ℤ => (u.1 : F)).sum) h2 h4 t
    (x := ((total ms : ℕ) : F)) (by rw [h3]; module)
  refine ⟨cs, e2, tags, e4, _, e3, fun wrong hw => ⟨?_, rfl⟩⟩
  rintro ⟨ht, gs, f1, g1, heq⟩
  obtain ⟨ht', f1', f2⟩ := smulI_rep r.hash t
  obtain ⟨gs', g1', g2⟩ := smulI_rep r.g1 ((wrong.val : ℕ) : ℤ)
  simp only at f1 g1 heq hne
  rw [f1] at f1'
  obtain rfl := Except.ok.inj f1'
  rw [g1] at g1'
  obtain rfl := Except.ok.inj g1'
  obtain ⟨E, hE⟩ := he.hom hl1
  rw [hE _ _ _ _ r.g1 r.g2] at hne
  rw [hE _ _ _ _ htg r.g2, hE _ _ _ _ f2 hv1, hE _ _ _ _ g2 hv2, h5, map_add, AddMonoidHom.add_apply,
    hom_smul₂, add_right_inj, ← hom_smul₂, Int.cast_natCast, Int.cast_natCast, ZMod.natCast_zmod_val] at heq
  have hz : (((total ms : ℕ) : F) - ((wrong.val : ℕ) : F)) * (k.a : F) ≠ 0 := by
    refine mul_ne_zero (fun h => hw ?_) (fun h => ha0 (Dme.coin_cast_inj ha ⟨le_rfl, by decide⟩ (by simpa using h)))
    have ho : CC.order = (CC.fn : ℤ) := by decide
    rw [ho, ← ZMod.intCast_eq_intCast_iff, Int.cast_natCast, Int.cast_natCast]
    exact sub_eq_zero.1 h
  have h6 : E (((((total ms : ℕ) : F) - ((wrong.val : ℕ) : F)) * (k.a : F)) • (G : Grp CC)) G = 0 := by
    have : ((((total ms : ℕ) : F) - ((wrong.val : ℕ) : F)) * (k.a : F)) • (G : Grp CC) =
      ((total ms : ℕ) : F) • (k.a : F) • (G : Grp CC) - (k.a : F) • ((wrong.val : ℕ) : F) • (G : Grp CC) := by module
    rw [this, map_sub, AddMonoidHom.sub_apply, heq, sub_self]
  generalize (((total ms : ℕ) : F) - ((wrong.val : ℕ) : F)) * (k.a : F) = z at hz h6
  apply hne
  have h7 : (G : Grp CC) = z⁻¹ • z • (G : Grp CC) := by rw [smul_smul, inv_mul_cancel₀ hz, one_smulG]
  calc E G G = E (z⁻¹ • z • G) G := by rw [← h7]
    _ = z⁻¹.val • E (z • G) G := by rw [hom_smul E]; rfl
    _ = 0 := by rw [h6, smul_zero]

/-- draws and a wrong sum meeting the hypotheses -/
example : Coin 5 ∧ ¬ ((total [1, 2, 3] : ℕ) : ℤ) ≡ ((7 : Msg).val : ℤ) [ZMOD CC.order] := by
  refine ⟨by unfold Coin; decide, by decide⟩

/-! ## C40 -/

theorem int_cast_ne_zero {t : ℤ} (ht : t ≠ 0) (ht1 : -2 ^ 31 ≤ t) (ht2 : t < 2 ^ 31) : (t : F) ≠ 0 := by
  rw [Ne, ZMod.intCast_zmod_eq_zero_iff_dvd]
  have : (2 ^ 31 : ℤ) < (CC.fn : ℤ) := by decide
  intro h
  rcases lt_or_gt_of_ne ht with h0 | h0
  · have := Int.le_of_dvd (by omega : (0 : ℤ) < -t) ((dvd_neg).2 h)
    omega
  · have := Int.le_of_dvd h0 h
    omega

/-- C40 (part): after a set-up with a finite hash point, for every `int` timestamp other than 0, every message and every
valid point there is exactly one encryption key under which the message is encrypted to that point.
Missing: timestamp 0, an infinite hash point and the relation between timestamps, where the property fails (see the
counterexamples). -/
theorem C40_hides_partial (env : Env) {pp : Param} (hl1 : LiveGen env pp.curve1) (hl2 : LiveGen env pp.curve2)
    (k : Coins) (hk : Coin k.hash) (hk0 : k.hash ≠ 0) :
    Ends (setup env pp k) fun s => ∀ (t : ℤ), t ≠ 0 → -2 ^ 31 ≤ t → t < 2 ^ 31 → ∀ (m : Msg) (c : Pt), Valid env CC c →
      ∃! ek : ℤ, Coin ek ∧ ∃ x, enc env s.1 (Fld.mk' CC.fn ek) m t = .ok x ∧ SamePoint x c := by
  obtain ⟨pp', v1, v2, e1, r, -, -⟩ := setup_rep hl1 hl2 k
  refine ⟨_, e1, fun t ht ht1 ht2 m c hc => ?_⟩
  obtain ⟨X, hX⟩ := valid_iff.1 hc
  have hz : (k.hash : F) ≠ 0 := fun h => hk0 (Dme.coin_cast_inj hk ⟨le_rfl, by decide⟩ (by simpa using h))
  have htz := int_cast_ne_zero ht ht1 ht2
  have hne : (t : F) • (k.hash : F) • (G : Grp CC) ≠ 0 := by
    intro h
    rcases smul_eq_zero.1 h with h | h
    · exact htz h
    rcases smul_eq_zero.1 h with h | h
    · exact hz h
    · exact G_ne_zero h
  have key : ∀ ek : ℤ, (∃ x, enc env pp' (Fld.mk' CC.fn ek) m t = .ok x ∧ SamePoint x c) ↔
      (ek : F) • (t : F) • (k.hash : F) • (G : Grp CC) = X - ((m.val : ℕ) : F) • (G : Grp CC) := by
    intro ek
    obtain ⟨x, f1, f2⟩ := enc_rep r (ek : F) m t
    rw [Fld.mk'_eq, f1, eq_sub_iff_add_eq, ← samePoint_iff f2 hX]
    constructor
    · rintro ⟨y, h, h'⟩
      obtain rfl := Except.ok.inj h
      exact h'
    · exact fun h => ⟨x, rfl, h⟩
  simp only [key]
  obtain ⟨z, hz⟩ := exists_smul hne (X - ((m.val : ℕ) : F) • (G : Grp CC))
  refine ⟨(z.val : ℤ), ⟨Dme.coin_val z, ?_⟩, ?_⟩
  · rw [Dme.coin_val_cast z, ← hz]
  · rintro y ⟨h1, h2⟩
    rw [hz, smul_inj hne] at h2
    exact Dme.coin_cast_inj h1 (Dme.coin_val z) (by rw [h2, Dme.coin_val_cast])

/-- C40 is false for timestamp 0, and for every timestamp when the hash point happens to be infinity: the ciphertext
is `g1 * m` under every key, it reveals the message to everybody. -/
theorem C40_reveals_counterexample (env : Env) {pp : Param} (hl1 : LiveGen env pp.curve1) (hl2 : LiveGen env pp.curve2)
    (k : Coins) (t : ℤ) (h : t = 0 ∨ k.hash = 0) (m : Msg) (ek : ℤ) :
    Ends (setup env pp k) fun s =>
      EqP env CC (enc env s.1 (Fld.mk' CC.fn ek) m t) (s.1.g1.smulZ env CC m.val) := by
  obtain ⟨pp', v1, v2, e1, r, -, -⟩ := setup_rep hl1 hl2 k
  refine ⟨_, e1, ?_⟩
  simp only
  rw [Fld.mk'_eq]
  refine eqP_of_rep (enc_rep r (ek : F) m t) (smulI_rep r.g1 _) ?_
  have hz : (t : F) • (k.hash : F) • (G : Grp CC) = 0 := by
    rcases h with rfl | h
    · rw [Int.cast_zero, zero_smulG]
    · rw [h, Int.cast_zero, zero_smulG, smul_zero]
  rw [hz, smul_zero, zero_add, Int.cast_natCast]

/-- C40 is false across timestamps: the ciphertext of a known message at one timestamp determines what every message
encrypts to at every other timestamp, so ciphertexts of one user do determine each other. -/
theorem C40_linked_counterexample (env : Env) {pp : Param} (hl1 : LiveGen env pp.curve1) (hl2 : LiveGen env pp.curve2)
    (k : Coins) (t : ℤ) (ht : t ≠ 0) (ht1 : -2 ^ 31 ≤ t) (ht2 : t < 2 ^ 31) (m : Msg) (ek ek' : ℤ) :
    Ends (setup env pp k) fun s =>
      EqP env CC (enc env s.1 (Fld.mk' CC.fn ek) m t) (enc env s.1 (Fld.mk' CC.fn ek') m t) →
      ∀ (t' : ℤ) (m' : Msg),
        EqP env CC (enc env s.1 (Fld.mk' CC.fn ek) m' t') (enc env s.1 (Fld.mk' CC.fn ek') m' t') := by
  obtain ⟨pp', v1, v2, e1, r, -, -⟩ := setup_rep hl1 hl2 k
  refine ⟨_, e1, fun h t' m' => ?_⟩
  simp only [Fld.mk'_eq] at h ⊢
  obtain ⟨x, f1, f2⟩ := enc_rep r (ek : F) m t
  obtain ⟨y, g1, g2⟩ := enc_rep r (ek' : F) m t
  obtain ⟨_, _, h1, h2, h3⟩ := h
  rw [f1] at h1
  rw [g1] at h2
  obtain rfl := Except.ok.inj h1
  obtain rfl := Except.ok.inj h2
  rw [rep_beq f2 g2, Except.ok.injEq, decide_eq_true_eq, add_left_inj] at h3
  have htz := int_cast_ne_zero ht ht1 ht2
  have h4 : (ek : F) • (k.hash : F) • (G : Grp CC) = (ek' : F) • (k.hash : F) • (G : Grp CC) := by
    have e : ∀ z : F, (t : F)⁻¹ • z • (t : F) • (k.hash : F) • (G : Grp CC) = z • (k.hash : F) • (G : Grp CC) := by
      intro z
      rw [smul_comm z, smul_smul _ (t : F), inv_mul_cancel₀ htz, one_smulG]
    rw [← e ek, h3, e]
  refine eqP_of_rep (enc_rep r (ek : F) m' t') (enc_rep r (ek' : F) m' t') ?_
  rw [smul_comm (ek : F) (t' : F), h4, smul_comm (ek' : F) (t' : F)]

/-- draws meeting the hypotheses, and a ciphertext at timestamp 0 -/
example : Coin 77 ∧ (99 : ℤ) ≠ 0 ∧ (-2 ^ 31 : ℤ) ≤ 99 ∧ (99 : ℤ) < 2 ^ 31 := by unfold Coin; decide
example : (do
    let (pp, _) ← setup env0 (ctor (some 0) (some 0)) ⟨77, 5, [(11, 12), (13, 14)]⟩
    let c ← enc env0 pp (Fld.mk' CC.fn 11) 7 0
    let c' ← enc env0 pp (Fld.mk' CC.fn 13) 7 0
    c.beq env0 CC c') = .ok true := by decide +kernel

end Puda
end Verif
