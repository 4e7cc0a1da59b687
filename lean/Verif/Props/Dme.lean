import Mathlib.Data.Set.Function
import Verif.Lemmas.Dme
import Verif.Props.Ecc

/-!
# C24 – C32: dual-mode encryption
-/

namespace Verif
namespace Dme

open EC

/-! ## Test data -/

/-- a debug-build environment with one curve object -/
abbrev tenv : Env := env0

theorem zero_coin : Coin 0 := ⟨le_rfl, by decide⟩

theorem coin_zero_iff {k : ℤ} (hk : Coin k) : (k : F) = 0 ↔ k = 0 := by
  constructor
  · intro h; exact coin_cast_inj hk zero_coin (by simpa using h)
  · rintro rfl; simp

theorem samePoint_refl (P : Pt) : SamePoint P P := by
  rcases h : P.inf with _ | _
  · exact .inr ⟨h, h, rfl, rfl⟩
  · exact .inl ⟨h, h⟩

theorem sameCrs_refl (c : Crs) : SameCrs c c :=
  ⟨samePoint_refl _, samePoint_refl _, samePoint_refl _, samePoint_refl _⟩

theorem ofZ_ne_zero_iff (k : F) : (Fld.ofZ k).value ≠ 0 ↔ k ≠ 0 := by
  rw [Fld.ofZ_value, Ne, Ne, Nat.cast_eq_zero, ZMod.val_eq_zero]

/-! ## C24 -/

/-- C24 (part): encryption is total, and decryption returns the message **exactly** when neither ciphertext
component is infinity and the secret key is not zero.  The encryptor may use another instance (and curve object)
holding the same CRS.
Missing: the remaining coins, for which the property fails (see `C24_zero_coins_counterexample`). -/
theorem C24_decrypts_partial (env : Env) {d d' : Inst} (hl : Live env d.curve) (hl' : Live env d'.curve)
    (hc : ValidCrs env d.crs) (hc' : ValidCrs env d'.crs) (hs : SameCrs d.crs d'.crs) (b : Branch) {m : Pt}
    (hm : Valid env CC m) (k s t : ℤ) :
    Ends (keyGen env d b k) fun kp =>
      ValidKey env kp.pk ∧ Ends (enc env d' kp.pk b m s t) fun c =>
        ValidCtxt env c ∧ (EqP env CC (dec env kp.sk c) (.ok m) ↔
          c.u.inf = false ∧ kp.sk.value ≠ 0 ∧ c.mv.inf = false) := by
  obtain ⟨g, h, r⟩ := hc.rep
  obtain ⟨M, hM⟩ := valid_iff.1 hm
  obtain ⟨pg, ph, e1, r1, r2⟩ := keyGen_rep hl r b k
  refine ⟨_, e1, ⟨r1.valid, r2.valid⟩, ?_⟩
  obtain ⟨c, v, e2, ru, rv, ha, rmv⟩ := enc_rep (pk := ⟨pg, ph⟩) hl' (r.congr hs hc') r1 r2 hM b s t
  refine ⟨c, e2, ⟨ru.valid, rmv.valid⟩, ?_⟩
  rw [ofZ_ne_zero_iff]
  refine dec_iff ru ?_ hM ha
  have : (s : F) • (k : F) • g b + (t : F) • (k : F) • h b = (k : F) • ((s : F) • g b + (t : F) • h b) := by
    module
  rwa [this] at rv

/-- C24 is false: with both encryption coins zero (a possible draw) no message is ever recovered, whatever the
CRS, branch, key and message. -/
theorem C24_zero_coins_counterexample (env : Env) {d : Inst} (hl : Live env d.curve)
    (hc : ValidCrs env d.crs) (b : Branch) {m : Pt} (hm : Valid env CC m) (k : ℤ) :
    Ends (keyGen env d b k) fun kp => Ends (enc env d kp.pk b m 0 0) fun c =>
      ¬ EqP env CC (dec env kp.sk c) (.ok m) := by
  obtain ⟨g, h, r⟩ := hc.rep
  obtain ⟨M, hM⟩ := valid_iff.1 hm
  obtain ⟨pg, ph, e1, r1, r2⟩ := keyGen_rep hl r b k
  refine ⟨_, e1, ?_⟩
  obtain ⟨c, v, e2, ru, rv, ha, rmv⟩ := enc_rep (pk := ⟨pg, ph⟩) hl r r1 r2 hM b 0 0
  refine ⟨c, e2, ?_⟩
  simp only [Int.cast_zero, zero_smulG, add_zero, zero_add] at ru rmv
  exact dec_zero_ne ru rmv (by simp) hM

/-- a concrete instance (messy mode with small draws) that encrypts and decrypts on branch 1 -/
example : (do
    let d ← ctorMessy tenv (some 0) ⟨5, 7, 2, 3⟩
    let kp ← keyGen tenv d .b1 11
    let m ← Curve.getRandomPoint tenv CC (some 0) 13
    let c ← enc tenv d kp.pk .b1 m 17 19
    let m' ← dec tenv kp.sk c
    m'.beq tenv CC m) = .ok true := by decide +kernel

/-! ## C25 -/

/-- C25 (part): ciphertexts on branch `b` carry no information about the message **exactly** when the key is not
a Diffie-Hellman pair for the branch and the branch of the CRS is not `(∞, ∞)`.
Missing: a CRS branch `(∞, ∞)`, for which the property fails (see `C25_infinite_crs_counterexample`). -/
theorem C25_hides_iff_partial (env : Env) {d : Inst} (hl : LiveGen env d.curve) (hc : ValidCrs env d.crs)
    {pk : PKey} (hpk : ValidKey env pk) (b : Branch) :
    Hides env d pk b ↔
      ¬ DhPair env d.crs pk b ∧ ¬ ((d.crs.g b).inf = true ∧ (d.crs.h b).inf = true) := by
  obtain ⟨g, h, r⟩ := hc.rep
  obtain ⟨A, hA⟩ := valid_iff.1 hpk.g
  obtain ⟨B, hB⟩ := valid_iff.1 hpk.h
  rw [hides_iff_det hl r hA hB, rep_inf (r.g b), rep_inf (r.h b)]

/-- C25 is false for a CRS branch `(∞, ∞)`: then `u` is always infinity, although no key with a finite component
is a Diffie-Hellman pair. -/
theorem C25_infinite_crs_counterexample (env : Env) {d : Inst} (hl : LiveGen env d.curve)
    (hc : ValidCrs env d.crs) {pk : PKey} (hpk : ValidKey env pk) (b : Branch)
    (hg : (d.crs.g b).inf = true) (hh : (d.crs.h b).inf = true) (hfin : pk.g.inf = false) :
    ¬ DhPair env d.crs pk b ∧ ¬ Hides env d pk b ∧
      ∀ m, Valid env CC m → ∀ s t, Ends (enc env d pk b m s t) fun c => c.u.inf = true := by
  refine ⟨?_, ?_, ?_⟩
  · obtain ⟨g, h, r⟩ := hc.rep
    obtain ⟨A, hA⟩ := valid_iff.1 hpk.g
    obtain ⟨B, hB⟩ := valid_iff.1 hpk.h
    rw [dhPair_iff r hA hB]
    rintro ⟨k, h1, -⟩
    rw [(rep_inf (r.g b)).1 hg, smul_zero] at h1
    rw [(rep_inf hA).2 h1] at hfin
    simp at hfin
  · rw [C25_hides_iff_partial env hl hc hpk]
    rintro ⟨-, h⟩
    exact h ⟨hg, hh⟩
  · intro m hm s t
    obtain ⟨g, h, r⟩ := hc.rep
    obtain ⟨A, hA⟩ := valid_iff.1 hpk.g
    obtain ⟨B, hB⟩ := valid_iff.1 hpk.h
    obtain ⟨M, hM⟩ := valid_iff.1 hm
    obtain ⟨c, v, e2, ru, -⟩ := enc_rep hl.live r hA hB hM b s t
    refine ⟨c, e2, ?_⟩
    change c.u.inf = true
    rw [rep_inf ru, (rep_inf (r.g b)).1 hg, (rep_inf (r.h b)).1 hh]
    simp

/-- the point `k * G` as an object of the test environment -/
def tpt (k : ℤ) : Pt := match Curve.getRandomPoint tenv CC (some 0) k with
  | .ok P => P
  | .error _ => Pt.infty CC

theorem tpt_rep (k : ℤ) : Rep tenv (tpt k) ((k : F) • (G : Grp CC)) := by
  obtain ⟨P, h1, h2⟩ := randomPoint_rep (C := CC) env0_liveGen k
  have : tpt k = P := by simp only [tpt, h1]
  rwa [this]

attribute [irreducible] tpt

/-- an instance with CRS `g = (G, 2G)`, `h = (3G, 4G)` -/
def tinst : Inst := ⟨some 0, none, Fld.zero CC.fn, Fld.zero CC.fn, Fld.zero CC.fn, ⟨tpt 1, tpt 2, tpt 3, tpt 4⟩⟩

theorem tinst_crs : RepCrs tenv tinst.crs
    (fun b => match b with | .b0 => ((1 : ℤ) : F) • (G : Grp CC) | .b1 => ((2 : ℤ) : F) • (G : Grp CC))
    (fun b => match b with | .b0 => ((3 : ℤ) : F) • (G : Grp CC) | .b1 => ((4 : ℤ) : F) • (G : Grp CC)) := by
  constructor
  · rintro (_ | _)
    · exact tpt_rep 1
    · exact tpt_rep 2
  · rintro (_ | _)
    · exact tpt_rep 3
    · exact tpt_rep 4

/-- the key `(5G, 6G)` is messy on branch 0 of that CRS -/
example : Hides tenv tinst ⟨tpt 5, tpt 6⟩ .b0 := by
  rw [hides_iff_det (d := tinst) env0_liveGen tinst_crs (tpt_rep 5) (tpt_rep 6),
    dhPair_iff tinst_crs (tpt_rep 5) (tpt_rep 6)]
  constructor
  · rintro ⟨k, h1, h2⟩
    simp only [smul_smul] at h1 h2
    rw [smul_inj G_ne_zero] at h1 h2
    have : ((9 : ℤ) : F) = ((0 : ℤ) : F) := by push_cast at h1 h2 ⊢; linear_combination 3 * h1 - h2
    exact absurd (coin_cast_inj ⟨by decide, by decide⟩ zero_coin this) (by decide)
  · rintro ⟨h1, -⟩
    have h1' : ((1 : ℤ) : F) • (G : Grp CC) = 0 := h1
    rw [Int.cast_one, one_smul] at h1'
    exact G_ne_zero h1'

/-! ## C26 -/

theorem findMessy_rep {env : Env} {d : Inst} {e : F} (he : d.e0 = Fld.ofZ e) {pk : PKey} {A B : Grp CC}
    (hA : Rep env pk.g A) (hB : Rep env pk.h B) :
    findMessy env d pk = .ok (if B = e • A then .b1 else .b0) := by
  obtain ⟨x, h1, h2⟩ := smulF_rep hA e
  rw [findMessy, he]
  simp only [h1, R.ok_bind, rep_beq hB h2]
  simp

/-- C26 (part): in a messy-mode instance with different trapdoors `e0 ≠ e1` and finite `g0`, `g1`, for every public
key other than `(∞, ∞)` `FindMessy` names a branch that hides the message.
Missing: the excluded keys and draws, for which it fails (see the counterexamples below). -/
theorem C26_findMessy_partial (env : Env) {c : Option Addr} (hl : LiveGen env c) {k : MessyCoins}
    (h0 : Coin k.e0) (h1 : Coin k.e1) (h2 : Coin k.g0) (h3 : Coin k.g1)
    (he : k.e0 ≠ k.e1) (hg0 : k.g0 ≠ 0) (hg1 : k.g1 ≠ 0) :
    Ends (ctorMessy env c k) fun d => ∀ pk, ValidKey env pk → ¬ (pk.g.inf = true ∧ pk.h.inf = true) →
      Ends (findMessy env d pk) fun b => Hides env d pk b := by
  obtain ⟨d, e1, hd, he0, -, r⟩ := ctorMessy_rep (env := env) hl k
  refine ⟨d, e1, fun pk hpk hni => ?_⟩
  obtain ⟨A, hA⟩ := valid_iff.1 hpk.g
  obtain ⟨B, hB⟩ := valid_iff.1 hpk.h
  refine ⟨_, findMessy_rep he0 hA hB, ?_⟩
  rw [rep_inf hA, rep_inf hB] at hni
  have hne0 : (k.g0 : F) • (G : Grp CC) ≠ 0 := by
    rw [Ne, smul_eq_zero, coin_zero_iff h2]; exact fun h => h.elim hg0 G_ne_zero
  have hne1 : (k.g1 : F) • (G : Grp CC) ≠ 0 := by
    rw [Ne, smul_eq_zero, coin_zero_iff h3]; exact fun h => h.elim hg1 G_ne_zero
  rw [hides_iff_det (by rwa [hd]) r hA hB, dhPair_iff r hA hB]
  by_cases hBA : B = (k.e0 : F) • A
  · rw [if_pos hBA]
    refine ⟨?_, fun h => hne1 h.1⟩
    rintro ⟨x, hx1, hx2⟩
    simp only at hx1 hx2
    -- B = e0 A = e1 A
    have hBA' : B = (k.e1 : F) • A := by rw [hx1, hx2]; module
    have hA0 : A ≠ 0 := by
      rintro rfl; apply hni; rw [hBA]; simp
    have := (smul_inj hA0).1 (hBA.symm.trans hBA')
    exact he (coin_cast_inj h0 h1 this)
  · rw [if_neg hBA]
    refine ⟨?_, fun h => hne0 h.1⟩
    rintro ⟨x, hx1, hx2⟩
    simp only at hx1 hx2
    apply hBA
    rw [hx1, hx2]; module

/-- C26 (part): for a key generated for branch `b` with a non-zero secret the other branch is named. -/
theorem C26_honest_partial (env : Env) {c : Option Addr} (hl : LiveGen env c) {k : MessyCoins}
    (h0 : Coin k.e0) (h1 : Coin k.e1) (h3 : Coin k.g1)
    (he : k.e0 ≠ k.e1) (hg1 : k.g1 ≠ 0) (b : Branch) {sk : ℤ} (hsk : Coin sk) (hsk0 : sk ≠ 0) :
    Ends (ctorMessy env c k) fun d => Ends (keyGen env d b sk) fun kp => findMessy env d kp.pk = .ok b.other := by
  obtain ⟨d, e1, hd, he0, -, r⟩ := ctorMessy_rep (env := env) hl k
  refine ⟨d, e1, ?_⟩
  obtain ⟨pg, ph, e2, r1, r2⟩ := keyGen_rep (by rw [hd]; exact hl.live) r b sk
  refine ⟨_, e2, ?_⟩
  change findMessy env d ⟨pg, ph⟩ = .ok b.other
  rw [findMessy_rep (pk := ⟨pg, ph⟩) he0 r1 r2]
  have hne1 : (k.g1 : F) • (G : Grp CC) ≠ 0 := by
    rw [Ne, smul_eq_zero, coin_zero_iff h3]; exact fun h => h.elim hg1 G_ne_zero
  rcases b with _ | _
  · rw [if_pos]; · rfl
    simp only; module
  · rw [if_neg]; · rfl
    simp only
    intro h
    have h' : (sk * k.e1 : F) • ((k.g1 : F) • (G : Grp CC)) = (sk * k.e0 : F) • ((k.g1 : F) • (G : Grp CC)) := by
      rw [mul_smul, h]; module
    rw [smul_inj hne1] at h'
    have hs : (sk : F) ≠ 0 := by rw [Ne, coin_zero_iff hsk]; exact hsk0
    exact he (coin_cast_inj h0 h1 (mul_left_cancel₀ hs h').symm)

/-- C26 is false for the public key `(∞, ∞)`: `FindMessy` names branch 1, which does not hide anything, in every
messy-mode instance. -/
theorem C26_infinite_key_counterexample (env : Env) {c : Option Addr} (hl : LiveGen env c) (k : MessyCoins) :
    Ends (ctorMessy env c k) fun d => findMessy env d ⟨Pt.infty CC, Pt.infty CC⟩ = .ok .b1 ∧
      ¬ Hides env d ⟨Pt.infty CC, Pt.infty CC⟩ .b1 := by
  obtain ⟨d, e1, hd, he0, -, r⟩ := ctorMessy_rep (env := env) hl k
  have hinf := rep_infty (env := env) (C := CC)
  refine ⟨d, e1, ?_, ?_⟩
  · rw [findMessy_rep (pk := ⟨Pt.infty CC, Pt.infty CC⟩) he0 hinf hinf]
    simp
  · rw [hides_iff_det (pk := ⟨Pt.infty CC, Pt.infty CC⟩) (by rwa [hd]) r hinf hinf,
      dhPair_iff (pk := ⟨Pt.infty CC, Pt.infty CC⟩) r hinf hinf]
    rintro ⟨h, -⟩
    exact h ⟨0, (zero_smulG _).symm, (zero_smulG _).symm⟩

/-- C26 is false when the two trapdoors coincide (a possible draw): for honest keys of branch 1 the branch named
is the receiver's own branch. -/
theorem C26_equal_trapdoors_counterexample (env : Env) {c : Option Addr} (hl : LiveGen env c) (k : MessyCoins)
    (he : k.e0 = k.e1) (sk : ℤ) :
    Ends (ctorMessy env c k) fun d => Ends (keyGen env d .b1 sk) fun kp =>
      findMessy env d kp.pk = .ok .b1 ∧ ¬ Hides env d kp.pk .b1 := by
  obtain ⟨d, e1, hd, he0, -, r⟩ := ctorMessy_rep (env := env) hl k
  refine ⟨d, e1, ?_⟩
  obtain ⟨pg, ph, e2, r1, r2⟩ := keyGen_rep (by rw [hd]; exact hl.live) r .b1 sk
  refine ⟨_, e2, ?_, ?_⟩
  · rw [findMessy_rep (pk := ⟨pg, ph⟩) he0 r1 r2, if_pos]
    simp only [he]; module
  · rw [hides_iff_det (pk := ⟨pg, ph⟩) (by rwa [hd]) r r1 r2, dhPair_iff (pk := ⟨pg, ph⟩) r r1 r2]
    rintro ⟨h, -⟩
    exact h ⟨(sk : F), rfl, rfl⟩

example : (do
    let d ← ctorMessy tenv (some 0) ⟨5, 7, 2, 3⟩
    let kp ← keyGen tenv d .b1 11
    findMessy tenv d kp.pk) = .ok .b0 := by decide +kernel

/-! ## C27 -/

/-- C27 (part): in a decryption-mode instance with non-zero trapdoor `y`, ciphertexts under a trapdoor key decrypt on
branch 0 with the first and on branch 1 with the second secret key, **exactly** for the non-degenerate coins of C24.
Missing: the degenerate coins and `y = 0`, for which it fails. -/
theorem C27_trapdoor_partial (env : Env) {c : Option Addr} (hl : LiveGen env c) {k : DecCoins}
    (hy : Coin k.y) (hy0 : k.y ≠ 0) (coin : ℤ) :
    Ends (ctorDec env c k) fun d => Ends (trapKeyGen env d coin) fun res =>
      ValidKey env res.1 ∧ ∀ (b : Branch) (m : Pt) (s t : ℤ), Valid env CC m →
        Ends (enc env d res.1 b m s t) fun ct =>
          let sk := match b with | .b0 => res.2.1 | .b1 => res.2.2
          (EqP env CC (dec env sk ct) (.ok m) ↔ ct.u.inf = false ∧ sk.value ≠ 0 ∧ ct.mv.inf = false) := by
  obtain ⟨d, e1, hd, hdy, r⟩ := ctorDec_rep (env := env) hl k
  refine ⟨d, e1, ?_⟩
  have hy' : (k.y : F) ≠ 0 := by rw [Ne, coin_zero_iff hy]; exact hy0
  have hlive : Live env d.curve := by rw [hd]; exact hl.live
  obtain ⟨pg, a1, a2⟩ := smulF_rep (r.g .b0) (coin : F)
  obtain ⟨ph, b1, b2⟩ := smulF_rep (r.h .b0) (coin : F)
  refine ⟨(⟨pg, ph⟩, Fld.ofZ (coin : F), Fld.ofZ ((coin : F) / (k.y : F))), ?_, ⟨a2.valid, b2.valid⟩, ?_⟩
  · have a1' : d.crs.g0.smul env CC (Fld.ofZ (coin : F)) = .ok pg := a1
    have b1' : d.crs.h0.smul env CC (Fld.ofZ (coin : F)) = .ok ph := b1
    simp only [trapKeyGen, getRandomScalar_ok hlive, R.ok_bind, a1', b1', hdy, Fld.div_ofZ env _ hy']
  · intro b m s t hm
    obtain ⟨M, hM⟩ := valid_iff.1 hm
    obtain ⟨ct, v, e2, ru, rv, ha, rmv⟩ := enc_rep (pk := ⟨pg, ph⟩) hlive r a2 b2 hM b s t
    refine ⟨ct, e2, ?_⟩
    rcases b with _ | _
    · simp only [ofZ_ne_zero_iff]
      refine dec_iff ru ?_ hM ha
      convert rv using 1
      simp only; module
    · simp only [ofZ_ne_zero_iff]
      refine dec_iff ru ?_ hM ha
      convert rv using 1
      simp only
      have e : ∀ A : Grp CC, ((coin : F) / (k.y : F)) • ((k.y : F) • A) = (coin : F) • A := by
        intro A; rw [smul_smul, div_mul_cancel₀ _ hy']
      rw [smul_add, smul_comm _ (s : F), e, smul_comm _ (t : F), smul_comm (k.e : F) (k.y : F), e]

/-- C27 is false for a zero trapdoor (a possible draw): `TrapKeyGen` is undefined. -/
theorem C27_zero_trapdoor_counterexample (env : Env) {c : Option Addr} (hl : LiveGen env c) {k : DecCoins}
    (hy0 : k.y = 0) (coin : ℤ) :
    Ends (ctorDec env c k) fun d => Faults (trapKeyGen env d coin) := by
  obtain ⟨d, e1, hd, hdy, r⟩ := ctorDec_rep (env := env) hl k
  refine ⟨d, e1, ?_⟩
  have hlive : Live env d.curve := by rw [hd]; exact hl.live
  obtain ⟨pg, a1, a2⟩ := smulF_rep (r.g .b0) (coin : F)
  obtain ⟨ph, b1, b2⟩ := smulF_rep (r.h .b0) (coin : F)
  have a1' : d.crs.g0.smul env CC (Fld.ofZ (coin : F)) = .ok pg := a1
  have b1' : d.crs.h0.smul env CC (Fld.ofZ (coin : F)) = .ok ph := b1
  refine ⟨.undefInverse, ?_⟩
  simp only [trapKeyGen, getRandomScalar_ok hlive, R.ok_bind, a1', b1', hdy, hy0, Int.cast_zero, Fld.div_ofZ_zero,
    R.error_bind]

example : (do
    let d ← ctorDec tenv (some 0) ⟨5, 2, 3⟩
    let (pk, _, sk1) ← trapKeyGen tenv d 11
    let m ← Curve.getRandomPoint tenv CC (some 0) 13
    let c ← enc tenv d pk .b1 m 17 19
    let m' ← dec tenv sk1 c
    m'.beq tenv CC m) = .ok true := by decide +kernel

/-! ## C28 -/

/-- C28: in a decryption-mode instance with non-zero trapdoor there is a bijection of the draw of `KeyGen` under
which both branches return equal public keys. -/
theorem C28_branch_hidden (env : Env) {c : Option Addr} (hl : LiveGen env c) {k : DecCoins}
    (hy : Coin k.y) (hy0 : k.y ≠ 0) :
    Ends (ctorDec env c k) fun d => ∃ φ : ℤ → ℤ, Set.BijOn φ {x | Coin x} {x | Coin x} ∧
      ∀ coin, Coin coin → ∃ k0 k1, keyGen env d .b1 coin = .ok k1 ∧ keyGen env d .b0 (φ coin) = .ok k0 ∧
        k0.pk.beq env k1.pk = .ok true := by
  obtain ⟨d, e1, hd, hdy, r⟩ := ctorDec_rep (env := env) hl k
  have hlive : Live env d.curve := by rw [hd]; exact hl.live
  have hy' : (k.y : F) ≠ 0 := by rw [Ne, coin_zero_iff hy]; exact hy0
  refine ⟨d, e1, fun x => (((x : F) * (k.y : F)).val : ℤ), ⟨?_, ?_, ?_⟩, ?_⟩
  · intro x _; exact coin_val _
  · intro x hx x' hx' h
    simp only at h
    have h2 : (x : F) * (k.y : F) = (x' : F) * (k.y : F) := by
      rw [← coin_val_cast ((x : F) * (k.y : F)), h, coin_val_cast]
    exact coin_cast_inj hx hx' (mul_right_cancel₀ hy' h2)
  · intro z hz
    refine ⟨(((z : F) / (k.y : F)).val : ℤ), coin_val _, ?_⟩
    simp only
    apply coin_cast_inj (coin_val _) hz
    rw [coin_val_cast, coin_val_cast, div_mul_cancel₀ _ hy']
  · intro coin _
    obtain ⟨pg, ph, f1, r1, r2⟩ := keyGen_rep hlive r .b1 coin
    obtain ⟨pg', ph', f2, r1', r2'⟩ := keyGen_rep hlive r .b0 (((coin : F) * (k.y : F)).val : ℤ)
    refine ⟨_, _, f1, f2, ?_⟩
    rw [coin_val_cast] at r1' r2'
    simp only [PKey.beq, andR, rep_beq r1' r1, rep_beq r2' r2, R.ok_bind]
    rw [if_pos (by rw [decide_eq_true_eq]; module)]
    congr 1
    rw [decide_eq_true_eq]; module

example : (do
    let d ← ctorDec tenv (some 0) ⟨5, 2, 3⟩
    let k1 ← keyGen tenv d .b1 11
    let k0 ← keyGen tenv d .b0 55
    k0.pk.beq tenv k1.pk) = .ok true := by decide +kernel

/-! ## C29 -/

/-- C29 (part): `Eval` is total and its result decrypts to the sum, for coins that leave both components finite.
Missing: degenerate coins (see the counterexample). -/
theorem C29_eval_partial (env : Env) {d d1 d2 : Inst} (hl : Live env d.curve) (hl1 : Live env d1.curve)
    (hl2 : Live env d2.curve) (hc : ValidCrs env d.crs) (hc1 : ValidCrs env d1.crs) (hc2 : ValidCrs env d2.crs)
    (hs1 : SameCrs d.crs d1.crs) (hs2 : SameCrs d.crs d2.crs) (b : Branch) {m1 m2 : Pt}
    (hm1 : Valid env CC m1) (hm2 : Valid env CC m2) (k s1 t1 s2 t2 : ℤ) :
    Ends (keyGen env d b k) fun kp => Ends (enc env d1 kp.pk b m1 s1 t1) fun c1 =>
      Ends (enc env d2 kp.pk b m2 s2 t2) fun c2 => Ends (eval env c1 c2) fun c =>
        ValidCtxt env c ∧ (c.u.inf = false → kp.sk.value ≠ 0 → c.mv.inf = false →
          EqP env CC (dec env kp.sk c) (m1.add env CC m2)) := by
  obtain ⟨g, h, r⟩ := hc.rep
  obtain ⟨M1, hM1⟩ := valid_iff.1 hm1
  obtain ⟨M2, hM2⟩ := valid_iff.1 hm2
  obtain ⟨pg, ph, e1, r1, r2⟩ := keyGen_rep hl r b k
  refine ⟨_, e1, ?_⟩
  obtain ⟨c1, v1, f1, ru1, -, -, rmv1⟩ := enc_rep (pk := ⟨pg, ph⟩) hl1 (r.congr hs1 hc1) r1 r2 hM1 b s1 t1
  refine ⟨c1, f1, ?_⟩
  obtain ⟨c2, v2, f2, ru2, -, -, rmv2⟩ := enc_rep (pk := ⟨pg, ph⟩) hl2 (r.congr hs2 hc2) r1 r2 hM2 b s2 t2
  refine ⟨c2, f2, ?_⟩
  obtain ⟨c, f3, ru, rmv⟩ := eval_rep ru1 rmv1 ru2 rmv2
  refine ⟨c, f3, ⟨ru.valid, rmv.valid⟩, fun hu hk hmv => ?_⟩
  rw [ofZ_ne_zero_iff] at hk
  have hu0 : (s1 : F) • g b + (t1 : F) • h b + ((s2 : F) • g b + (t2 : F) • h b) ≠ 0 :=
    fun h0 => by rw [(rep_inf ru).2 h0] at hu; simp at hu
  have hmv0 : (s1 : F) • (k : F) • g b + (t1 : F) • (k : F) • h b + M1 +
      ((s2 : F) • (k : F) • g b + (t2 : F) • (k : F) • h b + M2) ≠ 0 :=
    fun h0 => by rw [(rep_inf rmv).2 h0] at hmv; simp at hmv
  obtain ⟨m, f4, rm⟩ := dec_rep ru rmv (k := (k : F)) (fun h0 => by
    rcases smul_eq_zero.1 h0 with h | h
    · exact hk h
    · exact hu0 h) hmv0
  exact eqP_of_rep ⟨m, f4, rm⟩ (add_rep hM1 hM2) (by module)

/-- C29 is false for zero coins. -/
theorem C29_zero_coins_counterexample (env : Env) {d : Inst} (hl : Live env d.curve)
    (hc : ValidCrs env d.crs) (b : Branch) {m1 m2 : Pt} (hm1 : Valid env CC m1) (hm2 : Valid env CC m2) (k : ℤ) :
    Ends (keyGen env d b k) fun kp => Ends (enc env d kp.pk b m1 0 0) fun c1 =>
      Ends (enc env d kp.pk b m2 0 0) fun c2 => Ends (eval env c1 c2) fun c =>
        ¬ EqP env CC (dec env kp.sk c) (m1.add env CC m2) := by
  obtain ⟨g, h, r⟩ := hc.rep
  obtain ⟨M1, hM1⟩ := valid_iff.1 hm1
  obtain ⟨M2, hM2⟩ := valid_iff.1 hm2
  obtain ⟨pg, ph, e1, r1, r2⟩ := keyGen_rep hl r b k
  refine ⟨_, e1, ?_⟩
  obtain ⟨c1, v1, f1, ru1, -, -, rmv1⟩ := enc_rep (pk := ⟨pg, ph⟩) hl r r1 r2 hM1 b 0 0
  refine ⟨c1, f1, ?_⟩
  obtain ⟨c2, v2, f2, ru2, -, -, rmv2⟩ := enc_rep (pk := ⟨pg, ph⟩) hl r r1 r2 hM2 b 0 0
  refine ⟨c2, f2, ?_⟩
  obtain ⟨c, f3, ru, rmv⟩ := eval_rep ru1 rmv1 ru2 rmv2
  refine ⟨c, f3, ?_⟩
  simp only [Int.cast_zero, zero_smulG, add_zero, zero_add] at ru rmv
  obtain ⟨S, f4, rS⟩ := add_rep hM1 hM2
  rw [f4]
  exact dec_zero_ne ru rmv (by simp) rS

example : (do
    let d ← ctorMessy tenv (some 0) ⟨5, 7, 2, 3⟩
    let kp ← keyGen tenv d .b0 11
    let m ← Curve.getRandomPoint tenv CC (some 0) 13
    let c ← enc tenv d kp.pk .b0 m 17 19
    let c' ← enc tenv d kp.pk .b0 m 23 29
    let m' ← dec tenv kp.sk (← eval tenv c c')
    m'.beq tenv CC (← m.add tenv CC m)) = .ok true := by decide +kernel

/-! ## C30 -/

/-- C30: `encode` terminates for every integer and returns a finite point of the instance's curve, namely one whose
abscissa is the first abscissa at or after `1024 m`. -/
theorem C30_encode_terminates (env : Env) {d : Inst} (hl : Live env d.curve) (m : ℤ) :
    Ends (encode env d m) fun P => IsFinite env CC P ∧ P.curve = d.curve ∧
      ∃ k : ℕ, P.x.value ≡ m * 1024 + k [ZMOD CC.prime] ∧ IsAbscissa (m * 1024 + k) ∧
        ∀ i < k, ¬ IsAbscissa (m * 1024 + i) := by
  obtain ⟨k, P, h1, h2, h3, h4, h5, h6, h7⟩ := encode_ok hl m
  refine ⟨P, h4, h7, h5, k, ?_, h2, h3⟩
  rw [h6]
  exact Int.mod_modEq _ _

/-- C30 (part): for every `m` in range the round trip succeeds **exactly** when the curve has a point whose abscissa
lies in the window `[1024 m, 1024 m + 1023]`.
Missing: that every window contains an abscissa (about half of all field elements are abscissas, but this is not
provable for each window of 1024 consecutive values). -/
theorem C30_round_trip_partial (env : Env) {d : Inst} (hl : Live env d.curve) {m : ℤ} (h0 : 0 ≤ m)
    (hm : (m + 1) * 1024 ≤ CC.prime) :
    Ends (encode env d m) fun P => (decode P = m ↔ ∃ i : ℕ, i < 1024 ∧ IsAbscissa (m * 1024 + i)) := by
  obtain ⟨k, P, h1, h2, h3, h4, h5, h6, h7⟩ := encode_ok hl m
  refine ⟨P, h4, ?_⟩
  change decode P = m ↔ _
  have hp : CC.prime = (CC.fp : ℤ) := by decide
  rw [hp] at hm
  have hv : decode P = ((m * 1024 + k) % (CC.fp : ℤ)) / 1024 := by
    rw [decode, h6]; rfl
  rw [hv]
  generalize (CC.fp : ℤ) = p at *
  have h1' : (k : ℤ) < p := by
    have : ((CC.fp : ℕ) : ℤ) = p := by assumption
    omega
  constructor
  · intro hd
    refine ⟨k, ?_, h2⟩
    by_contra hk
    by_cases hw : m * 1024 + k < p
    · rw [Int.emod_eq_of_lt (by omega) hw] at hd
      omega
    · have : (m * 1024 + k) % p = m * 1024 + k - p := by
        rw [← Int.sub_emod_right, Int.emod_eq_of_lt (by omega) (by omega)]
      rw [this] at hd
      omega
  · rintro ⟨i, hi, ha⟩
    have hk : k ≤ i := by
      by_contra h
      exact h3 i (by omega) ha
    rw [Int.emod_eq_of_lt (by omega) (by omega)]
    omega

/-- every integer up to 3 is encoded and decoded correctly -/
example : ∀ m ∈ [(0 : ℤ), 1, 2, 3], (do
    let P ← encode tenv tinst m
    .ok (decode P)) = .ok m := by decide +kernel

/-! ## C31 -/

/-- C31 (part): equal ciphertexts compare equal. Missing: unequal ciphertexts do not compare unequal. -/
theorem C31_equal_partial (env : Env) {c d : Ctxt} (hc : ValidCtxt env c)
    (_h : SamePoint c.u d.u ∧ SamePoint c.mv d.mv) : c.beq env d = .ok true := by
  obtain ⟨U, hU⟩ := valid_iff.1 hc.u
  obtain ⟨V, hV⟩ := valid_iff.1 hc.mv
  simp [Ctxt.beq, andR, rep_beq hU hU, rep_beq hV hV]

/-- C31 is false: **every** two valid ciphertexts compare equal. -/
theorem C31_counterexample (env : Env) {c d : Ctxt} (hc : ValidCtxt env c) : c.beq env d = .ok true := by
  obtain ⟨U, hU⟩ := valid_iff.1 hc.u
  obtain ⟨V, hV⟩ := valid_iff.1 hc.mv
  simp [Ctxt.beq, andR, rep_beq hU hU, rep_beq hV hV]

/-- two different ciphertexts that compare equal -/
example : (⟨tpt 1, tpt 2⟩ : Ctxt).beq tenv ⟨tpt 3, tpt 4⟩ = .ok true ∧ ¬ SamePoint (tpt 1) (tpt 3) := by
  refine ⟨by decide +kernel, ?_⟩
  rw [samePoint_iff (tpt_rep 1) (tpt_rep 3), smul_inj G_ne_zero]
  intro h
  exact absurd (coin_cast_inj ⟨by decide, by decide⟩ ⟨by decide, by decide⟩ h) (by decide)

/-! ## C32 -/

theorem andR_ok (a b : Bool) : andR (.ok a) (.ok b) = .ok (a && b) := by cases a <;> rfl

theorem beq_same {env : Env} {P Q : Pt} (hP : Valid env CC P) (hQ : Valid env CC Q) :
    ∃ r, P.beq env CC Q = .ok r ∧ (r = true ↔ SamePoint P Q) := by
  obtain ⟨A, hA⟩ := valid_iff.1 hP
  obtain ⟨B, hB⟩ := valid_iff.1 hQ
  exact ⟨decide (A = B), rep_beq hA hB, by rw [decide_eq_true_eq, samePoint_iff hA hB]⟩

/-- C32: `==` on CRS is defined and true exactly when all four components are the same points. -/
theorem C32_crs_eq (env : Env) {c d : Crs} (hc : ValidCrs env c) (hd : ValidCrs env d) :
    Ends (c.beq env d) fun r => (r = true ↔ SameCrs c d) := by
  obtain ⟨r1, a1, b1⟩ := beq_same hc.g0 hd.g0
  obtain ⟨r2, a2, b2⟩ := beq_same hc.g1 hd.g1
  obtain ⟨r3, a3, b3⟩ := beq_same hc.h0 hd.h0
  obtain ⟨r4, a4, b4⟩ := beq_same hc.h1 hd.h1
  refine ⟨r1 && r2 && r3 && r4, by simp only [Crs.beq, a1, a2, a3, a4, andR_ok], ?_⟩
  simp only [Bool.and_eq_true, b1, b2, b3, b4]
  exact ⟨fun h => ⟨h.1.1.1, h.1.1.2, h.1.2, h.2⟩, fun h => ⟨⟨⟨h.g0, h.g1⟩, h.h0⟩, h.h1⟩⟩

/-- C32: `==` on public keys and key pairs. -/
theorem C32_key_eq (env : Env) {k l : KeyPair} (hk : ValidKey env k.pk) (hl : ValidKey env l.pk) :
    (Ends (k.pk.beq env l.pk) fun r => (r = true ↔ SamePoint k.pk.g l.pk.g ∧ SamePoint k.pk.h l.pk.h)) ∧
    (Ends (k.beq env l) fun r => (r = true ↔
      SamePoint k.pk.g l.pk.g ∧ SamePoint k.pk.h l.pk.h ∧ k.sk = l.sk)) := by
  obtain ⟨r1, a1, b1⟩ := beq_same hk.g hl.g
  obtain ⟨r2, a2, b2⟩ := beq_same hk.h hl.h
  have hsk : k.sk.beq l.sk = true ↔ k.sk = l.sk := by
    simp only [Fld.beq, Bool.and_eq_true, decide_eq_true_eq]
    exact ⟨fun h => by cases hk : k.sk; cases hl : l.sk; simp_all, fun h => by simp [h]⟩
  refine ⟨⟨r1 && r2, by simp only [PKey.beq, a1, a2, andR_ok], by simp [b1, b2]⟩,
    ⟨(r1 && r2) && k.sk.beq l.sk, by simp only [KeyPair.beq, PKey.beq, a1, a2, andR_ok], ?_⟩⟩
  simp only [Bool.and_eq_true, b1, b2, hsk, and_assoc]

/-- C32: an instance built from a CRS whose points lie on the curve, whatever their (possibly dangling) curve
pointers, holds a valid CRS with the same points that only refers to the instance's own curve object. -/
theorem C32_transport (env : Env) {c : Option Addr} (hl : Live env c) {crs : Crs}
    (h : OnCurve CC crs.g0 ∧ OnCurve CC crs.g1 ∧ OnCurve CC crs.h0 ∧ OnCurve CC crs.h1) :
    let d := ctorCrs c crs
    d.curve = c ∧ ValidCrs env d.crs ∧ SameCrs crs d.crs ∧
      d.crs.g0.curve = c ∧ d.crs.g1.curve = c ∧ d.crs.h0.curve = c ∧ d.crs.h1.curve = c := by
  obtain ⟨h1, h2, h3, h4⟩ := h
  obtain ⟨a1, b1⟩ := rep_setCurve (env := env) h1 hl
  obtain ⟨a2, b2⟩ := rep_setCurve (env := env) h2 hl
  obtain ⟨a3, b3⟩ := rep_setCurve (env := env) h3 hl
  obtain ⟨a4, b4⟩ := rep_setCurve (env := env) h4 hl
  exact ⟨rfl, ⟨a1, a2, a3, a4⟩, ⟨b1, b2, b3, b4⟩, rfl, rfl, rfl, rfl⟩

/-- a CRS referring to the dead object 9 becomes usable -/
example : (do
    let d ← ctorMessy tenv (some 0) ⟨5, 7, 2, 3⟩
    let d' := ctorCrs (some 0) (d.crs.updateCurve (some 9))
    let kp ← keyGen tenv d' .b1 11
    let c ← enc tenv d' kp.pk .b1 (← Curve.getRandomPoint tenv CC (some 0) 13) 17 19
    let m' ← dec tenv kp.sk c
    m'.beq tenv CC (← Curve.getRandomPoint tenv CC (some 0) 13)) = .ok true := by decide +kernel

end Dme
end Verif
