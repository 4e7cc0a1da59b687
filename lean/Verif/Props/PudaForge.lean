import Verif.Props.PudaMore

/-!
# C89, C90: tags made without the signing keys; a second `Setup`
-/

namespace Verif
namespace Puda

open EC

variable {env : Env}

/-! ## C89 -/

/-- What somebody without keys computes from two tags `T1`, `T2` and the timestamps and sums they belong to:
`T1 * x + T2 * y` with `x = (t s2 - t2 s) / (t1 s2 - t2 s1)` and `y = (t1 s - t s1) / (t1 s2 - t2 s1)`. -/
def forge (env : Env) (T1 T2 : Pt) (t1 s1 t2 s2 t s : ℤ) : R Pt := do
  let x ← (Fld.mk' CC.fn (t * s2 - t2 * s)).div env CC.fn (Fld.mk' CC.fn (t1 * s2 - t2 * s1))
  let y ← (Fld.mk' CC.fn (t1 * s - t * s1)).div env CC.fn (Fld.mk' CC.fn (t1 * s2 - t2 * s1))
  let A ← T1.smul env CC x
  let B ← T2.smul env CC y
  A.add env CC B

/-- the verification equation holds for the point the signing keys together would give -/
theorem verifEq_of_rep {A : Type} [AddCommGroup A] {e : Pt → Pt → A} (he : Pairing env e) {c : Option Addr}
    (hl : LiveGen env c) {pp : Param} {h a b : F} (r : RepParam env pp (h • (G : Grp CC))) {vk : VerifKey}
    (h1 : Rep env vk.vk1 (b • (G : Grp CC))) (h2 : Rep env vk.vk2 (a • (G : Grp CC))) {s t : ℤ} {T : Pt}
    (hT : Rep env T (b • (t : F) • h • (G : Grp CC) + (s : F) • a • (G : Grp CC))) : VerifEq env e pp vk s T t := by
  obtain ⟨ht, f1, f2⟩ := smulI_rep r.hash t
  obtain ⟨gs, g1, g2⟩ := smulI_rep r.g1 s
  refine ⟨ht, gs, f1, g1, ?_⟩
  obtain ⟨E, hE⟩ := he.hom hl
  rw [hE _ _ _ _ hT r.g2, hE _ _ _ _ f2 h1, hE _ _ _ _ g2 h2, map_add, AddMonoidHom.add_apply, hom_smul₂]
  congr 1
  rw [← hom_smul₂]
  congr 2
  module

/-- and for no other point if the pairing is not degenerate -/
theorem rep_of_verifEq {A : Type} [AddCommGroup A] {e : Pt → Pt → A} (he : Pairing env e) {c : Option Addr}
    (hl : LiveGen env c) {pp : Param} {h a b : F} (r : RepParam env pp (h • (G : Grp CC))) (hne : e pp.g1 pp.g2 ≠ 0)
    {vk : VerifKey} (h1 : Rep env vk.vk1 (b • (G : Grp CC))) (h2 : Rep env vk.vk2 (a • (G : Grp CC))) {s t : ℤ} {T : Pt}
    {X : Grp CC} (hT : Rep env T X) (hv : VerifEq env e pp vk s T t) :
    X = b • (t : F) • h • (G : Grp CC) + (s : F) • a • (G : Grp CC) := by
  obtain ⟨ht, gs, f1, g1, heq⟩ := hv
  obtain ⟨ht', f1', f2⟩ := smulI_rep r.hash t
  obtain ⟨gs', g1', g2⟩ := smulI_rep r.g1 s
  rw [f1] at f1'
  obtain rfl := Except.ok.inj f1'
  rw [g1] at g1'
  obtain rfl := Except.ok.inj g1'
  obtain ⟨E, hE⟩ := he.hom hl
  rw [hE _ _ _ _ r.g1 r.g2] at hne
  rw [hE _ _ _ _ hT r.g2, hE _ _ _ _ f2 h1, hE _ _ _ _ g2 h2, ← hom_smul₂, ← hom_smul₂, ← AddMonoidHom.add_apply,
    ← map_add, ← sub_eq_zero, ← AddMonoidHom.sub_apply, ← map_sub] at heq
  obtain ⟨z, hz⟩ := exists_smul (C := CC) G_ne_zero
    (X - (b • (t : F) • h • (G : Grp CC) + a • (s : F) • (G : Grp CC)))
  rw [hz] at heq
  by_cases h0 : z = 0
  · rw [h0, zero_smulG, sub_eq_zero] at hz
    rw [hz]
    module
  · refine absurd ?_ hne
    have h7 : (G : Grp CC) = z⁻¹ • z • (G : Grp CC) := by rw [smul_smul, inv_mul_cancel₀ h0, one_smulG]
    calc E G G = E (z⁻¹ • z • G) G := by rw [← h7]
      _ = z⁻¹.val • E (z • G) G := by rw [hom_smul E]; rfl
      _ = 0 := by rw [heq, smul_zero]

/-- the aggregate of all tags of a set-up, as a group element -/
theorem aggTag_rep {pp : Param} {h : F} (r : RepParam env pp (h • (G : Grp CC))) (k : Coins) (ms : List Msg)
    (hlen : k.users.length = ms.length) (t : ℤ) :
    ∃ cs tags res, encAll env pp t ((k.users.map fun u : ℤ × ℤ => Fld.ofZ (u.1 : F)).zip ms) = .ok cs ∧
      tagAll env pp t ((k.users.map fun u : ℤ × ℤ => (⟨((k.a : F).val : ℤ), Fld.ofZ (u.2 : F)⟩ : SignKey)).zip ms) = .ok tags ∧
      agg env pp (Fld.ofZ (-(k.users.map fun u : ℤ × ℤ => (u.1 : F)).sum)) cs tags t = .ok res ∧
      Rep env res.2 ((k.users.map fun u : ℤ × ℤ => (u.2 : F)).sum • (t : F) • h • (G : Grp CC) +
        ((total ms : ℕ) : F) • (k.a : F) • (G : Grp CC)) := by
  obtain ⟨cs, As, e2, h2, h3⟩ := encAll_rep r t k.users ms hlen
  obtain ⟨tags, Ts, e4, h4, h5⟩ := tagAll_rep r ((k.a : F).val : ℤ) t k.users ms hlen
  obtain ⟨tg, e3, htg⟩ := agg_rep r (-(k.users.map fun u : ℤ × ℤ => (u.1 : F)).sum) h2 h4 t
    (x := ((total ms : ℕ) : F)) (by rw [h3]; module)
  refine ⟨cs, tags, _, e2, e4, e3, ?_⟩
  rw [h5, Int.cast_natCast, ZMod.natCast_zmod_val] at htg
  exact htg

/-- C89 is false: the aggregates of two timestamps are enough to make, without any key, a tag that satisfies the
verification equation for **every** sum at **every** timestamp.  The only exception are aggregates whose sums are in the
ratio of their timestamps. -/
theorem C89_forgery_counterexample (env : Env) {pp : Param} (hl1 : LiveGen env pp.curve1)
    (hl2 : LiveGen env pp.curve2) (k : Coins) (ms1 ms2 : List Msg) (hlen1 : k.users.length = ms1.length)
    (hlen2 : k.users.length = ms2.length) (t1 t2 : ℤ)
    (hd : ¬ CC.order ∣ t1 * total ms2 - t2 * total ms1) :
    Ends (setup env pp k) fun s =>
      Ends (encAll env s.1 t1 (s.2.ekv.zip ms1)) fun cs1 => Ends (tagAll env s.1 t1 (s.2.skv.zip ms1)) fun tags1 =>
      Ends (encAll env s.1 t2 (s.2.ekv.zip ms2)) fun cs2 => Ends (tagAll env s.1 t2 (s.2.skv.zip ms2)) fun tags2 =>
      Ends (agg env s.1 s.2.ak cs1 tags1 t1) fun res1 => Ends (agg env s.1 s.2.ak cs2 tags2 t2) fun res2 =>
        ∀ t sum : ℤ, Ends (forge env res1.2 res2.2 t1 (total ms1) t2 (total ms2) t sum) fun T =>
          Valid env CC T ∧ ∀ (A : Type) [AddCommGroup A] (e : Pt → Pt → A), Pairing env e →
            VerifEq env e s.1 s.2.vk sum T t := by
  obtain ⟨pp', v1, v2, e1, r, hv1, hv2⟩ := setup_rep hl1 hl2 k
  obtain ⟨cs1, tags1, res1, a1, b1, d1, r1⟩ := aggTag_rep r k ms1 hlen1 t1
  obtain ⟨cs2, tags2, res2, a2, b2, d2, r2⟩ := aggTag_rep r k ms2 hlen2 t2
  refine ⟨_, e1, cs1, a1, tags1, b1, cs2, a2, tags2, b2, res1, d1, res2, d2, fun t sum => ?_⟩
  have hD : ((t1 * total ms2 - t2 * total ms1 : ℤ) : F) ≠ 0 := by
    rw [Ne, ZMod.intCast_zmod_eq_zero_iff_dvd]
    exact hd
  obtain ⟨A, f1, f2⟩ := smulF_rep r1 (((t * total ms2 - t2 * sum : ℤ) : F) / ((t1 * total ms2 - t2 * total ms1 : ℤ) : F))
  obtain ⟨B, g1, g2⟩ := smulF_rep r2 (((t1 * sum - t * total ms1 : ℤ) : F) / ((t1 * total ms2 - t2 * total ms1 : ℤ) : F))
  obtain ⟨T, c1, c2⟩ := add_rep f2 g2
  refine ⟨T, by simp only [forge, Fld.mk'_eq, Fld.div_ofZ env _ hD, R.ok_bind, f1, g1, c1], valid_iff.2 ⟨_, c2⟩, ?_⟩
  intro A _ e he
  refine verifEq_of_rep he hl1 r hv1 hv2 ?_
  convert c2 using 1
  set b := (k.users.map fun u : ℤ × ℤ => (u.2 : F)).sum
  set D := ((t1 * total ms2 - t2 * total ms1 : ℤ) : F) with hDD
  simp only [smul_smul, ← add_smul]
  congr 1
  push_cast at hDD ⊢
  field_simp
  rw [hDD]
  ring

/-- C89 is false already for one aggregate: `x` times its tag satisfies the verification equation for `x` times the sum
at `x` times the timestamp. -/
theorem C89_scaling_counterexample (env : Env) {pp : Param} (hl1 : LiveGen env pp.curve1)
    (hl2 : LiveGen env pp.curve2) (k : Coins) (ms : List Msg) (hlen : k.users.length = ms.length) (t x : ℤ) :
    Ends (setup env pp k) fun s => Ends (encAll env s.1 t (s.2.ekv.zip ms)) fun cs =>
      Ends (tagAll env s.1 t (s.2.skv.zip ms)) fun tags => Ends (agg env s.1 s.2.ak cs tags t) fun res =>
        Ends (res.2.smulZ env CC x) fun T => ∀ (A : Type) [AddCommGroup A] (e : Pt → Pt → A), Pairing env e →
          VerifEq env e s.1 s.2.vk (x * total ms) T (x * t) := by
  obtain ⟨pp', v1, v2, e1, r, hv1, hv2⟩ := setup_rep hl1 hl2 k
  obtain ⟨cs, tags, res, a1, b1, d1, r1⟩ := aggTag_rep r k ms hlen t
  obtain ⟨T, f1, f2⟩ := smulI_rep r1 x
  refine ⟨_, e1, cs, a1, tags, b1, res, d1, T, f1, fun A _ e he => ?_⟩
  refine verifEq_of_rep he hl1 r hv1 hv2 ?_
  convert f2 using 1
  push_cast
  module

/-- C89 (part): for a pairing that is not degenerate, a tag satisfies the verification equation for a sum and a timestamp
exactly if it is the point `Tag` gives under the secret `a` and the sum of the users' keys, so there is one valid
tag for each sum and timestamp.
Missing: that it cannot be made without these keys (see the counterexamples). -/
theorem C89_unique_partial (env : Env) {pp : Param} (hl1 : LiveGen env pp.curve1) (hl2 : LiveGen env pp.curve2)
    (k : Coins) (sum : Msg) (t : ℤ) {T : Pt} (hT : Valid env CC T) {A : Type} [AddCommGroup A] {e : Pt → Pt → A}
    (he : Pairing env e) :
    Ends (setup env pp k) fun s => e s.1.g1 s.1.g2 ≠ 0 →
      Ends (tag env s.1 ⟨k.a, Fld.mk' CC.fn (k.users.map fun u : ℤ × ℤ => u.2).sum⟩ sum t) fun T' =>
        (VerifEq env e s.1 s.2.vk sum.val T t ↔ SamePoint T T') := by
  obtain ⟨pp', v1, v2, e1, r, hv1, hv2⟩ := setup_rep hl1 hl2 k
  refine ⟨_, e1, fun hne => ?_⟩
  have hs : (((k.users.map fun u : ℤ × ℤ => u.2).sum : ℤ) : F) = (k.users.map fun u : ℤ × ℤ => (u.2 : F)).sum := by
    induction k.users with
    | nil => simp
    | cons u us ih => simp [ih]
  obtain ⟨T', f1, f2⟩ := tag_rep r k.a (k.users.map fun u : ℤ × ℤ => (u.2 : F)).sum sum t
  refine ⟨T', by rw [Fld.mk'_eq, hs]; exact f1, ?_⟩
  obtain ⟨X, hX⟩ := valid_iff.1 hT
  rw [samePoint_iff hX f2]
  constructor
  · intro h
    have := rep_of_verifEq he hl1 r hne hv1 hv2 hX h
    rwa [Int.cast_natCast] at this
  · rintro rfl
    refine verifEq_of_rep he hl1 r hv1 hv2 ?_
    rwa [Int.cast_natCast]

/-- sums 3 and 5 at timestamps 1 and 2: a tag for the sum 1000 at timestamp 7 -/
example : ¬ CC.order ∣ (1 : ℤ) * total [1, 2] - 2 * total [2, 3] ∧ (do
    let (pp, ks) ← setup env0 (ctor (some 0) (some 0)) ⟨77, 5, [(11, 12), (13, 14)]⟩
    let tags1 ← tagAll env0 pp 1 (ks.skv.zip [1, 2])
    let tags2 ← tagAll env0 pp 2 (ks.skv.zip [2, 3])
    let T1 ← sumLoop env0 (Pt.infty CC) tags1
    let T2 ← sumLoop env0 (Pt.infty CC) tags2
    let T ← forge env0 T1 T2 1 3 2 5 7 1000
    let T' ← tag env0 pp ⟨5, Fld.mk' CC.fn 26⟩ 1000 7
    T.beq env0 CC T') = .ok true := by
  refine ⟨by decide, by decide +kernel⟩

/-! ## C90 -/

theorem setup_curves {pp pp' : Param} {k : Coins} {K : Keys} (h : setup env pp k = .ok (pp', K)) :
    pp'.curve1 = pp.curve1 ∧ pp'.curve2 = pp.curve2 := by
  simp only [setup, R.bind_eq_ok] at h
  obtain ⟨g1, -, g2, -, hash, -, af, -, ⟨ekv, skv, ak, tks⟩, -, w1, -, w2, -, h⟩ := h
  obtain ⟨rfl, -⟩ := Prod.mk.inj (Except.ok.inj h)
  exact ⟨rfl, rfl⟩

/-- C90: after a second `Setup` the keys of the first one still work with each other: `Agg` returns the same as in C37,
and the tags satisfy the verification equation under the first verification key. -/
theorem C90_old_keys (env : Env) {pp : Param} (hl1 : LiveGen env pp.curve1) (hl2 : LiveGen env pp.curve2) (k k' : Coins)
    (ms : List Msg) (hlen : k.users.length = ms.length) (t : ℤ) :
    Ends (setup env pp k) fun s => Ends (setup env s.1 k') fun s' =>
      Ends (encAll env s'.1 t (s.2.ekv.zip ms)) fun cs => Ends (tagAll env s'.1 t (s.2.skv.zip ms)) fun tags =>
      Ends (agg env s'.1 s.2.ak cs tags t) fun res =>
        (res.1.val : ℤ) = (if (total ms : ℤ) % CC.order < 65535 then (total ms : ℤ) % CC.order else 0) ∧
        ∀ (A : Type) [AddCommGroup A] (e : Pt → Pt → A), Pairing env e →
          VerifEq env e s'.1 s.2.vk (total ms) res.2 t := by
  obtain ⟨pp1, v1, v2, e1, r, hv1, hv2⟩ := setup_rep hl1 hl2 k
  obtain ⟨c1, c2⟩ := setup_curves e1
  obtain ⟨pp2, w1, w2, e2, r', -, -⟩ := setup_rep (by rw [c1]; exact hl1) (by rw [c2]; exact hl2) k'
  obtain ⟨cs, As, a2, h2, h3⟩ := encAll_rep r' t k.users ms hlen
  obtain ⟨tags, Ts, a4, h4, h5⟩ := tagAll_rep r' ((k.a : F).val : ℤ) t k.users ms hlen
  obtain ⟨tg, a3, htg⟩ := agg_rep r' (-(k.users.map fun u : ℤ × ℤ => (u.1 : F)).sum) h2 h4 t
    (x := ((total ms : ℕ) : F)) (by rw [h3]; module)
  refine ⟨_, e1, _, e2, cs, a2, tags, a4, _, a3, ?_, fun A _ e he => ?_⟩
  · have ho : CC.order = (CC.fn : ℤ) := by decide
    rw [ho, ZMod.val_natCast]
    change (((if total ms % CC.fn < 65535 then Fin.ofNat 65536 (total ms % CC.fn) else 0 : Msg).val : ℕ) : ℤ) = _
    rw [← Int.natCast_mod]
    generalize total ms % CC.fn = v
    by_cases h : v < 65535
    · rw [if_pos h, if_pos (by omega)]
      simp only [Fin.ofNat, Nat.mod_eq_of_lt (show v < 65536 by omega)]
    · rw [if_neg h, if_neg (by omega)]
      rfl
  · refine verifEq_of_rep he hl1 r' hv1 hv2 ?_
    rw [h5, Int.cast_natCast, ZMod.natCast_zmod_val] at htg
    rwa [Int.cast_natCast]

/-- what `Agg` makes of ciphertexts that were made with another hash or key -/
theorem agg_iff {pp : Param} {h : F} (r : RepParam env pp (h • (G : Grp CC))) {cs tags : List Pt} {As : List (Grp CC)}
    (hcs : List.Forall₂ (Rep env) cs As) (htags : ∀ x ∈ tags, Valid env CC x) (t : ℤ) (ak z : F) {n : ℕ} (h0 : 0 < n)
    (h1 : n < 65535) (hz : As.sum + ak • (t : F) • h • (G : Grp CC) = (n : F) • (G : Grp CC) + z • (G : Grp CC)) :
    Ends (agg env pp (Fld.ofZ ak) cs tags t) fun res => res.1.val = n ↔ z = 0 := by
  obtain ⟨Ts, hT⟩ := reps_of_valid htags
  obtain ⟨tg, e3, -⟩ := agg_rep r ak hcs hT t (x := (n : F) + z) (by rw [hz, add_smul])
  refine ⟨_, e3, ?_⟩
  dsimp only
  have hm : (Fin.ofNat 65536 n : Msg).val = n := Nat.mod_eq_of_lt (by omega)
  have h4 := pick_iff (x := (n : F) + z) (m := Fin.ofNat 65536 n) (by rw [Ne, Fin.ext_iff, hm]; exact h0.ne')
    (by rw [hm]; exact h1)
  rw [Fin.ext_iff, hm] at h4
  rw [h4]
  exact ⟨fun h => by simpa using h, fun h => by simp [h]⟩

/-- C90: ciphertexts made before the second `Setup` and aggregated after it with the first aggregation key.  `Agg`
returns their sum exactly if the timestamp is 0, both set-ups drew the same hash or the keys add up to 0. -/
theorem C90_old_ciphertexts (env : Env) {pp : Param} (hl1 : LiveGen env pp.curve1) (hl2 : LiveGen env pp.curve2)
    (k k' : Coins) (hk : Coin k.hash) (hk' : Coin k'.hash) (ms : List Msg) (hlen : k.users.length = ms.length)
    (h0 : 0 < total ms) (h1 : total ms < 65535) (t : ℤ) (ht : -2 ^ 31 ≤ t ∧ t < 2 ^ 31) {tags : List Pt}
    (htags : ∀ x ∈ tags, Valid env CC x) :
    Ends (setup env pp k) fun s => Ends (setup env s.1 k') fun s' =>
      Ends (encAll env s.1 t (s.2.ekv.zip ms)) fun cs => Ends (agg env s'.1 s.2.ak cs tags t) fun res =>
        res.1.val = total ms ↔
          t = 0 ∨ k.hash = k'.hash ∨ CC.order ∣ (k.users.map fun u : ℤ × ℤ => u.1).sum := by
  obtain ⟨pp1, v1, v2, e1, r, -, -⟩ := setup_rep hl1 hl2 k
  obtain ⟨c1, c2⟩ := setup_curves e1
  obtain ⟨pp2, w1, w2, e2, r', -, -⟩ := setup_rep (by rw [c1]; exact hl1) (by rw [c2]; exact hl2) k'
  obtain ⟨cs, As, a2, h2, h3⟩ := encAll_rep r t k.users ms hlen
  refine ⟨_, e1, _, e2, cs, a2, ?_⟩
  set E := (k.users.map fun u : ℤ × ℤ => (u.1 : F)).sum with hE
  obtain ⟨res, a3, h4⟩ := agg_iff r' h2 htags t (-E) (E * ((t : F) * ((k.hash : F) - k'.hash))) h0 h1
    (by rw [h3]; module)
  refine ⟨res, a3, ?_⟩
  dsimp only
  rw [h4, mul_eq_zero, mul_eq_zero, sub_eq_zero, hE, sum_ne_zero_iff]
  have hh : (k.hash : F) = k'.hash ↔ k.hash = k'.hash := ⟨fun h => Dme.coin_cast_inj hk hk' h, fun h => by rw [h]⟩
  have hd : (t : F) = 0 ↔ t = 0 :=
    ⟨fun h => by_contra fun h' => int_cast_ne_zero h' ht.1 ht.2 h, fun h => by simp [h]⟩
  rw [hh, hd]
  tauto

/-- C90: ciphertexts made after the second `Setup` with its keys, aggregated with the aggregation key of the first.
`Agg` returns their sum exactly if the timestamp is 0, the second hash is infinity or the users' keys of both set-ups
have the same sum. -/
theorem C90_old_agg_key (env : Env) {pp : Param} (hl1 : LiveGen env pp.curve1) (hl2 : LiveGen env pp.curve2)
    (k k' : Coins) (hk' : Coin k'.hash) (ms : List Msg) (hlen : k'.users.length = ms.length)
    (h0 : 0 < total ms) (h1 : total ms < 65535) (t : ℤ) (ht : -2 ^ 31 ≤ t ∧ t < 2 ^ 31) {tags : List Pt}
    (htags : ∀ x ∈ tags, Valid env CC x) :
    Ends (setup env pp k) fun s => Ends (setup env s.1 k') fun s' =>
      Ends (encAll env s'.1 t (s'.2.ekv.zip ms)) fun cs => Ends (agg env s'.1 s.2.ak cs tags t) fun res =>
        res.1.val = total ms ↔ t = 0 ∨ k'.hash = 0 ∨
          (k.users.map fun u : ℤ × ℤ => u.1).sum ≡ (k'.users.map fun u : ℤ × ℤ => u.1).sum [ZMOD CC.order] := by
  obtain ⟨pp1, v1, v2, e1, r, -, -⟩ := setup_rep hl1 hl2 k
  obtain ⟨c1, c2⟩ := setup_curves e1
  obtain ⟨pp2, w1, w2, e2, r', -, -⟩ := setup_rep (by rw [c1]; exact hl1) (by rw [c2]; exact hl2) k'
  obtain ⟨cs, As, a2, h2, h3⟩ := encAll_rep r' t k'.users ms hlen
  refine ⟨_, e1, _, e2, cs, a2, ?_⟩
  have hs : ∀ us : List (ℤ × ℤ), (us.map fun u : ℤ × ℤ => (u.1 : F)).sum = (((us.map fun u : ℤ × ℤ => u.1).sum : ℤ) : F) := by
    intro us
    induction us with
    | nil => simp
    | cons u us ih => simp [ih]
  rw [hs] at h3
  simp only [hs]
  set E := (((k.users.map fun u : ℤ × ℤ => u.1).sum : ℤ) : F) with hE
  set E' := (((k'.users.map fun u : ℤ × ℤ => u.1).sum : ℤ) : F) with hE'
  obtain ⟨res, a3, h4⟩ := agg_iff r' h2 htags t (-E) ((E' - E) * ((t : F) * (k'.hash : F))) h0 h1
    (by rw [h3]; module)
  refine ⟨res, a3, ?_⟩
  dsimp only
  rw [h4, mul_eq_zero, mul_eq_zero, sub_eq_zero, hE, hE', ZMod.intCast_eq_intCast_iff,
    show (CC.order : ℤ) = (CC.fn : ℤ) by decide]
  have hh : (k'.hash : F) = 0 ↔ k'.hash = 0 :=
    ⟨fun h => Dme.coin_cast_inj hk' ⟨le_rfl, by decide⟩ (by simpa using h), fun h => by simp [h]⟩
  have hd : (t : F) = 0 ↔ t = 0 :=
    ⟨fun h => by_contra fun h' => int_cast_ne_zero h' ht.1 ht.2 h, fun h => by simp [h]⟩
  rw [hh, hd, show ∀ a b n : ℤ, (a ≡ b [ZMOD n]) = (b ≡ a [ZMOD n]) from fun a b n => propext ⟨.symm, .symm⟩]
  tauto

/-- the keys of the first set-up after the second one -/
example : Coin 77 ∧ Coin 78 ∧ 0 < total [1, 2] ∧ (do
    let (pp, ks) ← setup env0 (ctor (some 0) (some 0)) ⟨77, 5, [(11, 12), (13, 14)]⟩
    let (pp', _) ← setup env0 pp ⟨78, 6, [(21, 22), (23, 24)]⟩
    let cs ← encAll env0 pp' 3 (ks.ekv.zip [1, 2])
    let res ← agg env0 pp' ks.ak cs [] 3
    .ok res.1.val) = .ok 3 := by
  refine ⟨by unfold Coin; decide, by unfold Coin; decide, by decide, by decide +kernel⟩

end Puda
end Verif
