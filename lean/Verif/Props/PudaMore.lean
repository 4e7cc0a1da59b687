import Verif.Props.Puda

/-!
# C84 – C86: PUDA aggregation of arbitrary ciphertexts, before `Setup`, at another timestamp, with users missing
-/

namespace Verif
namespace Puda

open EC

variable {env : Env}

/-- the sum of some points, computed with `operator+` from left to right starting with infinity -/
def sumOf (env : Env) (ps : List Pt) : R Pt := ps.foldlM (fun a b => a.add env CC b) (Pt.infty CC)

theorem foldlM_rep {c : Pt} {A : Grp CC} (hc : Rep env c A) {cs : List Pt} {As : List (Grp CC)}
    (h : List.Forall₂ (Rep env) cs As) :
    ∃ s, cs.foldlM (fun a b => a.add env CC b) c = .ok s ∧ Rep env s (A + As.sum) := by
  induction h generalizing c A with
  | nil => exact ⟨c, rfl, by simpa using hc⟩
  | cons h _ ih =>
    obtain ⟨c', e1, e2⟩ := add_rep hc h
    obtain ⟨s, e3, e4⟩ := ih e2
    exact ⟨s, by simp only [List.foldlM_cons, e1, R.ok_bind, e3], by rw [List.sum_cons, ← add_assoc]; exact e4⟩

theorem sumOf_rep {cs : List Pt} {As : List (Grp CC)} (h : List.Forall₂ (Rep env) cs As) :
    ∃ s, sumOf env cs = .ok s ∧ Rep env s As.sum := by
  obtain ⟨s, h1, h2⟩ := foldlM_rep (rep_infty (env := env) (C := CC)) h
  exact ⟨s, h1, by rwa [zero_add] at h2⟩

theorem reps_of_valid {ps : List Pt} (h : ∀ x ∈ ps, Valid env CC x) :
    ∃ As : List (Grp CC), List.Forall₂ (Rep env) ps As := by
  induction ps with
  | nil => exact ⟨[], .nil⟩
  | cons x xs ih =>
    obtain ⟨T, hT⟩ := valid_iff.1 (h x (by simp))
    obtain ⟨Ts, hTs⟩ := ih (fun y hy => h y (by simp [hy]))
    exact ⟨T :: Ts, .cons hT hTs⟩

/-- the point in which `Agg` looks for the sum: the ciphertexts added up, plus `(hash * t) * ak` -/
def unmasked (env : Env) (pp : Param) (ak : Fld) (cs : List Pt) (t : ℤ) : R Pt := do
  let s ← sumOf env cs
  let ht ← pp.hash.smulZ env CC t
  let x ← ht.smul env CC ak
  s.add env CC x

theorem unmasked_rep {pp : Param} {H : Grp CC} (r : Rep env pp.hash H) (ak : F) {cs : List Pt} {As : List (Grp CC)}
    (h : List.Forall₂ (Rep env) cs As) (t : ℤ) :
    ∃ s, unmasked env pp (Fld.ofZ ak) cs t = .ok s ∧ Rep env s (As.sum + ak • (t : F) • H) := by
  obtain ⟨c, a1, a2⟩ := sumOf_rep h
  obtain ⟨ht, c1, c2⟩ := smulI_rep r t
  obtain ⟨y, d1, d2⟩ := smulF_rep c2 ak
  obtain ⟨z, e1, e2⟩ := add_rep a2 d2
  exact ⟨z, by simp only [unmasked, a1, c1, d1, e1, R.ok_bind], e2⟩

theorem val_eq_iff {x : F} {i : ℕ} (hi : i < 65536) : x.val = i ↔ (i : F) = x := by
  have hfn : 65536 < CC.fn := by decide
  constructor
  · intro h
    rw [← h, ZMod.natCast_zmod_val]
  · rintro rfl
    rw [ZMod.val_natCast, Nat.mod_eq_of_lt (by omega)]

theorem pick_iff {x : F} {m : Msg} (h0 : m ≠ 0) (h1 : m.val < 65535) :
    (if x.val < 65535 then Fin.ofNat 65536 x.val else 0) = m ↔ ((m.val : ℕ) : F) = x := by
  rw [← val_eq_iff m.isLt]
  by_cases h : x.val < 65535
  · rw [if_pos h, Fin.ext_iff]
    simp only [Fin.ofNat, Nat.mod_eq_of_lt (show x.val < 65536 by omega)]
  · rw [if_neg h]
    constructor
    · intro h'
      exact absurd h'.symm h0
    · intro h'
      omega

theorem pick_lt (x : F) : (if x.val < 65535 then Fin.ofNat 65536 x.val else 0 : Msg).val < 65535 := by
  split
  · rename_i h
    simp only [Fin.ofNat, Nat.mod_eq_of_lt (show x.val < 65536 by omega)]
    exact h
  · exact Nat.zero_lt_succ _

/-! ## C84 -/

/-- C84: after `Setup`, for any ciphertexts and tags that are valid points (whoever made them), any aggregation key
and any timestamp, `Agg` returns.  The number is below 65535; it is a number `m` other than 0 exactly if `g1 * m` is
the sum of the ciphertexts plus `(hash * t) * ak`.  The tag is the sum of the tags. -/
theorem C84_agg (env : Env) {pp : Param} (hl1 : LiveGen env pp.curve1) (hl2 : LiveGen env pp.curve2) (k : Coins) :
    Ends (setup env pp k) fun s => ∀ (cs tags : List Pt) (ak t : ℤ), (∀ x ∈ cs, Valid env CC x) →
      (∀ x ∈ tags, Valid env CC x) → Ends (agg env s.1 (Fld.mk' CC.fn ak) cs tags t) fun res =>
        res.1.val < 65535 ∧
        (∀ m : Msg, m ≠ 0 → m.val < 65535 →
          (res.1 = m ↔ EqP env CC (s.1.g1.smulZ env CC m.val) (unmasked env s.1 (Fld.mk' CC.fn ak) cs t))) ∧
        EqP env CC (.ok res.2) (sumOf env tags) := by
  obtain ⟨pp', v1, v2, e1, r, -, -⟩ := setup_rep hl1 hl2 k
  refine ⟨_, e1, fun cs tags ak t hcs htags => ?_⟩
  obtain ⟨As, hA⟩ := reps_of_valid hcs
  obtain ⟨Ts, hT⟩ := reps_of_valid htags
  obtain ⟨x, hx⟩ := exists_smul (C := CC) G_ne_zero (As.sum + (ak : F) • (t : F) • (k.hash : F) • (G : Grp CC))
  obtain ⟨tg, e2, htg⟩ := agg_rep r (ak : F) hA hT t (x := x) hx
  obtain ⟨u, e3, hu⟩ := unmasked_rep r.hash (ak : F) hA t
  obtain ⟨sm, e4, hs⟩ := sumOf_rep hT
  rw [Fld.mk'_eq]
  refine ⟨_, e2, pick_lt x, fun m h0 h1 => ?_, ?_⟩
  · obtain ⟨z, f1, f2⟩ := smulI_rep r.g1 (m.val : ℤ)
    rw [pick_iff h0 h1, f1, e3]
    change _ ↔ EqP env Dme.CC _ _
    rw [Dme.eqP_ok_iff f2 hu, hx, Int.cast_natCast, smul_inj G_ne_zero]
  · exact eqP_of_rep ⟨_, rfl, htg⟩ ⟨_, e4, hs⟩ rfl

/-- a forged ciphertext: the point for 4 added by somebody without a key goes into the sum -/
example : LiveGen env0 (some 0) ∧ (do
    let (pp, ks) ← setup env0 (ctor (some 0) (some 0)) ⟨7, 5, [(0, 12)]⟩
    let cs ← encAll env0 pp 2 (ks.ekv.zip [1])
    let x ← pp.g1.smulZ env0 CC 4
    let res ← agg env0 pp ks.ak (x :: cs) [] 2
    .ok res.1.val) = .ok 5 := ⟨env0_liveGen, by decide +kernel⟩

/-- C84: an object whose `Setup` has not been called.  All three points are infinity: every ciphertext and every tag
is infinity whatever the keys and the messages, and `Agg` returns 0 whatever valid points it is given.  None of the
three functions faults, so the mistake goes unnoticed. -/
theorem C84_before_setup (env : Env) (c1 c2 : Option Addr) :
    (∀ (ek : ℤ) (m : Msg) (t : ℤ), Ends (enc env (ctor c1 c2) (Fld.mk' CC.fn ek) m t) (IsInf CC)) ∧
    (∀ (a tk : ℤ) (m : Msg) (t : ℤ), Ends (tag env (ctor c1 c2) ⟨a, Fld.mk' CC.fn tk⟩ m t) (IsInf CC)) ∧
    (∀ (cs tags : List Pt) (ak t : ℤ), (∀ x ∈ cs, Valid env CC x) → (∀ x ∈ tags, Valid env CC x) →
      Ends (agg env (ctor c1 c2) (Fld.mk' CC.fn ak) cs tags t) fun res =>
        res.1 = 0 ∧ EqP env CC (.ok res.2) (sumOf env tags)) := by
  have hz : Rep env (Pt.infty CC) (0 : Grp CC) := rep_infty
  have inf_of {P : Pt} (h : Rep env P (0 : Grp CC)) : IsInf CC P := isInf_iff.2 h
  refine ⟨fun ek m t => ?_, fun a tk m t => ?_, fun cs tags ak t hcs htags => ?_⟩
  · obtain ⟨x, a1, a2⟩ := smulI_rep hz t
    obtain ⟨y, b1, b2⟩ := smulF_rep a2 (ek : F)
    obtain ⟨z, c1, c2⟩ := smulI_rep hz (m.val : ℤ)
    obtain ⟨c, d1, d2⟩ := add_rep b2 c2
    rw [Fld.mk'_eq]
    refine ⟨c, by simp only [enc, ctor, a1, b1, c1, d1, R.ok_bind], inf_of ?_⟩
    simpa using d2
  · obtain ⟨x, a1, a2⟩ := smulI_rep hz t
    obtain ⟨y, b1, b2⟩ := smulF_rep a2 (tk : F)
    obtain ⟨z, c1, c2⟩ := smulI_rep hz a
    obtain ⟨w, e1, e2⟩ := smulI_rep c2 (m.val : ℤ)
    obtain ⟨c, d1, d2⟩ := add_rep b2 e2
    rw [Fld.mk'_eq]
    refine ⟨c, by simp only [tag, ctor, a1, b1, c1, e1, d1, R.ok_bind], inf_of ?_⟩
    simpa using d2
  · obtain ⟨As, hA⟩ := reps_of_valid hcs
    obtain ⟨Ts, hT⟩ := reps_of_valid htags
    obtain ⟨c, a1, a2⟩ := sumLoop_rep hz hA
    obtain ⟨tg, b1, b2⟩ := sumLoop_rep hz hT
    obtain ⟨ht, f1, f2⟩ := smulI_rep hz t
    obtain ⟨y, d1, d2⟩ := smulF_rep f2 (ak : F)
    obtain ⟨z, e1, e2⟩ := add_rep a2 d2
    have hloop : ∀ {c : Pt} {A : Grp CC}, Rep env c A → ∀ left i, (A = 0 → i = 0) →
        dlogLoop env (ctor c1 c2) c left i = .ok 0 := by
      intro c A hc left
      induction left with
      | zero => intro i _; rfl
      | succ left ih =>
        intro i hi
        obtain ⟨w, g1, g2⟩ := smulI_rep hz (i : ℤ)
        have hb : w.beq env CC c = .ok (decide ((0 : Grp CC) = A)) := by
          have := rep_beq g2 hc
          simpa using this
        simp only [dlogLoop, ctor, g1, hb, R.ok_bind, decide_eq_true_eq]
        by_cases h : (0 : Grp CC) = A
        · rw [if_pos h, hi h.symm]
          rfl
        · rw [if_neg h]
          exact ih (i + 1) (fun h' => absurd h'.symm h)
    obtain ⟨sm, e4, hs⟩ := sumOf_rep hT
    rw [Fld.mk'_eq]
    refine ⟨(0, tg), ?_, rfl, eqP_of_rep ⟨_, rfl, b2⟩ ⟨_, e4, hs⟩ (zero_add _)⟩
    have h0 : computeDlog env (ctor c1 c2) z = .ok 0 := by
      rw [computeDlog, hloop e2 65535 0 fun _ => rfl]
    simp only [agg, show (ctor c1 c2).hash = Pt.infty CC from rfl, a1, b1, f1, d1, e1, h0, R.ok_bind]

example : (do
    let c ← enc env0 (ctor (some 0) (some 0)) (Fld.mk' CC.fn 11) 3 2
    let d ← tag env0 (ctor (some 0) (some 0)) ⟨9, Fld.mk' CC.fn 11⟩ 3 2
    .ok (c.inf, d.inf)) = .ok (true, true) := by decide +kernel

/-! ## C85 -/

theorem sum_ne_zero_iff (us : List (ℤ × ℤ)) :
    (us.map fun u : ℤ × ℤ => (u.1 : F)).sum = 0 ↔ CC.order ∣ (us.map fun u : ℤ × ℤ => u.1).sum := by
  have : (us.map fun u : ℤ × ℤ => (u.1 : F)).sum = ((us.map fun u : ℤ × ℤ => u.1).sum : ℤ) := by
    induction us with
    | nil => simp
    | cons u us ih => simp [ih]
  rw [this, ZMod.intCast_zmod_eq_zero_iff_dvd]
  rw [show (CC.order : ℤ) = (CC.fn : ℤ) by decide]

theorem smul3_eq_zero {a t h : F} :
    a • t • h • (G : Grp CC) = 0 ↔ a = 0 ∨ t = 0 ∨ h = 0 := by
  rw [smul_eq_zero, smul_eq_zero, smul_eq_zero]
  simp [G_ne_zero]

/-- C85: ciphertexts made for timestamp `t` and aggregated with timestamp `t'`.  If the messages add up to a number
between 1 and 65534, `Agg` returns it exactly if the two timestamps are equal, the hash is infinity or the keys of the
users add up to 0. -/
theorem C85_timestamp (env : Env) {pp : Param} (hl1 : LiveGen env pp.curve1) (hl2 : LiveGen env pp.curve2) (k : Coins)
    (hk : Coin k.hash) (ms : List Msg) (hlen : k.users.length = ms.length) (h0 : 0 < total ms) (h1 : total ms < 65535)
    (t t' : ℤ) (ht : -2 ^ 31 ≤ t ∧ t < 2 ^ 31) (ht' : -2 ^ 31 ≤ t' ∧ t' < 2 ^ 31) {tags : List Pt}
    (htags : ∀ x ∈ tags, Valid env CC x) :
    Ends (setup env pp k) fun s => Ends (encAll env s.1 t (s.2.ekv.zip ms)) fun cs =>
      Ends (agg env s.1 s.2.ak cs tags t') fun res =>
        res.1.val = total ms ↔ t = t' ∨ k.hash = 0 ∨ CC.order ∣ (k.users.map fun u : ℤ × ℤ => u.1).sum := by
  obtain ⟨pp', v1, v2, e1, r, -, -⟩ := setup_rep hl1 hl2 k
  refine ⟨_, e1, ?_⟩
  obtain ⟨cs, As, e2, h2, h3⟩ := encAll_rep r t k.users ms hlen
  obtain ⟨Ts, hT⟩ := reps_of_valid htags
  refine ⟨cs, e2, ?_⟩
  set E := (k.users.map fun u : ℤ × ℤ => (u.1 : F)).sum with hE
  obtain ⟨x, hx⟩ := exists_smul (C := CC) G_ne_zero (As.sum + (-E) • (t' : F) • (k.hash : F) • (G : Grp CC))
  obtain ⟨tg, e3, -⟩ := agg_rep r (-E) h2 hT t' (x := x) hx
  refine ⟨_, e3, ?_⟩
  dsimp only
  have hm : (Fin.ofNat 65536 (total ms) : Msg).val = total ms := Nat.mod_eq_of_lt (by omega)
  have h4 := pick_iff (x := x) (m := Fin.ofNat 65536 (total ms)) (by rw [Ne, Fin.ext_iff, hm]; exact h0.ne')
    (by rw [hm]; exact h1)
  rw [Fin.ext_iff, hm] at h4
  rw [h4, ← smul_inj (C := CC) G_ne_zero, ← hx, h3, ← sub_eq_zero]
  have h5 : ((total ms : ℕ) : F) • (G : Grp CC) - (E • (t : F) • (k.hash : F) • (G : Grp CC) +
      ((total ms : ℕ) : F) • (G : Grp CC) + (-E) • (t' : F) • (k.hash : F) • (G : Grp CC)) =
      E • ((t' - t : ℤ) : F) • (k.hash : F) • (G : Grp CC) := by
    push_cast
    module
  rw [h5, smul3_eq_zero, hE, sum_ne_zero_iff]
  have hh : (k.hash : F) = 0 ↔ k.hash = 0 :=
    ⟨fun h => Dme.coin_cast_inj hk ⟨le_rfl, by decide⟩ (by simpa using h), fun h => by simp [h]⟩
  have hd : ((t' - t : ℤ) : F) = 0 ↔ t = t' := by
    constructor
    · rw [ZMod.intCast_zmod_eq_zero_iff_dvd]
      have : (2 ^ 33 : ℤ) < (CC.fn : ℤ) := by decide
      intro h
      have := Int.eq_zero_of_abs_lt_dvd h (by rw [abs_lt]; constructor <;> omega)
      omega
    · rintro rfl
      simp
  rw [hh, hd]
  tauto

/-- keys adding up to 0 modulo the group order: the timestamp does not matter -/
example : Coin 77 ∧ 0 < total [1, 2] ∧ total [1, 2] < 65535 ∧
    CC.order ∣ (([(11, 12), (CC.order - 11, 14)] : List (ℤ × ℤ)).map fun u : ℤ × ℤ => u.1).sum ∧
    (do
      let (pp, ks) ← setup env0 (ctor (some 0) (some 0)) ⟨7, 5, [(0, 12), (0, 14)]⟩
      let cs ← encAll env0 pp 3 (ks.ekv.zip [1, 2])
      let res ← agg env0 pp ks.ak cs [] 4
      .ok res.1.val) = .ok 3 := by
  refine ⟨by unfold Coin; decide, by decide, by decide, by decide +kernel, by decide +kernel⟩

/-! ## C86 -/

/-- C86: only the ciphertexts of the first `n` users are aggregated.  If their messages add up to a number between 1
and 65534, `Agg` returns it exactly if the timestamp is 0, the hash is infinity or the keys of the missing users
add up to 0. -/
theorem C86_missing (env : Env) {pp : Param} (hl1 : LiveGen env pp.curve1) (hl2 : LiveGen env pp.curve2) (k : Coins)
    (hk : Coin k.hash) (ms : List Msg) (hlen : k.users.length = ms.length) (n : ℕ) (h0 : 0 < total (ms.take n))
    (h1 : total (ms.take n) < 65535) (t : ℤ) (ht : -2 ^ 31 ≤ t ∧ t < 2 ^ 31) {tags : List Pt}
    (htags : ∀ x ∈ tags, Valid env CC x) :
    Ends (setup env pp k) fun s => Ends (encAll env s.1 t ((s.2.ekv.zip ms).take n)) fun cs =>
      Ends (agg env s.1 s.2.ak cs tags t) fun res =>
        res.1.val = total (ms.take n) ↔
          t = 0 ∨ k.hash = 0 ∨ CC.order ∣ ((k.users.drop n).map fun u : ℤ × ℤ => u.1).sum := by
  obtain ⟨pp', v1, v2, e1, r, -, -⟩ := setup_rep hl1 hl2 k
  refine ⟨_, e1, ?_⟩
  obtain ⟨cs, As, e2, h2, h3⟩ := encAll_rep r t (k.users.take n) (ms.take n) (by simp [hlen])
  obtain ⟨Ts, hT⟩ := reps_of_valid htags
  refine ⟨cs, by rw [← e2, List.zip_eq_zipWith, List.take_zipWith, List.map_take, List.zip_eq_zipWith], ?_⟩
  have hE : (k.users.map fun u : ℤ × ℤ => (u.1 : F)).sum =
      ((k.users.take n).map fun u : ℤ × ℤ => (u.1 : F)).sum +
        ((k.users.drop n).map fun u : ℤ × ℤ => (u.1 : F)).sum := by
    rw [← List.sum_append, ← List.map_append, List.take_append_drop]
  simp only [hE]
  set E := ((k.users.take n).map fun u : ℤ × ℤ => (u.1 : F)).sum
  set D := ((k.users.drop n).map fun u : ℤ × ℤ => (u.1 : F)).sum with hD
  obtain ⟨x, hx⟩ := exists_smul (C := CC) G_ne_zero (As.sum + (-(E + D)) • (t : F) • (k.hash : F) • (G : Grp CC))
  obtain ⟨tg, e3, -⟩ := agg_rep r (-(E + D)) h2 hT t (x := x) hx
  refine ⟨_, e3, ?_⟩
  dsimp only
  have hm : (Fin.ofNat 65536 (total (ms.take n)) : Msg).val = total (ms.take n) := Nat.mod_eq_of_lt (by omega)
  have h4 := pick_iff (x := x) (m := Fin.ofNat 65536 (total (ms.take n)))
    (by rw [Ne, Fin.ext_iff, hm]; exact h0.ne') (by rw [hm]; exact h1)
  rw [Fin.ext_iff, hm] at h4
  rw [h4, ← smul_inj (C := CC) G_ne_zero, ← hx, h3, ← sub_eq_zero]
  have h5 : ((total (ms.take n) : ℕ) : F) • (G : Grp CC) - (E • (t : F) • (k.hash : F) • (G : Grp CC) +
      ((total (ms.take n) : ℕ) : F) • (G : Grp CC) + (-(E + D)) • (t : F) • (k.hash : F) • (G : Grp CC)) =
      D • (t : F) • (k.hash : F) • (G : Grp CC) := by
    module
  rw [h5, smul3_eq_zero, hD, sum_ne_zero_iff]
  have hh : (k.hash : F) = 0 ↔ k.hash = 0 :=
    ⟨fun h => Dme.coin_cast_inj hk ⟨le_rfl, by decide⟩ (by simpa using h), fun h => by simp [h]⟩
  have hd : (t : F) = 0 ↔ t = 0 :=
    ⟨fun h => by_contra fun h' => int_cast_ne_zero h' ht.1 ht.2 h, fun h => by simp [h]⟩
  rw [hh, hd]
  tauto

/-- the key of the missing third user is 0 -/
example : Coin 77 ∧ 0 < total (([1, 2, 9] : List Msg).take 2) ∧ total (([1, 2, 9] : List Msg).take 2) < 65535 ∧
    (do
      let (pp, ks) ← setup env0 (ctor (some 0) (some 0)) ⟨7, 5, [(3, 12), (4, 14), (0, 3)]⟩
      let cs ← encAll env0 pp 2 ((ks.ekv.zip [1, 2, 9]).take 2)
      let res ← agg env0 pp ks.ak cs [] 2
      .ok res.1.val) = .ok 3 := by
  refine ⟨by unfold Coin; decide, by decide, by decide, by decide +kernel⟩

end Puda
end Verif
