import Verif.Lemmas.Shamir

/-!
# C20 – C23: Shamir secret sharing
-/

namespace Verif
namespace Shamir

open Polynomial

/-- values `rand()` can return without making `rand()+1` overflow -/
def GoodRand (rand : ℕ → ℤ) : Prop := ∀ i, 0 ≤ rand i ∧ rand i < 2 ^ 31 - 1

/-! ## Helpers -/

theorem sel_pairs {f : K[X]} {n : ℕ} {sel : List Share}
    (hsub : ∀ s ∈ sel, s ∈ (List.range' 1 n).map fun j => mkShare ((j : ℕ) : K) (f.eval ((j : ℕ) : K))) :
    ∃ s : List (K × K), sel = s.map (fun p => mkShare p.1 p.2) ∧ ∀ p ∈ s, p.2 = f.eval p.1 := by
  induction sel with
  | nil => exact ⟨[], rfl, by simp⟩
  | cons a sel ih =>
    obtain ⟨s, h1, h2⟩ := ih fun x hx => hsub x (by simp [hx])
    obtain ⟨j, -, hj⟩ := List.mem_map.1 (hsub a (by simp))
    refine ⟨((j : K), f.eval (j : K)) :: s, by simp [← hj, h1], ?_⟩
    intro p hp
    rcases List.mem_cons.1 hp with rfl | hp
    · rfl
    · exact h2 p hp

/-- distinct shares on one polynomial have distinct indices -/
theorem nodup_xs {f : K[X]} {s : List (K × K)} (h : ∀ p ∈ s, p.2 = f.eval p.1)
    (hn : (s.map fun p => mkShare p.1 p.2).Nodup) : (xs s).Nodup := by
  have hs : s.Nodup := List.Nodup.of_map _ hn
  unfold xs
  rw [List.nodup_map_iff_inj_on hs]
  intro p hp q hq hpq
  exact Prod.ext hpq (by rw [h p hp, h q hq, hpq])

theorem recon_sel (env : Env) {f : K[X]} {n : ℕ} {sel : List Share} (hsel : sel.Nodup)
    (hsub : ∀ s ∈ sel, s ∈ (List.range' 1 n).map fun j => mkShare ((j : ℕ) : K) (f.eval ((j : ℕ) : K)))
    (hdeg : f.degree < sel.length) : reconSecret env sel = .ok (Fld.ofZ (f.eval 0)) := by
  obtain ⟨s, rfl, h2⟩ := sel_pairs hsub
  exact recon_poly env f s (nodup_xs h2 hsel) h2 (by simpa using hdeg)

/-! ## C20 -/

/-- C20: every duplicate-free selection of at least `t` of the shares, in any order, reconstructs the
secret.  (`t ≥ 1`; `t`, `n` within the size of a `std::vector`; draws not hitting `INT_MAX`.) -/
theorem C20_reconstruct (env : Env) {t n : ℕ} (ht : 1 ≤ t) (ht' : t ≤ 2 ^ 58 - 1) (hn : n ≤ 2 ^ 57 - 1)
    {secret : Fld} (hs : IsElem secpN secret) {rand : ℕ → ℤ} (hr : GoodRand rand) :
    Ends (getShares env t n secret rand) fun shares =>
      shares.length = n ∧
      ∀ sel : List Share, sel.Nodup → (∀ s ∈ sel, s ∈ shares) → t ≤ sel.length →
        reconSecret env sel = .ok secret := by
  obtain ⟨z, rfl⟩ := isElem_iff.1 hs
  refine ⟨_, getShares_ok env t n ht ht' hn z rand (fun i _ => by have := (hr i).2; omega), by simp, ?_⟩
  intro sel hsel hsub hlen
  have hdeg := polyOf_degree (coeffs t z rand)
  rw [coeffs_length t ht] at hdeg
  rw [recon_sel env hsel hsub (lt_of_lt_of_le hdeg (by exact_mod_cast hlen))]
  rw [coeffs, polyOf_eval_zero]

/-- C20: the shares carry the indices `1, …, n` in order, so there are `n` different ones. -/
theorem C20_indices (env : Env) {t n : ℕ} (ht : 1 ≤ t) (ht' : t ≤ 2 ^ 58 - 1) (hn : n ≤ 2 ^ 57 - 1)
    {secret : Fld} (hs : IsElem secpN secret) {rand : ℕ → ℤ} (hr : GoodRand rand) :
    Ends (getShares env t n secret rand) fun shares =>
      shares.Nodup ∧ shares.map (fun s => s.idx) = (List.range' 1 n).map fun j : ℕ => (⟨j, secpN⟩ : Fld) := by
  obtain ⟨z, rfl⟩ := isElem_iff.1 hs
  have hlt : ∀ j ∈ List.range' 1 n, j < secpN := by
    intro j hj
    rw [List.mem_range'_1] at hj
    have : 2 ^ 57 - 1 + 1 < secpN := by decide
    omega
  have hval : ∀ j ∈ List.range' 1 n, Fld.ofZ ((j : ℕ) : K) = ⟨(j : ℤ), secpN⟩ := by
    intro j hj
    simp only [Fld.ofZ]
    rw [ZMod.val_natCast_of_lt (hlt j hj)]
  refine ⟨_, getShares_ok env t n ht ht' hn z rand (fun i _ => by have := (hr i).2; omega), ?_, ?_⟩
  · rw [List.nodup_map_iff_inj_on (List.nodup_range')]
    intro a ha b hb hab
    have : Fld.ofZ ((a : ℕ) : K) = Fld.ofZ ((b : ℕ) : K) := congrArg Share.idx hab
    rw [hval a ha, hval b hb] at this
    simpa using this
  · rw [List.map_map]
    exact List.map_congr_left fun j hj => hval j hj

/-- three of five shares, out of order -/
example : (do
    let sh ← getShares ⟨false, fun _ => none⟩ 3 5 ⟨1234, secpN⟩ (fun i => 41 + i)
    match sh with
    | [_, b, _, d, e] => reconSecret ⟨false, fun _ => none⟩ [e, b, d]
    | _ => .error .exception) = .ok ⟨1234, secpN⟩ := by decide +kernel

/-! ## C21 -/

theorem degree_C_mul_le' (a : K) (p : K[X]) : (C a * p).degree ≤ p.degree := by
  rcases eq_or_ne a 0 with rfl | h
  · simp
  · rw [degree_C_mul h]

theorem polyOf_surj (n : ℕ) (g : K[X]) (h : g.degree < n) : ∃ cs : List K, cs.length = n ∧ polyOf cs = g := by
  induction n generalizing g with
  | zero =>
    refine ⟨[], rfl, ?_⟩
    have : g = 0 := by
      rw [← degree_eq_bot]
      by_contra hb
      rw [degree_eq_natDegree (fun h0 => hb (by rw [h0, degree_zero]))] at h
      exact absurd h (by simp)
    rw [this]; rfl
  | succ n ih =>
    have hd : g.divX.degree < n := by
      rcases eq_or_ne g.divX 0 with h0 | h0
      · rw [h0, degree_zero]; exact WithBot.bot_lt_coe _
      · have h1 : g ≠ 0 := by rintro rfl; simp at h0
        rw [degree_eq_natDegree h0]
        rw [degree_eq_natDegree h1] at h
        have h3 : g.natDegree < n + 1 := by exact_mod_cast h
        have h2 : g.divX.natDegree = g.natDegree - 1 := natDegree_divX_eq_natDegree_tsub_one
        have h4 : g.natDegree ≠ 0 := by
          intro e
          apply h0
          rw [eq_C_of_natDegree_eq_zero e, divX_C]
        have : g.divX.natDegree < n := by omega
        exact_mod_cast this
    obtain ⟨cs, h1, h2⟩ := ih g.divX hd
    refine ⟨g.coeff 0 :: cs, by simp [h1], ?_⟩
    rw [polyOf, h2, mul_comm, add_comm]
    exact divX_mul_X_add g

theorem polyOf_inj {cs ds : List K} (hl : cs.length = ds.length) (h : polyOf cs = polyOf ds) : cs = ds := by
  induction cs generalizing ds with
  | nil => rw [List.length_nil] at hl; exact (List.length_eq_zero_iff.1 hl.symm).symm
  | cons c cs ih =>
    rcases ds with _ | ⟨d, ds⟩
    · simp at hl
    · have h0 : c = d := by
        have := congrArg (eval 0) h
        rwa [polyOf_eval_zero, polyOf_eval_zero] at this
      subst h0
      rw [polyOf, polyOf, add_right_inj] at h
      rw [ih (by simpa using hl) (mul_left_cancel₀ X_ne_zero h)]

theorem lift_list {l : List Fld} (h : ∀ c ∈ l, IsElem secpN c) : ∃ cs : List K, l = cs.map Fld.ofZ := by
  induction l with
  | nil => exact ⟨[], rfl⟩
  | cons a l ih =>
    obtain ⟨cs, rfl⟩ := ih fun c hc => h c (by simp [hc])
    obtain ⟨z, rfl⟩ := isElem_iff.1 (h a (by simp))
    exact ⟨z :: cs, rfl⟩

/-- C21 (part): were the `t-1` coefficients free field elements, then any `t-1` (or, below, fewer) shares would be
produced, for every alternative secret, by exactly one choice of coefficients.
Missing: in the code the coefficients are restricted to `0..99`, and the property fails (see
`C21_leak_counterexample`). -/
theorem C21_free_coefficients_partial (env : Env) {idxs coefs : List Fld} {s s' : Fld}
    (hs : IsElem secpN s) (hs' : IsElem secpN s') (hc : ∀ c ∈ coefs, IsElem secpN c)
    (hx : ∀ x ∈ idxs, IsElem secpN x ∧ x.value ≠ 0) (hnd : idxs.Nodup)
    (hlen : idxs.length = coefs.length) :
    ∃! coefs' : List Fld, (coefs'.length = coefs.length ∧ ∀ c ∈ coefs', IsElem secpN c) ∧
      ∀ x ∈ idxs, evalPoly env x (s' :: coefs') = evalPoly env x (s :: coefs) := by
  obtain ⟨z, rfl⟩ := isElem_iff.1 hs
  obtain ⟨z', rfl⟩ := isElem_iff.1 hs'
  obtain ⟨cs, rfl⟩ := lift_list hc
  obtain ⟨vs, rfl⟩ := lift_list fun x h => (hx x h).1
  have hv0 : ∀ v ∈ vs, v ≠ 0 := by
    rintro v hv rfl
    exact (hx (Fld.ofZ 0) (List.mem_map.2 ⟨0, hv, rfl⟩)).2 (by simp)
  have hvn : vs.Nodup := List.Nodup.of_map _ hnd
  simp only [List.length_map] at hlen ⊢
  -- the product vanishing at the indices, normalised at 0
  let m : K[X] := (vs.map fun v => X - C v).prod
  have hm0 : m.eval 0 ≠ 0 := by
    simp only [m, eval_list_prod, List.map_map]
    rw [Ne, List.prod_eq_zero_iff]
    intro h
    obtain ⟨v, hv, h⟩ := List.mem_map.1 h
    simp only [Function.comp_apply, eval_sub, eval_X, eval_C, zero_sub, neg_eq_zero] at h
    exact hv0 v hv h
  have hmv : ∀ v ∈ vs, m.eval v = 0 := by
    intro v hv
    simp only [m, eval_list_prod, List.map_map]
    rw [List.prod_eq_zero_iff]
    exact List.mem_map.2 ⟨v, hv, by simp⟩
  have hmd : m.degree = vs.length := by
    simp only [m]
    rw [degree_list_prod, List.map_map]
    have : (degree ∘ fun v : K => X - C v) = fun _ => 1 := by funext v; simp
    rw [this]; simp
  let f : K[X] := polyOf (z :: cs)
  have hfd : f.degree < (cs.length + 1 : ℕ) := by
    have := polyOf_degree (z :: cs); simpa using this
  let g : K[X] := f + C ((z' - z) / m.eval 0) * m
  have hg0 : g.eval 0 = z' := by
    simp only [g, f, eval_add, eval_mul, eval_C, polyOf_eval_zero, div_mul_cancel₀ _ hm0]; ring
  have hgv : ∀ v ∈ vs, g.eval v = f.eval v := by
    intro v hv; simp only [g, eval_add, eval_mul, hmv v hv, mul_zero, add_zero]
  have hgd : g.degree < (cs.length + 1 : ℕ) := by
    refine lt_of_le_of_lt (degree_add_le _ _) (max_lt hfd ?_)
    refine lt_of_le_of_lt (degree_C_mul_le' _ _) ?_
    rw [hmd, hlen]
    exact_mod_cast Nat.lt_succ_self _
  obtain ⟨gs, hgl, hgp⟩ := polyOf_surj _ g hgd
  rcases gs with _ | ⟨g0, gs⟩
  · simp at hgl
  have hg0' : g0 = z' := by rw [← hg0, ← hgp, polyOf_eval_zero]
  subst hg0'
  have hgl' : gs.length = cs.length := by simpa using hgl
  have heval : ∀ (c : K) (l : List K) (v : K), evalPoly env (Fld.ofZ v) (Fld.ofZ c :: l.map Fld.ofZ)
      = .ok (Fld.ofZ ((polyOf (c :: l)).eval v)) := fun c l v => evalPoly_ok env v (c :: l)
  refine ⟨gs.map Fld.ofZ, ⟨⟨by simp [hgl'], ?_⟩, ?_⟩, ?_⟩
  · intro c hc'
    obtain ⟨a, -, rfl⟩ := List.mem_map.1 hc'
    exact isElem_ofZ a
  · intro x hx'
    obtain ⟨v, hv, rfl⟩ := List.mem_map.1 hx'
    rw [heval, heval, hgp, hgv v hv]
  · rintro l ⟨⟨hl1, hl2⟩, hl3⟩
    obtain ⟨ls, rfl⟩ := lift_list hl2
    congr 1
    have hll : ls.length = cs.length := by simpa using hl1
    have hp : polyOf (g0 :: ls) = polyOf (g0 :: gs) := by
      apply Polynomial.eq_of_degree_sub_lt_of_eval_finset_eq (insert 0 vs.toFinset)
      · have hcard : (insert (0 : K) vs.toFinset).card = vs.length + 1 := by
          rw [Finset.card_insert_of_notMem, List.toFinset_card_of_nodup hvn]
          rw [List.mem_toFinset]; exact fun h => hv0 0 h rfl
        rw [hcard, hlen]
        refine lt_of_le_of_lt (degree_sub_le _ _) (max_lt ?_ ?_)
        · have := polyOf_degree (g0 :: ls); rw [List.length_cons, hll] at this; exact this
        · have := polyOf_degree (g0 :: gs); rw [List.length_cons, hgl'] at this; exact this
      · intro v hv
        rw [Finset.mem_insert, List.mem_toFinset] at hv
        rcases hv with rfl | hv
        · rw [polyOf_eval_zero, polyOf_eval_zero]
        · have h3 := hl3 (Fld.ofZ v) (List.mem_map.2 ⟨v, hv, rfl⟩)
          rw [heval, heval] at h3
          have := Fld.ofZ_injective (Except.ok.inj h3)
          rw [this, hgp, hgv v hv]
    have := polyOf_inj (by simp [hll, hgl']) hp
    simpa using this

/-- C21 (part): fewer than `t-1` shares are a fortiori consistent with every secret. -/
theorem C21_free_coefficients_fewer_partial (env : Env) {idxs coefs : List Fld} {s s' : Fld}
    (hs : IsElem secpN s) (hs' : IsElem secpN s') (hc : ∀ c ∈ coefs, IsElem secpN c)
    (hx : ∀ x ∈ idxs, IsElem secpN x ∧ x.value ≠ 0) (hnd : idxs.Nodup)
    (hlen : idxs.length ≤ coefs.length) (hmax : coefs.length < secpN) :
    ∃ coefs' : List Fld, (coefs'.length = coefs.length ∧ ∀ c ∈ coefs', IsElem secpN c) ∧
      ∀ x ∈ idxs, evalPoly env x (s' :: coefs') = evalPoly env x (s :: coefs) := by
  -- pad the index list with further non-zero indices
  obtain ⟨more, h1, h2, h3⟩ : ∃ more : List Fld, (idxs ++ more).Nodup ∧
      (idxs ++ more).length = coefs.length ∧ ∀ x ∈ more, IsElem secpN x ∧ x.value ≠ 0 := by
    classical
    have key : ∀ k ≤ coefs.length - idxs.length, ∃ more : List Fld, (idxs ++ more).Nodup ∧
        more.length = k ∧ ∀ x ∈ more, IsElem secpN x ∧ x.value ≠ 0 := by
      intro k
      induction k with
      | zero => intro _; exact ⟨[], by simpa using hnd, rfl, by simp⟩
      | succ k ih =>
        intro hk
        obtain ⟨more, a1, a2, a3⟩ := ih (by omega)
        have : ∃ j : ℕ, j ∈ Finset.Ico 1 secpN ∧ (⟨j, secpN⟩ : Fld) ∉ idxs ++ more := by
          by_contra hcon
          push Not at hcon
          have hsub : (Finset.Ico 1 secpN).image (fun j : ℕ => (⟨j, secpN⟩ : Fld)) ⊆ (idxs ++ more).toFinset := by
            intro x hx'
            obtain ⟨j, hj, rfl⟩ := Finset.mem_image.1 hx'
            exact List.mem_toFinset.2 (hcon j hj)
          have hcard := Finset.card_le_card hsub
          rw [Finset.card_image_of_injective _ (by intro a b hab; simpa using hab), Nat.card_Ico] at hcard
          have := List.toFinset_card_le (idxs ++ more)
          rw [List.length_append] at this
          omega
        obtain ⟨j, hj, hnot⟩ := this
        rw [Finset.mem_Ico] at hj
        refine ⟨⟨j, secpN⟩ :: more, ?_, by simp [a2], ?_⟩
        · rw [List.nodup_middle, List.nodup_cons]
          exact ⟨hnot, a1⟩
        · intro x hx'
          rcases List.mem_cons.1 hx' with rfl | hx'
          · exact ⟨⟨rfl, by simp, by simpa using hj.2⟩, by simp; omega⟩
          · exact a3 x hx'
    obtain ⟨more, a1, a2, a3⟩ := key _ le_rfl
    exact ⟨more, a1, by rw [List.length_append, a2]; omega, a3⟩
  obtain ⟨c', hc', -⟩ := C21_free_coefficients_partial env (idxs := idxs ++ more) hs hs' hc (by
    intro x hx'
    rcases List.mem_append.1 hx' with h | h
    · exact hx x h
    · exact h3 x h) h1 h2
  exact ⟨c', hc'.1, fun x hx' => hc'.2 x (List.mem_append.2 (Or.inl hx'))⟩

/-- the hypotheses are met by two shares of a threshold-3 sharing -/
example : (∀ x ∈ [(⟨2, secpN⟩ : Fld), ⟨5, secpN⟩], IsElem secpN x ∧ x.value ≠ 0) ∧
    [(⟨2, secpN⟩ : Fld), ⟨5, secpN⟩].Nodup := by
  refine ⟨?_, by decide⟩
  intro x hx
  simp only [List.mem_cons, List.not_mem_nil, or_false] at hx
  rcases hx with rfl | rfl
  · exact ⟨⟨rfl, by decide, by decide⟩, by decide⟩
  · exact ⟨⟨rfl, by decide, by decide⟩, by decide⟩

theorem sum_coeffs (cs : List K) : (polyOf cs).eval 1 = cs.sum := by
  induction cs with
  | nil => simp [polyOf]
  | cons c cs ih => simp [polyOf, ih]

theorem small_sum (rand : ℕ → ℤ) (hr : GoodRand rand) (m : ℕ) :
    ∃ S : ℕ, S ≤ 99 * m ∧ (((List.range m).map rand).map coeffOf).sum = (S : K) := by
  induction m with
  | zero => exact ⟨0, by simp, by simp⟩
  | succ m ih =>
    obtain ⟨S, h1, h2⟩ := ih
    have h0 := (hr m).1
    refine ⟨S + ((rand m + 1) % 100).toNat, by omega, ?_⟩
    rw [List.range_succ, List.map_append, List.map_append, List.sum_append, h2]
    simp only [List.map_cons, List.map_nil, List.sum_cons, List.sum_nil, add_zero, coeffOf]
    rw [Nat.cast_add]
    congr 1
    have : ((((rand m + 1) % 100).toNat : ℕ) : ℤ) = (rand m + 1) % 100 := by omega
    rw [← this]; simp

/-- C21 is false: for **every** threshold and number of users a single share (the first one) already excludes
almost every other secret, because the sum of the coefficients is at most `99 (t-1)`. -/
theorem C21_leak_counterexample (env : Env) {t n : ℕ} (ht : 1 ≤ t) (ht' : t ≤ 2 ^ 58 - 1) (hn : n ≤ 2 ^ 57 - 1)
    (hn1 : 1 ≤ n) {s s' : Fld} (hs : IsElem secpN s) (hs' : IsElem secpN s')
    (hfar : 99 * ((t : ℤ) - 1) < s'.value - s.value)
    (hfar' : s'.value - s.value < secpN - 99 * ((t : ℤ) - 1))
    {rand rand' : ℕ → ℤ} (hr : GoodRand rand) (hr' : GoodRand rand') :
    ∃ sh sh', getShares env t n s rand = .ok sh ∧ getShares env t n s' rand' = .ok sh' ∧
      sh.length = n ∧ sh'.length = n ∧ sh.head? ≠ sh'.head? := by
  obtain ⟨z, rfl⟩ := isElem_iff.1 hs
  obtain ⟨z', rfl⟩ := isElem_iff.1 hs'
  refine ⟨_, _, getShares_ok env t n ht ht' hn z rand (fun i _ => by have := (hr i).2; omega),
    getShares_ok env t n ht ht' hn z' rand' (fun i _ => by have := (hr' i).2; omega), by simp, by simp, ?_⟩
  obtain ⟨m, rfl⟩ : ∃ m, n = m + 1 := ⟨n - 1, by omega⟩
  simp only [List.range'_succ, List.map_cons, List.head?_cons, ne_eq, Option.some.injEq]
  intro h
  have h2 := Fld.ofZ_injective (m := secpN) (congrArg Share.val h)
  simp only [Nat.cast_one, sum_coeffs, coeffs, List.sum_cons] at h2
  obtain ⟨S, hS, hS'⟩ := small_sum rand hr (t - 1)
  obtain ⟨T, hT, hT'⟩ := small_sum rand' hr' (t - 1)
  rw [hS', hT'] at h2
  simp only [Fld.ofZ_value] at hfar hfar'
  have hz : ((z.val : ℤ) : K) = z := by simp
  have hz' : ((z'.val : ℤ) : K) = z' := by simp
  have h3 : (((z'.val : ℤ) + T - (z.val + S) : ℤ) : K) = 0 := by
    push_cast
    push_cast at hz hz'
    rw [hz, hz', h2]; ring
  rw [ZMod.intCast_zmod_eq_zero_iff_dvd] at h3
  have hpos : 0 < (z'.val : ℤ) + T - (z.val + S) := by omega
  have := Int.le_of_dvd hpos h3
  omega

/-- concretely: with `t = 3` no two-coefficient sharing of secret 1000 has the first share of a sharing of 0 -/
example : 99 * ((3 : ℤ) - 1) < (1000 : ℤ) - 0 ∧ (1000 : ℤ) - 0 < secpN - 99 * ((3 : ℤ) - 1) := by decide

/-! ## C22 -/

/-- index by index sum of two share vectors (what a user of the library would write) -/
def addShares (env : Env) : List Share → List Share → R (List Share)
  | a :: as, b :: bs => do
    let v ← a.val.add env secpN b.val
    let rest ← addShares env as bs
    .ok (⟨a.idx, v⟩ :: rest)
  | _, _ => .ok []

/-- scaling every share value -/
def scaleShares (env : Env) (k : Fld) : List Share → R (List Share)
  | a :: as => do
    let v ← a.val.mul env secpN k
    let rest ← scaleShares env k as
    .ok (⟨a.idx, v⟩ :: rest)
  | _ => .ok []

theorem addShares_ok (env : Env) (l : List ℕ) (f g : K → K) :
    addShares env (l.map fun j : ℕ => mkShare (j : K) (f j)) (l.map fun j : ℕ => mkShare (j : K) (g j)) =
      .ok (l.map fun j : ℕ => mkShare (j : K) (f j + g j)) := by
  induction l with
  | nil => rfl
  | cons a l ih =>
    rw [List.map_cons, List.map_cons, addShares]
    simp only [mkShare, Fld.add_ofZ, R.ok_bind] at ih ⊢
    rw [ih]; rfl

theorem scaleShares_ok (env : Env) (k : K) (l : List ℕ) (f : K → K) :
    scaleShares env (Fld.ofZ k) (l.map fun j : ℕ => mkShare (j : K) (f j)) =
      .ok (l.map fun j : ℕ => mkShare (j : K) (f j * k)) := by
  induction l with
  | nil => rfl
  | cons a l ih =>
    rw [List.map_cons, scaleShares]
    simp only [mkShare, Fld.mul_ofZ, R.ok_bind] at ih ⊢
    rw [ih]; rfl

/-- C22: index-wise sums of two sharings reconstruct to the sum of the secrets from any `t` of them. -/
theorem C22_sum (env : Env) {t n : ℕ} (ht : 1 ≤ t) (ht' : t ≤ 2 ^ 58 - 1) (hn : n ≤ 2 ^ 57 - 1)
    {a b : Fld} (ha : IsElem secpN a) (hb : IsElem secpN b) {rand rand' : ℕ → ℤ} (hr : GoodRand rand)
    (hr' : GoodRand rand') :
    Ends (do addShares env (← getShares env t n a rand) (← getShares env t n b rand')) fun sums =>
      sums.length = n ∧ ∀ sel : List Share, sel.Nodup → (∀ s ∈ sel, s ∈ sums) → t ≤ sel.length →
        reconSecret env sel = Fld.add env secpN a b := by
  obtain ⟨z, rfl⟩ := isElem_iff.1 ha
  obtain ⟨w, rfl⟩ := isElem_iff.1 hb
  rw [getShares_ok env t n ht ht' hn z rand (fun i _ => by have := (hr i).2; omega),
    getShares_ok env t n ht ht' hn w rand' (fun i _ => by have := (hr' i).2; omega)]
  rw [R.ok_bind, R.ok_bind]
  refine ⟨_, addShares_ok env _ (fun x => (polyOf (coeffs t z rand)).eval x)
    (fun x => (polyOf (coeffs t w rand')).eval x), by simp, ?_⟩
  intro sel hsel hsub hlen
  have h1 := polyOf_degree (coeffs t z rand)
  have h2 := polyOf_degree (coeffs t w rand')
  rw [coeffs_length t ht] at h1 h2
  have hdeg : (polyOf (coeffs t z rand) + polyOf (coeffs t w rand')).degree < sel.length :=
    lt_of_lt_of_le (lt_of_le_of_lt (degree_add_le _ _) (max_lt h1 h2)) (by exact_mod_cast hlen)
  rw [recon_sel env (n := n) hsel (by simpa only [eval_add] using hsub) hdeg, Fld.add_ofZ, eval_add, coeffs,
    coeffs, polyOf_eval_zero, polyOf_eval_zero]

/-- C22: scaling every share scales the secret. -/
theorem C22_scale (env : Env) {t n : ℕ} (ht : 1 ≤ t) (ht' : t ≤ 2 ^ 58 - 1) (hn : n ≤ 2 ^ 57 - 1)
    {a k : Fld} (ha : IsElem secpN a) (hk : IsElem secpN k) {rand : ℕ → ℤ} (hr : GoodRand rand) :
    Ends (do scaleShares env k (← getShares env t n a rand)) fun scaled =>
      scaled.length = n ∧ ∀ sel : List Share, sel.Nodup → (∀ s ∈ sel, s ∈ scaled) → t ≤ sel.length →
        reconSecret env sel = Fld.mul env secpN a k := by
  obtain ⟨z, rfl⟩ := isElem_iff.1 ha
  obtain ⟨w, rfl⟩ := isElem_iff.1 hk
  rw [getShares_ok env t n ht ht' hn z rand (fun i _ => by have := (hr i).2; omega)]
  rw [R.ok_bind]
  refine ⟨_, scaleShares_ok env w _ (fun x => (polyOf (coeffs t z rand)).eval x), by simp, ?_⟩
  intro sel hsel hsub hlen
  have h1 := polyOf_degree (coeffs t z rand)
  rw [coeffs_length t ht] at h1
  have hdeg : (polyOf (coeffs t z rand) * C w).degree < sel.length := by
    refine lt_of_lt_of_le ?_ (show (t : WithBot ℕ) ≤ sel.length by exact_mod_cast hlen)
    rw [mul_comm]
    exact lt_of_le_of_lt (degree_C_mul_le' _ _) h1
  rw [recon_sel env (n := n) hsel (by simpa only [eval_mul, eval_C] using hsub) hdeg, Fld.mul_ofZ, eval_mul,
    eval_C, coeffs, polyOf_eval_zero]

example : (do
    let sh ← getShares ⟨false, fun _ => none⟩ 2 3 ⟨7, secpN⟩ (fun i => 41 + i)
    let sh' ← getShares ⟨false, fun _ => none⟩ 2 3 ⟨8, secpN⟩ (fun i => 1234 + i)
    match ← addShares ⟨false, fun _ => none⟩ sh sh' with
    | [a, _, c] => reconSecret ⟨false, fun _ => none⟩ [c, a]
    | _ => .error .exception) = .ok ⟨15, secpN⟩ := by decide +kernel

/-! ## C23 -/

theorem lift_shares {l : List Share} (h : ∀ s ∈ l, IsElem secpN s.idx ∧ IsElem secpN s.val) :
    ∃ s : List (K × K), l = s.map fun p => mkShare p.1 p.2 := by
  induction l with
  | nil => exact ⟨[], rfl⟩
  | cons a l ih =>
    obtain ⟨s, hs⟩ := ih fun c hc => h c (by simp [hc])
    obtain ⟨x, hx⟩ := isElem_iff.1 (h a (by simp)).1
    obtain ⟨y, hy⟩ := isElem_iff.1 (h a (by simp)).2
    refine ⟨(x, y) :: s, ?_⟩
    rw [List.map_cons, ← hs]
    simp [mkShare, ← hx, ← hy]

/-- C23: a repeated index never yields a defined result, and with pairwise different indices there always is
one. -/
theorem C23_repeated (env : Env) {l : List Share} (h : ∀ s ∈ l, IsElem secpN s.idx ∧ IsElem secpN s.val) :
    (¬ (l.map fun s => s.idx).Nodup → Faults (reconSecret env l)) ∧
    ((l.map fun s => s.idx).Nodup → Ends (reconSecret env l) (IsElem secpN)) := by
  obtain ⟨s, rfl⟩ := lift_shares h
  have hx : ((s.map fun p => mkShare p.1 p.2).map fun s => s.idx).Nodup ↔ (xs s).Nodup := by
    have : (s.map fun p => mkShare p.1 p.2).map (fun s => s.idx) = (xs s).map Fld.ofZ := by
      simp [xs, mkShare, Function.comp_def]
    rw [this, List.nodup_map_iff Fld.ofZ_injective]
  rw [hx]
  constructor
  · intro hn
    refine ⟨.undefInverse, ?_⟩
    rw [reconSecret, Fld.zero_eq, reconOuter_fault]
    obtain ⟨k, hk, hd⟩ := denom_eq_zero s hn
    exact ⟨k, hk, by rwa [zero_add]⟩
  · intro hn
    rw [reconSecret, Fld.zero_eq, reconOuter_ok env s 0 s 0 (by
      intro k hk; rw [zero_add]; exact denom_ne s hn k hk)]
    exact ⟨_, rfl, isElem_ofZ _⟩

/-- C23: no shares at all reconstruct to 0. -/
theorem C23_empty (env : Env) : reconSecret env [] = .ok ⟨0, secpN⟩ := rfl

/-- C23: a threshold of 0 never returns. -/
theorem C23_zero_threshold (env : Env) (n : ℕ) (secret : Fld) (rand : ℕ → ℤ) :
    Faults (getShares env 0 n secret rand) := ⟨.exception, by rw [getShares, if_pos (by decide)]⟩

/-- C23: a threshold from `2^58` on, or a number of shares from `2^57` on, never returns: the vectors cannot hold that many
elements. -/
theorem C23_too_many (env : Env) {t n : ℕ} (ht : t < 2 ^ 64) (h : 2 ^ 58 ≤ t ∨ 2 ^ 57 ≤ n) (secret : Fld) (rand : ℕ → ℤ) :
    Faults (getShares env t n secret rand) := by
  refine ⟨.exception, ?_⟩
  unfold getShares
  by_cases h1 : maxCoeffs < (t + (2 ^ 64 - 1)) % 2 ^ 64 + 1
  · rw [if_pos h1]
  · rw [if_neg h1, if_pos]
    unfold maxCoeffs at h1
    unfold maxShares
    omega

example (env : Env) : Faults (getShares env 2 (2 ^ 57) (Fld.mk' secpN 5) fun _ => 3) :=
  C23_too_many env (by norm_num) (.inr le_rfl) _ _

/-- C23: drawing `INT_MAX` for any of the `t-1` coefficients is undefined behaviour. -/
theorem C23_int_max (env : Env) {t n : ℕ} (ht' : t ≤ 2 ^ 58 - 1) (hn : n ≤ 2 ^ 57 - 1)
    (secret : Fld) (rand : ℕ → ℤ) (h : ∃ i < t - 1, rand i = 2 ^ 31 - 1) :
    getShares env t n secret rand = .error .signedOverflow := by
  obtain ⟨i, hi, hr⟩ := h
  have h64 : t < 2 ^ 64 := lt_of_le_of_lt ht' (by decide)
  rw [getShares]
  simp only [cnt_eq t (by omega) h64]
  rw [if_neg (by unfold maxCoeffs; omega), if_neg (by unfold maxShares; omega), drawCoeffs_error, R.error_bind]
  exact ⟨rand i, List.mem_map.2 ⟨i, List.mem_range.2 hi, rfl⟩, by rw [hr]; norm_num⟩

example : ¬ ([(⟨⟨1, secpN⟩, ⟨5, secpN⟩⟩ : Share), ⟨⟨1, secpN⟩, ⟨6, secpN⟩⟩].map fun s => s.idx).Nodup := by
  decide

end Shamir
end Verif
