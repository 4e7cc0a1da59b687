import Verif.Props.PudaExact

/-!
# C120: an aggregator that colludes with some of the users
-/

namespace Verif
namespace Puda

open EC

variable {env : Env}

/-- what the aggregator sees at timestamp `t` (`view`), and all users' encryption and signing keys, of which it gets some -/
def insider (env : Env) (pp : Param) (k : Coins) (ms : List Msg) (t : ℤ) :
    R ((Param × Fld × VerifKey × List Pt × List Pt) × List Fld × List SignKey) := do
  let (pp, ks) ← setup env pp k
  let cs ← encAll env pp t (ks.ekv.zip ms)
  let ts ← tagAll env pp t (ks.skv.zip ms)
  .ok ((pp, ks.ak, ks.vk, cs, ts), ks.ekv, ks.skv)

/-- an aggregator that has the keys of the users in `S` cannot tell the two apart -/
def SameFor (S : Set ℕ) (v w : (Param × Fld × VerifKey × List Pt × List Pt) × List Fld × List SignKey) : Prop :=
  SameView v.1 w.1 ∧ ∀ i ∈ S, v.2.1[i]? = w.2.1[i]? ∧ v.2.2[i]? = w.2.2[i]?

/-- the keys of a user whose message stays are not changed -/
theorem adjust_keep (w a : F) {us : List (ℤ × ℤ)} {ms ms' : List Msg} (h1 : us.length = ms.length) (h2 : ms'.length = ms.length)
    (hus : ∀ u ∈ us, Coin u.1 ∧ Coin u.2) {i : ℕ} (hi : ms[i]? = ms'[i]?) : (adjust w a us ms ms')[i]? = us[i]? := by
  induction us generalizing ms ms' i with
  | nil => simp [adjust]
  | cons u us ih =>
    rcases ms with _ | ⟨m, ms⟩
    · simp at h1
    rcases ms' with _ | ⟨m', ms'⟩
    · simp at h2
    cases i with
    | succ i =>
      simp only [List.getElem?_cons_succ] at hi
      have := ih (ms := ms) (ms' := ms') (by simpa using h1) (by simpa using h2) (fun v hv => hus v (by simp [hv])) hi
      simpa [adjust] using this
    | zero =>
      obtain rfl : m = m' := by simpa using hi
      obtain ⟨c1, c2⟩ := hus u (by simp)
      have hz : ∀ x : ℤ, Coin x → shift 0 x = x := fun x hx =>
        Dme.coin_cast_inj (shift_coin _ _) hx (by rw [shift_cast, add_zero])
      simp only [adjust, List.zip_cons_cons, List.map_cons, List.getElem?_cons_zero, sub_self, zero_mul, hz _ c1, hz _ c2]

/-- every ciphertext as a group element -/
theorem encAll_list {pp : Param} {H : Grp CC} (r : RepParam env pp H) (t : ℤ) (us : List (ℤ × ℤ))
    (ms : List Msg) (hlen : us.length = ms.length) :
    ∃ cs, encAll env pp t ((us.map fun u : ℤ × ℤ => Fld.ofZ (u.1 : F)).zip ms) = .ok cs ∧
      List.Forall₂ (Rep env) cs ((us.zip ms).map fun e => (e.1.1 : F) • (t : F) • H + ((e.2.val : ℕ) : F) • (G : Grp CC)) := by
  induction us generalizing ms with
  | nil =>
    obtain rfl : ms = [] := by simpa using hlen.symm
    exact ⟨[], rfl, .nil⟩
  | cons u us ih =>
    obtain ⟨m, ms, rfl⟩ : ∃ m ms', ms = m :: ms' := by cases ms <;> simp at hlen ⊢
    obtain ⟨cs, h1, h2⟩ := ih ms (by simpa using hlen)
    obtain ⟨c, f1, f2⟩ := enc_rep r (u.1 : F) m t
    exact ⟨c :: cs, by simp only [List.map_cons, List.zip_cons_cons, encAll, f1, h1, R.ok_bind], .cons f2 h2⟩

theorem insider_view {pp : Param} {k : Coins} {ms : List Msg} {t : ℤ} {v} (h : insider env pp k ms t = .ok v) :
    view env pp k ms t = .ok v.1 := by
  unfold insider at h
  obtain ⟨s, h1, h⟩ := R.bind_eq_ok.1 h
  obtain ⟨cs, h2, h⟩ := R.bind_eq_ok.1 h
  obtain ⟨ts, h3, h⟩ := R.bind_eq_ok.1 h
  obtain rfl := Except.ok.inj h
  simp only [view, h1, h2, h3, R.ok_bind]

/-- the public parameters do not depend on the users -/
theorem setup_param {pp : Param} {kh ka : ℤ} {us us' : List (ℤ × ℤ)} {s s' : Param × Keys}
    (e1 : setup env pp ⟨kh, ka, us⟩ = .ok s) (e1' : setup env pp ⟨kh, ka, us'⟩ = .ok s') : s.1 = s'.1 := by
  simp only [setup] at e1 e1'
  obtain ⟨g1, f1, e1⟩ := R.bind_eq_ok.1 e1
  obtain ⟨g1', f1', e1'⟩ := R.bind_eq_ok.1 e1'
  obtain rfl := Except.ok.inj (f1.symm.trans f1')
  obtain ⟨g2, f2, e1⟩ := R.bind_eq_ok.1 e1
  obtain ⟨g2', f2', e1'⟩ := R.bind_eq_ok.1 e1'
  obtain rfl := Except.ok.inj (f2.symm.trans f2')
  obtain ⟨g3, f3, e1⟩ := R.bind_eq_ok.1 e1
  obtain ⟨g3', f3', e1'⟩ := R.bind_eq_ok.1 e1'
  obtain rfl := Except.ok.inj (f3.symm.trans f3')
  obtain ⟨g4, f4, e1⟩ := R.bind_eq_ok.1 e1
  obtain ⟨g4', f4', e1'⟩ := R.bind_eq_ok.1 e1'
  obtain ⟨g5, f5, e1⟩ := R.bind_eq_ok.1 e1
  obtain ⟨g5', f5', e1'⟩ := R.bind_eq_ok.1 e1'
  obtain ⟨g6, f6, e1⟩ := R.bind_eq_ok.1 e1
  obtain ⟨g6', f6', e1'⟩ := R.bind_eq_ok.1 e1'
  obtain ⟨g7, f7, e1⟩ := R.bind_eq_ok.1 e1
  obtain ⟨g7', f7', e1'⟩ := R.bind_eq_ok.1 e1'
  rw [← Except.ok.inj e1, ← Except.ok.inj e1']

/-- C120 (part): for every `int` timestamp other than 0 and every draw of a finite hash point, an aggregator that has the encryption
and signing keys of the users in `S` (and so the secret `a`) cannot tell apart two vectors of messages that agree on `S` and have the
same total: a bijection of the users' keys, which leaves those of `S` as they are, turns its view of one into its view of the other.
Missing: timestamp 0, an infinite hash point, and several timestamps, where the property fails (C40, C70, C115). -/
theorem C120_only_rest_partial (env : Env) {pp : Param} (hl1 : LiveGen env pp.curve1) (hl2 : LiveGen env pp.curve2)
    {kh ka : ℤ} (hh : Coin kh) (hh0 : kh ≠ 0) {t : ℤ} (ht : t ≠ 0) (ht1 : -2 ^ 31 ≤ t) (ht2 : t < 2 ^ 31)
    {ms ms' : List Msg} (hlen : ms'.length = ms.length) {S : Set ℕ} (hS : ∀ i ∈ S, ms[i]? = ms'[i]?)
    (hsum : (ms.map Fin.val).sum = (ms'.map Fin.val).sum) :
    ∃ φ : List (ℤ × ℤ) → List (ℤ × ℤ), Set.BijOn φ (userCoins ms.length) (userCoins ms.length) ∧
      ∀ us ∈ userCoins ms.length, Ends (insider env pp ⟨kh, ka, us⟩ ms t) fun v =>
        Ends (insider env pp ⟨kh, ka, φ us⟩ ms' t) fun v' => SameFor S v v' := by
  have hz : (kh : F) ≠ 0 := fun h => hh0 (Dme.coin_cast_inj hh ⟨le_rfl, by decide⟩ (by simpa using h))
  have htz := int_cast_ne_zero ht ht1 ht2
  set w : F := ((t : F) * (kh : F))⁻¹ with hwdef
  have hw : w * ((t : F) * (kh : F)) = 1 := inv_mul_cancel₀ (mul_ne_zero htz hz)
  refine ⟨fun us => adjust w (ka : F) us ms ms', ⟨fun us h => adjust_mem _ _ h.1 hlen, ?_, ?_⟩, ?_⟩
  · intro us h us' h' e
    simp only at e
    rw [← adjust_adjust w (ka : F) h.1 hlen h.2, e, adjust_adjust w (ka : F) h'.1 hlen h'.2]
  · intro us h
    refine ⟨adjust w (ka : F) us ms' ms, ?_, ?_⟩
    · have := adjust_mem w (ka : F) (us := us) (ms := ms') (ms' := ms) (h.1.trans hlen.symm) hlen.symm
      rwa [hlen] at this
    · exact adjust_adjust w (ka : F) (h.1.trans hlen.symm) hlen.symm h.2
  · intro us h
    obtain ⟨qq, v1, v2, e1, r, hv1, hv2⟩ := setup_rep hl1 hl2 ⟨kh, ka, us⟩
    obtain ⟨qq', v1', v2', e1', r', hv1', hv2'⟩ := setup_rep hl1 hl2 ⟨kh, ka, adjust w (ka : F) us ms ms'⟩
    obtain rfl : qq = qq' := setup_param e1 e1'
    obtain ⟨cs, cs', a1, a2, a3⟩ := encAll_same r hw h.1 hlen (a := (ka : F))
    obtain ⟨ts, ts', b1, b2, b3⟩ := tagAll_same r hw h.1 hlen (a := (ka : F))
    obtain ⟨s1, s2⟩ := adjust_sums w (ka : F) h.1 hlen
    have hsum' : total ms = total ms' := hsum
    rw [hsum', sub_self, zero_mul, add_zero] at s1
    rw [hsum', sub_self, zero_mul, zero_mul, add_zero] at s2
    refine ⟨_, by simp only [insider, e1, R.ok_bind, a1, b1]; rfl, _, by simp only [insider, e1', R.ok_bind, a2, b2]; rfl, ?_, ?_⟩
    · refine ⟨rfl, by simp only [s1], ?_, ?_, a3, b3⟩
      · simp only at hv1 hv1' ⊢
        rw [s2] at hv1'
        exact (samePoint_iff hv1 hv1').2 rfl
      · exact (samePoint_iff hv2 hv2').2 rfl
    · intro i hi
      have := adjust_keep w (ka : F) h.1 hlen h.2 (hS i hi)
      simp only [List.getElem?_map, this, and_self]

/-- C120, exactly: for a timestamp and a hash draw other than 0, such a bijection exists if and only if the two vectors agree on `S` and
have the same total; in the other cases the aggregator's views are never the same. -/
theorem C120_exact (env : Env) {pp : Param} (hl1 : LiveGen env pp.curve1) (hl2 : LiveGen env pp.curve2)
    {kh ka : ℤ} (hh : Coin kh) (hh0 : kh ≠ 0) {t : ℤ} (ht : t ≠ 0) (ht1 : -2 ^ 31 ≤ t) (ht2 : t < 2 ^ 31)
    {ms ms' : List Msg} (hlen : ms'.length = ms.length) (hsz : ms.length < 2 ^ 64) (S : Set ℕ) :
    ((∃ φ : List (ℤ × ℤ) → List (ℤ × ℤ), Set.BijOn φ (userCoins ms.length) (userCoins ms.length) ∧
      ∀ us ∈ userCoins ms.length, Ends (insider env pp ⟨kh, ka, us⟩ ms t) fun v =>
        Ends (insider env pp ⟨kh, ka, φ us⟩ ms' t) fun v' => SameFor S v v') ↔
      (∀ i ∈ S, ms[i]? = ms'[i]?) ∧ (ms.map Fin.val).sum = (ms'.map Fin.val).sum) ∧
    ((∃ us ∈ userCoins ms.length, ∃ us' ∈ userCoins ms.length, Ends (insider env pp ⟨kh, ka, us⟩ ms t) fun v =>
        Ends (insider env pp ⟨kh, ka, us'⟩ ms' t) fun v' => SameFor S v v') ↔
      (∀ i ∈ S, ms[i]? = ms'[i]?) ∧ (ms.map Fin.val).sum = (ms'.map Fin.val).sum) := by
  have ca : (∀ i ∈ S, ms[i]? = ms'[i]?) ∧ (ms.map Fin.val).sum = (ms'.map Fin.val).sum → _ := fun h =>
    C120_only_rest_partial env hl1 hl2 (ka := ka) hh hh0 ht ht1 ht2 hlen h.1 h.2
  have ab : (∃ φ : List (ℤ × ℤ) → List (ℤ × ℤ), Set.BijOn φ (userCoins ms.length) (userCoins ms.length) ∧
      ∀ us ∈ userCoins ms.length, Ends (insider env pp ⟨kh, ka, us⟩ ms t) fun v =>
        Ends (insider env pp ⟨kh, ka, φ us⟩ ms' t) fun v' => SameFor S v v') →
      ∃ us ∈ userCoins ms.length, ∃ us' ∈ userCoins ms.length, Ends (insider env pp ⟨kh, ka, us⟩ ms t) fun v =>
        Ends (insider env pp ⟨kh, ka, us'⟩ ms' t) fun v' => SameFor S v v' := by
    rintro ⟨φ, hφ, h⟩
    obtain ⟨us, hu⟩ := userCoins_nonempty ms.length
    exact ⟨us, hu, φ us, hφ.mapsTo hu, h us hu⟩
  have bc : (∃ us ∈ userCoins ms.length, ∃ us' ∈ userCoins ms.length, Ends (insider env pp ⟨kh, ka, us⟩ ms t) fun v =>
        Ends (insider env pp ⟨kh, ka, us'⟩ ms' t) fun v' => SameFor S v v') →
      (∀ i ∈ S, ms[i]? = ms'[i]?) ∧ (ms.map Fin.val).sum = (ms'.map Fin.val).sum := by
    rintro ⟨us, hu, us', hu', v, e, v', e', hs, hk⟩
    refine ⟨fun i hi => ?_, (sameView_total hl1 hl2 hlen hsz hu.1 hu'.1 ⟨_, insider_view e, _, insider_view e', hs⟩).1⟩
    obtain ⟨k1, -⟩ := hk i hi
    obtain ⟨-, -, -, -, h5, -⟩ := hs
    obtain ⟨qq, v1, v2, e1, r, -, -⟩ := setup_rep hl1 hl2 ⟨kh, ka, us⟩
    obtain ⟨qq', v1', v2', e1', r', -, -⟩ := setup_rep hl1 hl2 ⟨kh, ka, us'⟩
    obtain ⟨cs, a1, a2⟩ := encAll_list r t us ms hu.1
    obtain ⟨cs', b1, b2⟩ := encAll_list r' t us' ms' (hu'.1.trans hlen.symm)
    obtain ⟨ts, Ts, c1, -, -⟩ := tagAll_rep r ((ka : F).val : ℤ) t us ms hu.1
    obtain ⟨ts', Ts', d1, -, -⟩ := tagAll_rep r' ((ka : F).val : ℤ) t us' ms' (hu'.1.trans hlen.symm)
    simp only [insider, e1, e1', R.ok_bind, a1, b1, c1, d1] at e e'
    obtain rfl := Except.ok.inj e
    obtain rfl := Except.ok.inj e'
    have hA := congrArg (fun l => l[i]?) (forall₂_rep_eq a2 b2 h5)
    by_cases hi' : i < ms.length
    · have hx : i < us.length := by rw [hu.1]; exact hi'
      have hx' : i < us'.length := by rw [hu'.1]; exact hi'
      have hy' : i < ms'.length := by rw [hlen]; exact hi'
      simp only [List.getElem?_map, List.getElem?_eq_getElem hx, List.getElem?_eq_getElem hx', Option.map_some, Option.some.injEq] at k1
      have k2 : ((us[i].1 : ℤ) : F) = ((us'[i].1 : ℤ) : F) := by
        have := congrArg (fun f : Fld => (f.value : F)) k1
        simpa [Fld.ofZ] using this
      have hz1 : i < (us.zip ms).length := by simp [hx, hi']
      have hz2 : i < (us'.zip ms').length := by simp [hx', hy']
      simp only [List.getElem?_map, List.getElem?_eq_getElem hz1, List.getElem?_eq_getElem hz2, Option.map_some, Option.some.injEq,
        List.getElem_zip] at hA
      rw [k2, add_right_inj, smul_inj G_ne_zero, ZMod.natCast_eq_natCast_iff', Nat.mod_eq_of_lt, Nat.mod_eq_of_lt] at hA
      · rw [List.getElem?_eq_getElem hi', List.getElem?_eq_getElem hy', Fin.ext hA]
      · exact lt_trans (Fin.isLt _) (by decide)
      · exact lt_trans (Fin.isLt _) (by decide)
    · rw [List.getElem?_eq_none (by omega), List.getElem?_eq_none (by omega)]
  exact ⟨⟨fun h => bc (ab h), ca⟩, bc, fun h => ab (ca h)⟩

/-- the second of four users colludes; the others exchange their messages -/
example : Coin 7 ∧ (∀ i ∈ ({1} : Set ℕ), ([1, 4, 2, 0] : List Msg)[i]? = ([0, 4, 1, 2] : List Msg)[i]?) ∧
    (([1, 4, 2, 0] : List Msg).map Fin.val).sum = (([0, 4, 1, 2] : List Msg).map Fin.val).sum ∧
    ([1, 4, 2, 0] : List Msg) ≠ [0, 4, 1, 2] := by
  refine ⟨⟨by decide, by decide⟩, ?_, by decide, by decide⟩
  rintro i rfl
  rfl

end Puda
end Verif
