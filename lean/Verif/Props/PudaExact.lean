import Verif.Props.PudaPrivacy

/-!
# C40, C70: for which timestamps and draws the properties hold
-/

namespace Verif
namespace Puda

open EC

/-- C40, exactly: after a set-up, for every `int` timestamp, every message can be encrypted to every point under exactly one
key if and only if neither the timestamp nor the draw of the hash point is 0. -/
theorem C40_exact (env : Env) {pp : Param} (hl1 : LiveGen env pp.curve1) (hl2 : LiveGen env pp.curve2)
    (k : Coins) (hk : Coin k.hash) (t : ℤ) (ht1 : -2 ^ 31 ≤ t) (ht2 : t < 2 ^ 31) :
    Ends (setup env pp k) fun s =>
      ((∀ (m : Msg) (c : Pt), Valid env CC c →
        ∃! ek : ℤ, Coin ek ∧ ∃ x, enc env s.1 (Fld.mk' CC.fn ek) m t = .ok x ∧ SamePoint x c) ↔ t ≠ 0 ∧ k.hash ≠ 0) := by
  obtain ⟨pp', v1, v2, e1, r, -, -⟩ := setup_rep hl1 hl2 k
  refine ⟨_, e1, ?_⟩
  dsimp only
  constructor
  · intro h
    by_contra hn
    have hz : t = 0 ∨ k.hash = 0 := by tauto
    obtain ⟨_, e2, h2⟩ := C40_reveals_counterexample env hl1 hl2 k t hz 0 0
    obtain ⟨_, e3, h3⟩ := C40_reveals_counterexample env hl1 hl2 k t hz 0 1
    obtain rfl := Except.ok.inj (e1.symm.trans e2)
    obtain rfl := Except.ok.inj (e1.symm.trans e3)
    obtain ⟨x, y, a1, a2, a3⟩ := h2
    obtain ⟨x', y', b1, b2, b3⟩ := h3
    dsimp only at a1 a2 b1 b2
    obtain rfl := Except.ok.inj (a2.symm.trans b2)
    obtain ⟨y0, c1, c2⟩ := smulI_rep r.g1 (((0 : Msg).val : ℕ) : ℤ)
    obtain rfl := Except.ok.inj (a2.symm.trans c1)
    obtain ⟨x0, d1, d2⟩ := enc_rep r ((0 : ℤ) : F) 0 t
    obtain ⟨x1, f1, f2⟩ := enc_rep r ((1 : ℤ) : F) 0 t
    rw [← Fld.mk'_eq] at d1 f1
    obtain rfl := Except.ok.inj (a1.symm.trans d1)
    obtain rfl := Except.ok.inj (b1.symm.trans f1)
    rw [rep_beq d2 c2, Except.ok.injEq, decide_eq_true_eq] at a3
    rw [rep_beq f2 c2, Except.ok.injEq, decide_eq_true_eq] at b3
    have hu := (h 0 y c2.valid).unique
      (y₁ := 0) (y₂ := 1) ⟨⟨le_rfl, by decide⟩, x, a1, (samePoint_iff d2 c2).2 a3⟩
      ⟨⟨by decide, by decide⟩, x', b1, (samePoint_iff f2 c2).2 b3⟩
    exact absurd hu (by decide)
  · rintro ⟨h1, h2⟩ m c hc
    obtain ⟨_, e2, h3⟩ := C40_hides_partial env hl1 hl2 k hk h2
    obtain rfl := Except.ok.inj (e1.symm.trans e2)
    exact h3 t h1 ht1 ht2 m c hc

variable {env : Env}

theorem forall₂_rep_eq {cs cs' : List Pt} {As Bs : List (Grp CC)} (h : List.Forall₂ (Rep env) cs As)
    (h' : List.Forall₂ (Rep env) cs' Bs) (hs : List.Forall₂ SamePoint cs cs') : As = Bs := by
  induction hs generalizing As Bs with
  | nil => cases h; cases h'; rfl
  | cons a _ ih =>
    cases h with
    | cons p hp =>
      cases h' with
      | cons q hq => rw [(samePoint_iff p q).1 a, ih hp hq]

theorem forall₂_samePoint {cs : List Pt} {As : List (Grp CC)} (h : List.Forall₂ (Rep env) cs As) :
    List.Forall₂ SamePoint cs cs := by
  induction h with
  | nil => exact .nil
  | cons p _ ih => exact .cons ((samePoint_iff p p).2 rfl) ih

/-- without a mask the ciphertexts are `g1 * m` -/
theorem encAll_bare {pp : Param} {H : Grp CC} (r : RepParam env pp H) {t : ℤ} (hz : (t : F) • H = 0) (us : List (ℤ × ℤ))
    (ms : List Msg) (hlen : us.length = ms.length) :
    ∃ cs, encAll env pp t ((us.map fun u : ℤ × ℤ => Fld.ofZ (u.1 : F)).zip ms) = .ok cs ∧
      List.Forall₂ (Rep env) cs (ms.map fun m => ((m.val : ℕ) : F) • (G : Grp CC)) := by
  induction us generalizing ms with
  | nil =>
    obtain rfl : ms = [] := by simpa using hlen.symm
    exact ⟨[], rfl, .nil⟩
  | cons u us ih =>
    obtain ⟨m, ms, rfl⟩ : ∃ m ms', ms = m :: ms' := by cases ms <;> simp at hlen ⊢
    obtain ⟨cs, h1, h2⟩ := ih ms (by simpa using hlen)
    obtain ⟨c, f1, f2⟩ := enc_rep r (u.1 : F) m t
    rw [hz, smul_zero, zero_add] at f2
    exact ⟨c :: cs, by simp only [List.map_cons, List.zip_cons_cons, encAll, f1, h1, R.ok_bind], .cons f2 h2⟩

theorem total_lt {ms : List Msg} (h : ms.length < 2 ^ 64) : total ms < CC.fn := by
  have : total ms ≤ ms.length * 65536 := by
    clear h
    induction ms with
    | nil => simp [total]
    | cons m ms ih =>
      have := m.isLt
      simp only [total, List.map_cons, List.sum_cons, List.length_cons] at ih ⊢
      omega
  have h2 : 2 ^ 64 * 65536 < CC.fn := by decide
  omega

theorem map_inj_msg {ms ms' : List Msg}
    (h : (ms.map fun m => ((m.val : ℕ) : F) • (G : Grp CC)) = ms'.map fun m => ((m.val : ℕ) : F) • (G : Grp CC)) : ms = ms' := by
  refine List.map_injective_iff.2 ?_ h
  intro a b hab
  simp only at hab
  rw [smul_inj G_ne_zero, ZMod.natCast_eq_natCast_iff', Nat.mod_eq_of_lt, Nat.mod_eq_of_lt] at hab
  · exact Fin.ext hab
  · exact lt_trans b.isLt (by decide)
  · exact lt_trans a.isLt (by decide)

/-- two views under the same public draws coincide only if the totals do, and without a mask only if the messages do -/
theorem sameView_total {pp : Param} (hl1 : LiveGen env pp.curve1) (hl2 : LiveGen env pp.curve2) {kh ka : ℤ} {t : ℤ}
    {ms ms' : List Msg} (hlen : ms'.length = ms.length) (hsz : ms.length < 2 ^ 64) {us us' : List (ℤ × ℤ)}
    (hu : us.length = ms.length) (hu' : us'.length = ms.length)
    (h : Ends (view env pp ⟨kh, ka, us⟩ ms t) fun v => Ends (view env pp ⟨kh, ka, us'⟩ ms' t) fun v' => SameView v v') :
    total ms = total ms' ∧ ((t : F) • (kh : F) • (G : Grp CC) = 0 → ms = ms') := by
  obtain ⟨v, e, v', e', hs⟩ := h
  obtain ⟨qq, v1, v2, e1, r, -, -⟩ := setup_rep hl1 hl2 ⟨kh, ka, us⟩
  obtain ⟨qq', v1', v2', e1', r', -, -⟩ := setup_rep hl1 hl2 ⟨kh, ka, us'⟩
  obtain ⟨cs, As, a1, a2, a3⟩ := encAll_rep r t us ms hu
  obtain ⟨cs', As', b1, b2, b3⟩ := encAll_rep r' t us' ms' (hu'.trans hlen.symm)
  obtain ⟨ts, Ts, c1, -, -⟩ := tagAll_rep r ((ka : F).val : ℤ) t us ms hu
  obtain ⟨ts', Ts', d1, -, -⟩ := tagAll_rep r' ((ka : F).val : ℤ) t us' ms' (hu'.trans hlen.symm)
  simp only [view, e1, e1', R.ok_bind, a1, b1, c1, d1] at e e'
  obtain rfl := Except.ok.inj e
  obtain rfl := Except.ok.inj e'
  obtain ⟨-, h2, -, -, h5, -⟩ := hs
  dsimp only at h2 h5
  constructor
  · have hA := forall₂_rep_eq a2 b2 h5
    rw [hA, b3] at a3
    have hk : (us.map fun u : ℤ × ℤ => (u.1 : F)).sum = (us'.map fun u : ℤ × ℤ => (u.1 : F)).sum := by
      have := congrArg (fun f : Fld => (f.value : F)) h2
      simpa [Fld.ofZ] using this
    rw [hk, add_right_inj, smul_inj G_ne_zero, ZMod.natCast_eq_natCast_iff', Nat.mod_eq_of_lt (total_lt hsz),
      Nat.mod_eq_of_lt (total_lt (by rw [hlen]; exact hsz))] at a3
    exact a3.symm
  · intro hz
    obtain ⟨_, f1, f2⟩ := encAll_bare r hz us ms hu
    obtain ⟨_, g1, g2⟩ := encAll_bare r' hz us' ms' (hu'.trans hlen.symm)
    obtain rfl := Except.ok.inj (a1.symm.trans f1)
    obtain rfl := Except.ok.inj (b1.symm.trans g1)
    exact map_inj_msg (forall₂_rep_eq f2 g2 h5)

theorem userCoins_nonempty (n : ℕ) : (userCoins n).Nonempty :=
  ⟨List.replicate n (0, 0), by simp, by
    intro u hu
    obtain rfl := List.eq_of_mem_replicate hu
    exact ⟨⟨le_rfl, by decide⟩, ⟨le_rfl, by decide⟩⟩⟩

/-- C70, exactly: take `int` timestamps, a draw of the hash point, and two vectors of as many messages. If timestamp and draw
are not 0, a bijection of the users' keys turns the aggregator's view of one into its view of the other exactly if the
totals are equal; otherwise exactly if the vectors are equal. In the remaining cases no two views are ever the same. -/
theorem C70_exact (env : Env) {pp : Param} (hl1 : LiveGen env pp.curve1) (hl2 : LiveGen env pp.curve2)
    {kh ka : ℤ} (hh : Coin kh) {t : ℤ} (ht1 : -2 ^ 31 ≤ t) (ht2 : t < 2 ^ 31)
    {ms ms' : List Msg} (hlen : ms'.length = ms.length) (hsz : ms.length < 2 ^ 64) :
    ((∃ φ : List (ℤ × ℤ) → List (ℤ × ℤ), Set.BijOn φ (userCoins ms.length) (userCoins ms.length) ∧
      ∀ us ∈ userCoins ms.length, Ends (view env pp ⟨kh, ka, us⟩ ms t) fun v =>
        Ends (view env pp ⟨kh, ka, φ us⟩ ms' t) fun v' => SameView v v') ↔
      if t ≠ 0 ∧ kh ≠ 0 then total ms = total ms' else ms = ms') ∧
    ((∃ us ∈ userCoins ms.length, ∃ us' ∈ userCoins ms.length, Ends (view env pp ⟨kh, ka, us⟩ ms t) fun v =>
        Ends (view env pp ⟨kh, ka, us'⟩ ms' t) fun v' => SameView v v') ↔
      if t ≠ 0 ∧ kh ≠ 0 then total ms = total ms' else ms = ms') := by
  set A := ∃ φ : List (ℤ × ℤ) → List (ℤ × ℤ), Set.BijOn φ (userCoins ms.length) (userCoins ms.length) ∧
      ∀ us ∈ userCoins ms.length, Ends (view env pp ⟨kh, ka, us⟩ ms t) fun v =>
        Ends (view env pp ⟨kh, ka, φ us⟩ ms' t) fun v' => SameView v v' with hA
  set B := ∃ us ∈ userCoins ms.length, ∃ us' ∈ userCoins ms.length, Ends (view env pp ⟨kh, ka, us⟩ ms t) fun v =>
        Ends (view env pp ⟨kh, ka, us'⟩ ms' t) fun v' => SameView v v' with hB
  have ab : A → B := by
    rintro ⟨φ, hφ, h⟩
    obtain ⟨us, hu⟩ := userCoins_nonempty ms.length
    exact ⟨us, hu, φ us, hφ.mapsTo hu, h us hu⟩
  have bc : B → if t ≠ 0 ∧ kh ≠ 0 then total ms = total ms' else ms = ms' := by
    rintro ⟨us, hu, us', hu', h⟩
    obtain ⟨h1, h2⟩ := sameView_total hl1 hl2 hlen hsz hu.1 hu'.1 h
    split_ifs with hc
    · exact h1
    · refine h2 ?_
      rcases not_and_or.1 hc with h | h
      · rw [not_not.1 h, Int.cast_zero, zero_smulG]
      · rw [not_not.1 h, Int.cast_zero, zero_smulG, smul_zero]
  have ca : (if t ≠ 0 ∧ kh ≠ 0 then total ms = total ms' else ms = ms') → A := by
    split_ifs with hc
    · intro h
      exact C70_only_sum_partial env hl1 hl2 hh hc.2 hc.1 ht1 ht2 hlen h
    · rintro rfl
      refine ⟨id, Set.bijOn_id _, fun us hu => ?_⟩
      obtain ⟨qq, v1, v2, e1, r, r1, r2⟩ := setup_rep hl1 hl2 ⟨kh, ka, us⟩
      obtain ⟨cs, As, a1, a2, -⟩ := encAll_rep r t us ms hu.1
      obtain ⟨ts, Ts, c1, c2, -⟩ := tagAll_rep r ((ka : F).val : ℤ) t us ms hu.1
      refine ⟨_, by simp only [view, e1, R.ok_bind, a1, c1]; rfl, _, by simp only [id, view, e1, R.ok_bind, a1, c1]; rfl, ?_⟩
      exact ⟨rfl, rfl, (samePoint_iff r1 r1).2 rfl, (samePoint_iff r2 r2).2 rfl, forall₂_samePoint a2, forall₂_samePoint c2⟩
  exact ⟨⟨fun h => bc (ab h), ca⟩, bc, fun h => ab (ca h)⟩

/-- messages and draws meeting the hypotheses, on either side -/
example : Coin 7 ∧ total [1, 4, 2] = total [3, 3, 1] ∧ ([1, 4, 2] : List Msg) ≠ [3, 3, 1] := by
  refine ⟨⟨by decide, by decide⟩, by decide, by decide⟩

end Puda
end Verif
