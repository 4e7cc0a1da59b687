import Verif.Props.Puda

/-!
# C70: what the aggregator of PUDA learns
-/

namespace Verif
namespace Puda

open EC

/-- all an aggregator sees at timestamp `t`: the public parameters, its key, the verification key, and every user's
ciphertext and tag -/
def view (env : Env) (pp : Param) (k : Coins) (ms : List Msg) (t : ℤ) : R (Param × Fld × VerifKey × List Pt × List Pt) := do
  let (pp, ks) ← setup env pp k
  let cs ← encAll env pp t (ks.ekv.zip ms)
  let ts ← tagAll env pp t (ks.skv.zip ms)
  .ok (pp, ks.ak, ks.vk, cs, ts)

/-- views that no observer can tell apart: same parameters and keys, and the same points everywhere -/
def SameView (v w : Param × Fld × VerifKey × List Pt × List Pt) : Prop :=
  v.1 = w.1 ∧ v.2.1 = w.2.1 ∧ SamePoint v.2.2.1.vk1 w.2.2.1.vk1 ∧ SamePoint v.2.2.1.vk2 w.2.2.1.vk2 ∧
    List.Forall₂ SamePoint v.2.2.2.1 w.2.2.2.1 ∧ List.Forall₂ SamePoint v.2.2.2.2 w.2.2.2.2

/-- the draws of `Setup` for `n` users, given those for the hash and for `a` -/
def userCoins (n : ℕ) : Set (List (ℤ × ℤ)) := {us | us.length = n ∧ ∀ u ∈ us, Coin u.1 ∧ Coin u.2}

/-- shift a draw by a field element -/
def shift (z : F) (x : ℤ) : ℤ := (((x : F) + z).val : ℤ)

theorem shift_coin (z : F) (x : ℤ) : Coin (shift z x) := Dme.coin_val _

theorem shift_cast (z : F) (x : ℤ) : ((shift z x : ℤ) : F) = (x : F) + z := Dme.coin_val_cast _

theorem shift_shift {z : F} {x : ℤ} (hx : Coin x) : shift (-z) (shift z x) = x :=
  Dme.coin_cast_inj (shift_coin _ _) hx (by rw [shift_cast, shift_cast]; ring)

/-- the draws under which the users' messages `ms'` give the view that `ms` give under `us` -/
def adjust (w a : F) (us : List (ℤ × ℤ)) (ms ms' : List Msg) : List (ℤ × ℤ) :=
  (us.zip (ms.zip ms')).map fun e =>
    (shift ((((e.2.1.val : ℕ) : F) - ((e.2.2.val : ℕ) : F)) * w) e.1.1,
      shift ((((e.2.1.val : ℕ) : F) - ((e.2.2.val : ℕ) : F)) * w * a) e.1.2)

theorem adjust_mem (w a : F) {us : List (ℤ × ℤ)} {ms ms' : List Msg} (h1 : us.length = ms.length) (h2 : ms'.length = ms.length) :
    adjust w a us ms ms' ∈ userCoins ms.length := by
  constructor
  · simp [adjust, h1, h2]
  · intro u hu
    obtain ⟨e, -, rfl⟩ := List.mem_map.1 hu
    exact ⟨shift_coin _ _, shift_coin _ _⟩

theorem adjust_adjust (w a : F) {us : List (ℤ × ℤ)} {ms ms' : List Msg} (h1 : us.length = ms.length)
    (h2 : ms'.length = ms.length) (hus : ∀ u ∈ us, Coin u.1 ∧ Coin u.2) :
    adjust w a (adjust w a us ms ms') ms' ms = us := by
  induction us generalizing ms ms' with
  | nil => simp [adjust]
  | cons u us ih =>
    rcases ms with _ | ⟨m, ms⟩
    · simp at h1
    rcases ms' with _ | ⟨m', ms'⟩
    · simp at h2
    have := ih (ms := ms) (ms' := ms') (by simpa using h1) (by simpa using h2) (fun v hv => hus v (by simp [hv]))
    simp only [adjust, List.zip_cons_cons, List.map_cons, List.cons.injEq] at this ⊢
    refine ⟨?_, this⟩
    obtain ⟨c1, c2⟩ := hus u (by simp)
    refine Prod.ext ?_ ?_
    · simp only
      rw [show (((m'.val : ℕ) : F) - ((m.val : ℕ) : F)) * w = -((((m.val : ℕ) : F) - ((m'.val : ℕ) : F)) * w) by ring]
      exact shift_shift c1
    · simp only
      rw [show (((m'.val : ℕ) : F) - ((m.val : ℕ) : F)) * w * a = -((((m.val : ℕ) : F) - ((m'.val : ℕ) : F)) * w * a) by ring]
      exact shift_shift c2

/-- `adjust` changes the sum of the keys by a multiple of the difference of the totals -/
theorem adjust_sums (w a : F) {us : List (ℤ × ℤ)} {ms ms' : List Msg} (h1 : us.length = ms.length)
    (h2 : ms'.length = ms.length) :
    ((adjust w a us ms ms').map fun u : ℤ × ℤ => (u.1 : F)).sum =
        (us.map fun u : ℤ × ℤ => (u.1 : F)).sum + (((total ms : ℕ) : F) - ((total ms' : ℕ) : F)) * w ∧
      ((adjust w a us ms ms').map fun u : ℤ × ℤ => (u.2 : F)).sum =
        (us.map fun u : ℤ × ℤ => (u.2 : F)).sum + (((total ms : ℕ) : F) - ((total ms' : ℕ) : F)) * w * a := by
  induction us generalizing ms ms' with
  | nil =>
    obtain rfl : ms = [] := by simpa using h1.symm
    obtain rfl : ms' = [] := by simpa using h2
    simp [adjust]
  | cons u us ih =>
    rcases ms with _ | ⟨m, ms⟩
    · simp at h1
    rcases ms' with _ | ⟨m', ms'⟩
    · simp at h2
    obtain ⟨i1, i2⟩ := ih (ms := ms) (ms' := ms') (by simpa using h1) (by simpa using h2)
    have ht : ∀ (m : Msg) ms, ((total (m :: ms) : ℕ) : F) = ((m.val : ℕ) : F) + ((total ms : ℕ) : F) := by
      intro m ms
      simp [total]
    simp only [adjust, List.zip_cons_cons, List.map_cons, List.sum_cons] at i1 i2 ⊢
    rw [i1, i2, ht, ht, shift_cast, shift_cast]
    constructor <;> ring

variable {env : Env}

theorem encAll_same {pp : Param} {w a h : F} (r : RepParam env pp (h • (G : Grp CC))) {t : ℤ} (hw : w * ((t : F) * h) = 1)
    {us : List (ℤ × ℤ)} {ms ms' : List Msg} (h1 : us.length = ms.length) (h2 : ms'.length = ms.length) :
    ∃ cs cs', encAll env pp t ((us.map fun u : ℤ × ℤ => Fld.ofZ (u.1 : F)).zip ms) = .ok cs ∧
      encAll env pp t (((adjust w a us ms ms').map fun u : ℤ × ℤ => Fld.ofZ (u.1 : F)).zip ms') = .ok cs' ∧
      List.Forall₂ SamePoint cs cs' := by
  induction us generalizing ms ms' with
  | nil => exact ⟨[], [], rfl, rfl, .nil⟩
  | cons u us ih =>
    rcases ms with _ | ⟨m, ms⟩
    · simp at h1
    rcases ms' with _ | ⟨m', ms'⟩
    · simp at h2
    obtain ⟨cs, cs', i1, i2, i3⟩ := ih (ms := ms) (ms' := ms') (by simpa using h1) (by simpa using h2)
    set d : F := (((m.val : ℕ) : F) - ((m'.val : ℕ) : F)) * w with hd
    obtain ⟨c, e1, e2⟩ := enc_rep r (u.1 : F) m t
    obtain ⟨c', e1', e2'⟩ := enc_rep r ((shift d u.1 : ℤ) : F) m' t
    refine ⟨c :: cs, c' :: cs', ?_, ?_, .cons ?_ i3⟩
    · simp only [List.map_cons, List.zip_cons_cons, encAll, e1, i1, R.ok_bind]
    · simp only [adjust, List.map_cons, List.zip_cons_cons, encAll, ← hd, e1', R.ok_bind]
      simp only [adjust] at i2
      rw [i2, R.ok_bind]
    · rw [samePoint_iff e2 e2', shift_cast]
      have : d * ((t : F) * h) = ((m.val : ℕ) : F) - ((m'.val : ℕ) : F) := by rw [hd, mul_assoc, hw, mul_one]
      have h3 : ((u.1 : F) + d) • (t : F) • h • (G : Grp CC) + ((m'.val : ℕ) : F) • (G : Grp CC) =
          (u.1 : F) • (t : F) • h • (G : Grp CC) + (d * ((t : F) * h) + ((m'.val : ℕ) : F)) • (G : Grp CC) := by module
      rw [h3, this, sub_add_cancel]

theorem tagAll_same {pp : Param} {w a h : F} (r : RepParam env pp (h • (G : Grp CC))) {t : ℤ} (hw : w * ((t : F) * h) = 1)
    {us : List (ℤ × ℤ)} {ms ms' : List Msg} (h1 : us.length = ms.length) (h2 : ms'.length = ms.length) :
    ∃ cs cs', tagAll env pp t ((us.map fun u : ℤ × ℤ => (⟨(a.val : ℤ), Fld.ofZ (u.2 : F)⟩ : SignKey)).zip ms) = .ok cs ∧
      tagAll env pp t (((adjust w a us ms ms').map fun u : ℤ × ℤ => (⟨(a.val : ℤ), Fld.ofZ (u.2 : F)⟩ : SignKey)).zip ms') =
        .ok cs' ∧
      List.Forall₂ SamePoint cs cs' := by
  induction us generalizing ms ms' with
  | nil => exact ⟨[], [], rfl, rfl, .nil⟩
  | cons u us ih =>
    rcases ms with _ | ⟨m, ms⟩
    · simp at h1
    rcases ms' with _ | ⟨m', ms'⟩
    · simp at h2
    obtain ⟨cs, cs', i1, i2, i3⟩ := ih (ms := ms) (ms' := ms') (by simpa using h1) (by simpa using h2)
    set d : F := (((m.val : ℕ) : F) - ((m'.val : ℕ) : F)) * w with hd
    obtain ⟨c, e1, e2⟩ := tag_rep r (a.val : ℤ) (u.2 : F) m t
    obtain ⟨c', e1', e2'⟩ := tag_rep r (a.val : ℤ) ((shift (d * a) u.2 : ℤ) : F) m' t
    refine ⟨c :: cs, c' :: cs', ?_, ?_, .cons ?_ i3⟩
    · simp only [List.map_cons, List.zip_cons_cons, tagAll, e1, i1, R.ok_bind]
    · simp only [adjust, List.map_cons, List.zip_cons_cons, tagAll, ← hd, e1', R.ok_bind]
      simp only [adjust] at i2
      rw [i2, R.ok_bind]
    · rw [samePoint_iff e2 e2', shift_cast, Int.cast_natCast, ZMod.natCast_zmod_val]
      have : d * ((t : F) * h) = ((m.val : ℕ) : F) - ((m'.val : ℕ) : F) := by rw [hd, mul_assoc, hw, mul_one]
      have h3 : ((u.2 : F) + d * a) • (t : F) • h • (G : Grp CC) + ((m'.val : ℕ) : F) • a • (G : Grp CC) =
          (u.2 : F) • (t : F) • h • (G : Grp CC) + (d * ((t : F) * h) + ((m'.val : ℕ) : F)) • a • (G : Grp CC) := by module
      rw [h3, this, sub_add_cancel]

/-- C70 (part): for every `int` timestamp other than 0 and every draw of a finite hash point, two vectors of messages with the
same total cannot be told apart by the aggregator: a bijection of the users' keys turns its view of one into its view of the
other.
Missing: timestamp 0 and an infinite hash point (C40), and several timestamps or several messages of one user, where the
property fails (see the counterexample and `C40_linked_counterexample`). -/
theorem C70_only_sum_partial (env : Env) {pp : Param} (hl1 : LiveGen env pp.curve1) (hl2 : LiveGen env pp.curve2)
    {kh ka : ℤ} (hh : Coin kh) (hh0 : kh ≠ 0) {t : ℤ} (ht : t ≠ 0) (ht1 : -2 ^ 31 ≤ t) (ht2 : t < 2 ^ 31)
    {ms ms' : List Msg} (hlen : ms'.length = ms.length) (hsum : total ms = total ms') :
    ∃ φ : List (ℤ × ℤ) → List (ℤ × ℤ), Set.BijOn φ (userCoins ms.length) (userCoins ms.length) ∧
      ∀ us ∈ userCoins ms.length, Ends (view env pp ⟨kh, ka, us⟩ ms t) fun v =>
        Ends (view env pp ⟨kh, ka, φ us⟩ ms' t) fun v' => SameView v v' := by
  have hz : (kh : F) ≠ 0 := fun h => hh0 (Dme.coin_cast_inj hh ⟨le_rfl, by decide⟩ (by simpa using h))
  have htz := int_cast_ne_zero ht ht1 ht2
  set w : F := ((t : F) * (kh : F))⁻¹ with hwdef
  have hw : w * ((t : F) * (kh : F)) = 1 := inv_mul_cancel₀ (mul_ne_zero htz hz)
  refine ⟨fun us => adjust w (ka : F) us ms ms', ⟨fun us h => adjust_mem _ _ h.1 hlen, ?_, ?_⟩, ?_⟩
  · intro us h us' h' e
    simp only at e
    rw [← adjust_adjust w (ka : F) h.1 hlen h.2, e, adjust_adjust w (ka : F) h'.1 hlen h'.2]
  · intro us h
    refine ⟨adjust w (ka : F) us ms' ms, ?_, ?_⟩
    · have := adjust_mem w (ka : F) (us := us) (ms := ms') (ms' := ms) (h.1.trans hlen.symm) hlen.symm
      rwa [hlen] at this
    · exact adjust_adjust w (ka : F) (h.1.trans hlen.symm) hlen.symm h.2
  · intro us h
    obtain ⟨qq, v1, v2, e1, r, hv1, hv2⟩ := setup_rep hl1 hl2 ⟨kh, ka, us⟩
    obtain ⟨qq', v1', v2', e1', r', hv1', hv2'⟩ := setup_rep hl1 hl2 ⟨kh, ka, adjust w (ka : F) us ms ms'⟩
    obtain rfl : qq = qq' := by
      simp only [setup] at e1 e1'
      obtain ⟨g1, f1, e1⟩ := R.bind_eq_ok.1 e1
      obtain ⟨g1', f1', e1'⟩ := R.bind_eq_ok.1 e1'
      obtain rfl := Except.ok.inj (f1.symm.trans f1')
      obtain ⟨g2, f2, e1⟩ := R.bind_eq_ok.1 e1
      obtain ⟨g2', f2', e1'⟩ := R.bind_eq_ok.1 e1'
      obtain rfl := Except.ok.inj (f2.symm.trans f2')
      obtain ⟨g3, f3, e1⟩ := R.bind_eq_ok.1 e1
      obtain ⟨g3', f3', e1'⟩ := R.bind_eq_ok.1 e1'
      obtain rfl := Except.ok.inj (f3.symm.trans f3')
      obtain ⟨g4, f4, e1⟩ := R.bind_eq_ok.1 e1
      obtain ⟨g4', f4', e1'⟩ := R.bind_eq_ok.1 e1'
      obtain ⟨g5, f5, e1⟩ := R.bind_eq_ok.1 e1
      obtain ⟨g5', f5', e1'⟩ := R.bind_eq_ok.1 e1'
      obtain ⟨g6, f6, e1⟩ := R.bind_eq_ok.1 e1
      obtain ⟨g6', f6', e1'⟩ := R.bind_eq_ok.1 e1'
      obtain ⟨g7, f7, e1⟩ := R.bind_eq_ok.1 e1
      obtain ⟨g7', f7', e1'⟩ := R.bind_eq_ok.1 e1'
      exact (Prod.mk.inj (Except.ok.inj e1)).1.symm.trans (Prod.mk.inj (Except.ok.inj e1')).1
    obtain ⟨cs, cs', a1, a2, a3⟩ := encAll_same r hw h.1 hlen (a := (ka : F))
    obtain ⟨ts, ts', b1, b2, b3⟩ := tagAll_same r hw h.1 hlen (a := (ka : F))
    obtain ⟨s1, s2⟩ := adjust_sums w (ka : F) h.1 hlen
    rw [hsum, sub_self, zero_mul, add_zero] at s1
    rw [hsum, sub_self, zero_mul, zero_mul, add_zero] at s2
    refine ⟨(qq, Fld.ofZ (-(us.map fun u : ℤ × ℤ => (u.1 : F)).sum), ⟨v1, v2⟩, cs, ts),
      by simp only [view, e1, R.ok_bind, a1, b1], ?_⟩
    refine ⟨(qq, Fld.ofZ (-((adjust w (ka : F) us ms ms').map fun u : ℤ × ℤ => (u.1 : F)).sum), ⟨v1', v2'⟩, cs', ts'),
      by simp only [view, e1', R.ok_bind, a2, b2], ?_⟩
    refine ⟨rfl, by simp only [s1], ?_, ?_, a3, b3⟩
    · simp only at hv1 hv1' ⊢
      rw [s2] at hv1'
      exact (samePoint_iff hv1 hv1').2 rfl
    · exact (samePoint_iff hv2 hv2').2 rfl

/-- C70 is false for two messages of one user at one timestamp: the difference of the ciphertexts is that of the messages,
so `c + g1 * m' == c' + g1 * m` tells everybody whether a guess is right. -/
theorem C70_difference_counterexample (env : Env) {pp : Param} (hl1 : LiveGen env pp.curve1) (hl2 : LiveGen env pp.curve2)
    (k : Coins) (t ek : ℤ) (m m' : Msg) :
    Ends (setup env pp k) fun s => Ends (enc env s.1 (Fld.mk' CC.fn ek) m t) fun c =>
      Ends (enc env s.1 (Fld.mk' CC.fn ek) m' t) fun c' => ∀ g g' : Msg,
        (EqP env CC (do let x ← s.1.g1.smulZ env CC g'.val; c.add env CC x)
          (do let x ← s.1.g1.smulZ env CC g.val; c'.add env CC x) ↔ (m.val : ℤ) - m'.val = g.val - g'.val) := by
  obtain ⟨qq, v1, v2, e1, r, -, -⟩ := setup_rep hl1 hl2 k
  refine ⟨_, e1, ?_⟩
  simp only [Fld.mk'_eq]
  obtain ⟨c, f1, f2⟩ := enc_rep r (ek : F) m t
  obtain ⟨c', f1', f2'⟩ := enc_rep r (ek : F) m' t
  refine ⟨c, f1, c', f1', fun g g' => ?_⟩
  obtain ⟨x, a1, a2⟩ := smulI_rep r.g1 (g'.val : ℤ)
  obtain ⟨y, b1, b2⟩ := smulI_rep r.g1 (g.val : ℤ)
  obtain ⟨u, i1, i2⟩ := add_rep f2 a2
  obtain ⟨v, j1, j2⟩ := add_rep f2' b2
  have key : EqP env CC (do let x ← qq.g1.smulZ env CC g'.val; c.add env CC x)
      (do let x ← qq.g1.smulZ env CC g.val; c'.add env CC x) ↔
      (((m.val + g'.val : ℕ) : ℕ) : F) = (((m'.val + g.val : ℕ) : ℕ) : F) := by
    rw [← smul_inj (G_ne_zero (C := CC))]
    simp only [EqP, a1, b1, R.ok_bind, i1, j1]
    constructor
    · rintro ⟨_, _, h1, h2, h3⟩
      obtain rfl := Except.ok.inj h1
      obtain rfl := Except.ok.inj h2
      rw [rep_beq i2 j2, Except.ok.injEq, decide_eq_true_eq] at h3
      rw [add_assoc, add_assoc, add_right_inj] at h3
      push_cast at h3 ⊢
      rw [add_smul, add_smul]
      exact h3
    · intro h
      refine ⟨_, _, rfl, rfl, ?_⟩
      rw [rep_beq i2 j2, Except.ok.injEq, decide_eq_true_eq, add_assoc, add_assoc, add_right_inj]
      push_cast at h ⊢
      rw [add_smul, add_smul] at h
      exact h
  rw [key, ZMod.natCast_eq_natCast_iff']
  have hfn : 131072 < CC.fn := by decide
  have := m.isLt
  have := m'.isLt
  have := g.isLt
  have := g'.isLt
  rw [Nat.mod_eq_of_lt (by omega), Nat.mod_eq_of_lt (by omega)]
  omega

/-- objects, draws and messages meeting the hypotheses -/
example : LiveGen env0 (ctor (some 0) (some 0)).curve1 ∧ LiveGen env0 (ctor (some 0) (some 0)).curve2 ∧ Coin 77 ∧ total [1, 2, 3] = total [6, 0, 0] ∧ ([6, 0, 0] : List Msg).length = ([1, 2, 3] : List Msg).length ∧
    [(11, 12), (13, 14), (15, 16)] ∈ userCoins ([1, 2, 3] : List Msg).length := by
  refine ⟨env0_liveGen, env0_liveGen, by unfold Coin; decide, by decide, rfl, rfl, ?_⟩
  unfold Coin
  decide

end Puda
end Verif
