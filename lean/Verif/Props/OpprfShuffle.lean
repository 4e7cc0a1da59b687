import Mathlib.Data.Int.CardIntervalMod
import Verif.Props.OpprfSampleA

/-!
# C110: the order of the three ciphertexts of an OPPRF answer

`std::random_shuffle` takes its numbers from `rand()`, twice per answer (`src/opprf/opprf.cpp:109,132`).  Nothing in the
library calls `srand`, so in every process `rand()` returns the same sequence from the start of the program
(C11 7.22.2.2, as after `srand(1)`).
-/

namespace Verif
namespace Opprf

open EC Dme Ot Aes BytesSpec

attribute [local irreducible] Rep

/-! ## The client that looks at the order -/

/-- the comparison outcomes in the order in which the server puts their ciphertexts, if `rand()` returns `r1` and `r2` -/
def order (r1 r2 : ℕ) : List Ordering := (Arr3.shuffle ⟨.lt, .eq, .gt⟩ r1 r2).toList

/-- the outcome belonging to the first ciphertext that opens to something else than 0 -/
def whichKey (W : World) (c : Client) : List (Ordering × List Ctxt) → R (Option Ordering)
  | [] => .ok none
  | (o, v) :: l => do
    let e ← decryptMsgDecode W.env c.otr v
    let k ← W.unseal c.key e
    if k ≠ 0 then .ok (some o) else whichKey W c l

/-- the outcome belonging to the first mask that opens to something else than 0 -/
def whichMask (W : World) (key : ℤ) : List (Ordering × ℤ) → R (Option Ordering)
  | [] => .ok none
  | (o, v) :: l => do
    let k ← W.unseal key v
    if k ≠ 0 then .ok (some o) else whichMask W key l

/-- what the client notes in round `n + 1`: nothing in round 16, which has one ciphertext only -/
def note (W : World) (rand : ℕ → ℕ) (n : ℕ) (c : Client) (m : OtCtxts) : R (List (Option Ordering)) :=
  if n = 15 then .ok []
  else do
    let o ← whichKey W c ((order (rand (2 * (14 - n))) (rand (2 * (14 - n) + 1))).zip m.ctxt.toList)
    .ok [o]

/-- The rounds `n` to 1 as `runRounds` runs them, for a client that notes in the rounds 15 to 1 which ciphertext opens.  It
takes the order from the numbers `rand` that `rand()` returns in its own process. -/
def spyRounds (W : World) (rand : ℕ → ℕ) (d : ℕ → RoundDraws) : ℕ → Server → Client → R (List (Option Ordering) × Server × Client)
  | 0, s, c => .ok ([], s, c)
  | n + 1, s, c => do
    let (pk, c) ← c.start W (n + 1 : ℕ) (d (n + 1)).sk
    let (m, s) ← s.runOTRound W (n + 1 : ℕ) pk (d (n + 1)).enc
    let g ← note W rand n c m
    let c ← c.finish W (n + 1 : ℕ) m
    let (gs, s, c) ← spyRounds W rand d n s c
    .ok (g ++ gs, s, c)

/-- One evaluation as `evaluate` runs it, for a client that notes which ciphertexts open. -/
def spy (W : World) (rand : ℕ → ℕ) (s : Server) (c : Client) (x : Msg) (d : Draws) : R (List (Option Ordering)) := do
  let c := c.setMessage x
  let s ← s.prepare W d.prep
  let (gs, s, c) ← spyRounds W rand d.rounds 16 s c
  let m ← s.sendEncryptedMasks W d.mask
  let g ← whichMask W c.key ((order (rand 30) (rand 31)).zip m.toList)
  .ok (gs ++ [g])

/-- The server's shuffles use the numbers `rand`, two per answer: the rounds 15 to 1 and the masks, in this order (round 16
has nothing to shuffle). -/
structure FromRand (rand : ℕ → ℕ) (d : Draws) : Prop where
  rounds : ∀ n < 15, (d.rounds (n + 1)).enc.sh1 = rand (2 * (14 - n)) ∧ (d.rounds (n + 1)).enc.sh2 = rand (2 * (14 - n) + 1)
  masks : d.mask.sh1 = rand 30 ∧ d.mask.sh2 = rand 31

/-! ## The counterexample -/

theorem order_zip {α : Type} (f : Ordering → α) (r1 r2 : ℕ) :
    (order r1 r2).zip (Arr3.shuffle ⟨f .lt, f .eq, f .gt⟩ r1 r2).toList = (order r1 r2).map fun o => (o, f o) := by
  unfold order Arr3.shuffle Arr3.toList
  split_ifs <;> rfl

theorem mem_order (r1 r2 : ℕ) (o : Ordering) : o ∈ order r1 r2 := by
  unfold order
  rw [mem_shuffle]
  cases o <;> simp [Arr3.toList]

theorem whichKey_ok {W : World} {c : Client} {f : Ordering → List Ctxt} {o : Ordering} {k : ℤ} (hk : k ≠ 0)
    (h : ∀ o', ∃ e, decryptMsgDecode W.env c.otr (f o') = .ok e ∧ W.unseal c.key e = .ok (if o' = o then k else 0))
    (l : List Ordering) (hl : o ∈ l) : whichKey W c (l.map fun o => (o, f o)) = .ok (some o) := by
  induction l with
  | nil => simp at hl
  | cons a l ih =>
    obtain ⟨e, h1, h2⟩ := h a
    rw [List.map_cons, whichKey, h1, R.ok_bind, h2, R.ok_bind]
    by_cases ha : a = o
    · rw [if_pos (by rwa [if_pos ha]), ha]
    · rw [if_neg (by simp [ha])]
      exact ih (by simpa [Ne.symm ha] using hl)

theorem whichMask_ok {W : World} {key : ℤ} {f : Ordering → ℤ} {o : Ordering} {k : ℤ} (hk : k ≠ 0)
    (h : ∀ o', W.unseal key (f o') = .ok (if o' = o then k else 0))
    (l : List Ordering) (hl : o ∈ l) : whichMask W key (l.map fun o => (o, f o)) = .ok (some o) := by
  induction l with
  | nil => simp at hl
  | cons a l ih =>
    rw [List.map_cons, whichMask, h a, R.ok_bind]
    by_cases ha : a = o
    · rw [if_pos (by rwa [if_pos ha]), ha]
    · rw [if_neg (by simp [ha])]
      exact ih (by simpa [Ne.symm ha] using hl)

theorem spy_round {W : World} {s : Server} {c : Client} {K : Ordering → ℕ → ℤ} {A B Q : Grp CC} {o : ℕ → F}
    (hp : Prepared W s K A B Q o) (hR : Ready W.env ⟨c.otr, s.ots⟩) {x : Msg} (hx : c.x = some x) {n : ℕ} (hn : n < 15)
    (coin : ℤ) (k : RoundCoins) (hkey : c.key = K (sym x s.theta (n + 1)) (n + 1))
    (hfit : ∀ sy e, W.seal (K sy (n + 1)) (K (next x s.theta n sy) n) = .ok e → Fits e)
    (hown : Opens W (K (sym x s.theta (n + 1)) (n + 1)) (K (sym x s.theta n) n))
    (hrej : ∀ sy ≠ sym x s.theta (n + 1), Rejects W (K (sym x s.theta (n + 1)) (n + 1)) (K sy (n + 1))
      (K (next x s.theta n sy) n))
    (h0 : K (sym x s.theta n) n ≠ 0) {pk : PKey} {c' : Client} {m : OtCtxts} {s' : Server}
    (h1 : c.start W (n + 1 : ℕ) coin = .ok (pk, c')) (h2 : s.runOTRound W (n + 1 : ℕ) pk k = .ok (m, s'))
    (hfine : FineMsg c' m (x.toNat.testBit n)) :
    whichKey W c' ((order k.sh1 k.sh2).zip m.ctxt.toList) = .ok (some (sym x s.theta (n + 1))) := by
  obtain ⟨pk', rc, g1, g2, hpt, hz⟩ := ot_round hR (branch (x.toNat.testBit n)) coin
  have hst := start_ok (c := c) hx (by omega) g1
  rw [h1] at hst
  obtain ⟨rfl, rfl⟩ := Prod.mk.inj (Except.ok.inj hst)
  obtain ⟨e0, e1, t0, t1, t2⟩ := hp.tab n hn
  obtain ⟨t3, t4⟩ := t2 false
  obtain ⟨t5, t6⟩ := t2 true
  obtain ⟨c0, f0, n0, d0⟩ := hz s.ots rfl e0.k_lt e1.k_lt k.lt0 k.lt1
  obtain ⟨c1, f1, n1, d1⟩ := hz { s.ots with c := c0 } rfl e0.k_eq e1.k_eq k.eq0 k.eq1
  obtain ⟨c2, f2, n2, d2⟩ := hz { s.ots with c := c1 } rfl e0.k_gt e1.k_gt k.gt0 k.gt1
  obtain ⟨p, f3, n3, d3⟩ := hpt { s.ots with c := c2 } rfl e0.prf e1.prf _ _ t4 t6 k.prf0 k.prf1
  have hrun : s.runOTRound W (n + 1 : ℕ) pk k =
      .ok (⟨Arr3.shuffle ⟨c0, c1, c2⟩ k.sh1 k.sh2, p⟩, { s with ots := { s.ots with c := p } }) := by
    unfold Server.runOTRound
    rw [if_neg (by omega)]
    have a0 : atShort s.Si0 ((n + 1 : ℕ) : ℤ) = .ok e0 := by
      rw [atShort, if_neg (by omega), Int.toNat_natCast, at'_ok]; exact t0
    have a1 : atShort s.Si1 ((n + 1 : ℕ) : ℤ) = .ok e1 := by
      rw [atShort, if_neg (by omega), Int.toNat_natCast, at'_ok]; exact t1
    simp only [a0, a1, R.ok_bind, f0, f1, f2, f3]
  rw [h2] at hrun
  obtain ⟨rfl, rfl⟩ := Prod.mk.inj (Except.ok.inj hrun)
  have hmem : ∀ v, v ∈ [c0, c1, c2] → NonDegenerate rc v (branch (x.toNat.testBit n)) := by
    intro v hv
    refine hfine v (List.mem_cons_of_mem _ ((mem_shuffle _ _ _ _).2 hv)) ?_
    simp only [List.mem_cons, List.not_mem_nil, or_false] at hv
    rcases hv with rfl | rfl | rfl <;> assumption
  have hsel : ∀ sy : Ordering, W.seal (K sy (n + 1)) (K (next x s.theta n sy) n) =
      .ok (pick (branch (x.toNat.testBit n)) (e0.k sy) (e1.k sy)) := by
    intro sy
    have := (t2 (x.toNat.testBit n)).1 sy
    rw [then_eq_next] at this
    rw [this, pick_branch]
    cases x.toNat.testBit n <;> rfl
  have hun : ∀ sy : Ordering, W.unseal c.key (pick (branch (x.toNat.testBit n)) (e0.k sy) (e1.k sy)) =
      .ok (if sy = sym x s.theta (n + 1) then K (sym x s.theta n) n else 0) := by
    intro sy
    rw [hkey]
    split_ifs with h
    · obtain ⟨e, z1, z2⟩ := hown
      have := hsel sy
      rw [h, next_sym, z1] at this
      rw [h, ← Except.ok.inj this]
      exact z2
    · obtain ⟨e, z1, z2⟩ := hrej sy h
      rw [hsel sy] at z1
      rw [Except.ok.inj z1]
      exact z2
  have := order_zip (fun o : Ordering => match o with | .lt => c0 | .eq => c1 | .gt => c2) k.sh1 k.sh2
  simp only at this
  rw [this]
  refine whichKey_ok h0 ?_ _ (mem_order _ _ _)
  rintro (_ | _ | _)
  · obtain ⟨b1, b2, b3⟩ := hfit _ _ (hsel .lt)
    exact ⟨_, d0 b1 b2 b3 (hmem _ (by simp)), hun .lt⟩
  · obtain ⟨b1, b2, b3⟩ := hfit _ _ (hsel .eq)
    exact ⟨_, d1 b1 b2 b3 (hmem _ (by simp)), hun .eq⟩
  · obtain ⟨b1, b2, b3⟩ := hfit _ _ (hsel .gt)
    exact ⟨_, d2 b1 b2 b3 (hmem _ (by simp)), hun .gt⟩

/-- the outcomes from bit `min n 15` down to bit 1 -/
def outcomes (x theta : Msg) : ℕ → List (Option Ordering)
  | 0 => []
  | n + 1 => (if n = 15 then [] else [some (sym x theta (n + 1))]) ++ outcomes x theta n

theorem spy_rounds {W : World} {K : Ordering → ℕ → ℤ} {A B Q : Grp CC} {o : ℕ → F} {x : Msg} {d : Draws} {rand : ℕ → ℕ}
    (hd : FromRand rand d)
    (hiv : IvReadable W.iv) (hsl : ∀ n, n + 4 ≤ W.pf.usable n) (hfull : ∀ sy, ∀ j < 16, 2 ^ 120 ≤ K sy j ∧ K sy j < 2 ^ 128)
    (n : ℕ) (hn : n ≤ 16) {s : Server} (hp : Prepared W s K A B Q o) {c : Client} (hR : Ready W.env ⟨c.otr, s.ots⟩)
    (hx : c.x = some x) (hr : Valid W.env CC c.result)
    (hkey : n < 16 → c.key = K (sym x s.theta n) n) (hw : Legible W K x s.theta) (ho : PathOpens W K x s.theta)
    (hf : FineRounds W d.rounds x n s c) :
    ∃ ots c', spyRounds W rand d.rounds n s c = .ok (outcomes x s.theta n, { s with ots := ots }, c') ∧
      ots.dme = s.ots.dme ∧ (0 < n → c'.key = K (sym x s.theta 0) 0) := by
  induction n generalizing s c with
  | zero => exact ⟨s.ots, c, rfl, rfl, by simp⟩
  | succ n ih =>
    obtain ⟨Rn, hr⟩ := valid_iff.1 hr
    have hK0 : K (sym x s.theta n) n ≠ 0 := by
      have := (hfull (sym x s.theta n) n (by omega)).1
      intro h
      rw [h] at this
      norm_num at this
    have hfit : ∀ sy e, n < 15 → W.seal (K sy (n + 1)) (K (next x s.theta n sy) n) = .ok e → Fits e := by
      intro sy e h he
      have h1 := hfull sy (n + 1) (by omega)
      have h2 := hfull (next x s.theta n sy) n (by omega)
      obtain ⟨e', h3, h4, h5⟩ := seal_ok (W := W) hiv h1.1 (m := K (next x s.theta n sy) n) (by linarith [h2.1]) (n := 16)
        (by have := h2.2; norm_num at this ⊢; exact this) (by norm_num) (hsl _)
      rw [he] at h3
      obtain rfl := Except.ok.inj h3
      exact fits_of_lt h4 h5 (hw.enc n h sy e he)
    obtain ⟨pk, c', m, s', h1, h2, ⟨ots, rfl, h4⟩, h5⟩ := round_ok hp hR hx hr (n := n) (by omega) (d.rounds (n + 1)).sk
      (d.rounds (n + 1)).enc (fun h => hkey (by omega)) hfit
      (fun h => by
        have h1 := hfull (sym x s.theta 15) 15 (by norm_num)
        exact fits_of_lt (by linarith [h1.1]) (h1.2.trans (by norm_num)) hw.top)
      (fun h => hw.own n h) (fun h => hw.rejects n h) hK0
    obtain ⟨f1, f2⟩ := hf pk c' m _ h1 h2
    rcases h5 f1 with ⟨g1, g2, g3⟩ | ⟨c'', g1, g2, g3, g4, g5, g6, g7⟩
    · exact absurd (ho n g1) g3
    obtain ⟨ots', c3, k1, k2, k3⟩ := ih (by omega) (hp.ots ots) (Ready.of_dme hR g2 h4) g3 (valid_iff.2 ⟨_, g6⟩) (fun _ => g5)
      hw ho (f2 c'' g1)
    refine ⟨ots', c3, ?_, k2.trans h4, fun _ => ?_⟩
    · have hg : note W rand n c' m = .ok (if n = 15 then [] else [some (sym x s.theta (n + 1))]) := by
        unfold note
        split_ifs with h15
        · rfl
        · obtain ⟨r1, r2⟩ := hd.rounds n (by omega)
          rw [← r1, ← r2, spy_round hp hR hx (by omega) _ _ (hkey (by omega)) (fun sy e => hfit sy e (by omega)) (ho n (by omega))
            (hw.rejects n (by omega)) hK0 h1 h2 f1, R.ok_bind]
      rw [spyRounds, h1, R.ok_bind]
      simp only [h2, R.ok_bind, hg, g1, k1]
      rfl
    · rcases Nat.eq_zero_or_pos n with rfl | hpos
      · have : c3 = c'' := by
          have := Except.ok.inj k1
          exact (Prod.mk.inj (Prod.mk.inj this).2).2.symm
        rw [this]
        exact g5
      · exact k3 hpos

theorem spy_masks {W : World} {s : Server} {K : Ordering → ℕ → ℤ} {A B Q : Grp CC} {o : ℕ → F} {z : ℤ} {k : MaskCoins}
    (hp : Prepared W s K A B Q o) (hc : LiveGen W.env s.curve)
    {S : F} (hS : ∑ j ∈ Finset.range 16, o j = S) (hz : (z : F) • (G : Grp CC) = Q + (-S) • B) {sy0 : Ordering}
    (hu : MaskLegible W s.curve (fun sy => K sy 0) sy0 z k.rnd) (ho : MaskOpens W s.curve (fun sy => K sy 0) sy0 z k.rnd) :
    ∃ m, s.sendEncryptedMasks W k = .ok m ∧
      whichMask W (K sy0 0) ((order k.sh1 k.sh2).zip m.toList) = .ok (some sy0) := by
  have a0 := at'_ok.2 (hp.ok 0 (by norm_num))
  have a1 := okSum_ok (env := W.env) (ok := s.ok) (o := o) 15 1 (fun j hj => hp.ok j (by omega)) (o 0)
  have a2 : o 0 + ∑ j ∈ Finset.Ico 1 (1 + 15), o j = ∑ j ∈ Finset.range 16, o j := by
    rw [Finset.range_eq_Ico, Finset.sum_eq_sum_Ico_succ_bot (show 0 < 16 by norm_num)]
  rw [a2, hS] at a1
  obtain ⟨rs, b1, b2⟩ := smulF_rep hp.r (-S)
  obtain ⟨mask, b3, b4⟩ := add_rep hp.kopprf b2
  rw [← hz] at b4
  obtain ⟨rp, b5, b6⟩ := randomPoint_rep (C := CC) hc k.rnd
  have hz0 : (z : F) • (G : Grp CC) ≠ 0 := fun h => hu.finite (smulG_eq_zero_iff.1 h)
  have hr0 : (k.rnd : F) • (G : Grp CC) ≠ 0 := fun h => hu.finite' (smulG_eq_zero_iff.1 h)
  obtain ⟨e, e1, e2, e3, e4⟩ := encoding_rep hz0 b4
  obtain ⟨e', e1', e2', e3', e4'⟩ := encoding_rep hr0 b6
  have hE := (encodingOf_iff hc hu.finite b4 e).2 e1
  have hE' := (encodingOf_iff hc hu.finite' b6 e').2 e1'
  have hpay : ∀ sy : Ordering, EncodingOf W s.curve (if sy = .gt then k.rnd else z) (if sy = .gt then e' else e) := by
    intro sy
    split_ifs
    exacts [hE', hE]
  have hne : (if sy0 = .gt then e' else e) ≠ 0 := by
    intro h
    have := hpay sy0
    rw [h] at this
    exact hu.nonzero this
  have hct : ∀ sy : Ordering, ∃ ct, W.seal (K sy 0) (if sy = .gt then e' else e) = .ok ct ∧
      W.unseal (K sy0 0) ct = .ok (if sy = sy0 then (if sy0 = .gt then e' else e) else 0) := by
    intro sy
    by_cases h : sy = sy0
    · rw [if_pos h, h]
      exact ho _ (hpay sy0)
    · rw [if_neg h]
      exact hu.rejects sy h _ (hpay sy)
  choose f f1 f2 using hct
  have f0 := f1 .lt
  have f1' := f1 .eq
  have f2' := f1 .gt
  simp only [reduceCtorEq, if_false, if_true] at f0 f1' f2'
  have q0 := at'_ok.2 (hp.keys .lt 0 (by norm_num))
  have q1 := at'_ok.2 (hp.keys .eq 0 (by norm_num))
  have q2 := at'_ok.2 (hp.keys .gt 0 (by norm_num))
  simp only [Server.keys] at q0 q1 q2
  refine ⟨Arr3.shuffle ⟨f .lt, f .eq, f .gt⟩ k.sh1 k.sh2, ?_, ?_⟩
  · unfold Server.sendEncryptedMasks
    simp only [a0, R.ok_bind, a1, Fld.neg_ofZ, b1, b3, q0, q1, q2, e1, f0, f1', b5, e1', f2']
  · rw [order_zip]
    exact whichMask_ok hne f2 _ (mem_order _ _ _)

/-- C110 is false: `rand()` is never seeded, so a client knows the numbers of the server's shuffles from its own process.  With
undisturbing draws it finds out, along with its result, how the bits of its input from `j` upwards compare to those of the
threshold, for all `j` from 15 down to 0. -/
theorem C110_counterexample {W : World} {rand : ℕ → ℕ} {s : Server} {c : Client} (hP : Parties W.env s c) {x : Msg} {d : Draws}
    (hd : FromRand rand d) (hu : Undisturbed W s c x d) :
    spy W rand s c x d = .ok ((List.range 16).reverse.map fun j =>
      some (compare (x.toNat / 2 ^ j) (s.theta.toNat / 2 ^ j))) := by
  obtain ⟨A, hA⟩ := valid_iff.1 hP.ga
  obtain ⟨e1, e2, e3, e4⟩ := hP.noKeys
  obtain ⟨hu, ho⟩ := hu
  have hbits : d.prep = ⟨d.prep.kopprf, d.prep.r, (List.range 16).map fun j => d.prep.bits.getD j ⟨0, 0, 0, 0⟩⟩ := by
    have : d.prep.bits = (List.range 16).map fun j => d.prep.bits.getD j ⟨0, 0, 0, 0⟩ := by
      apply List.ext_getElem
      · simp [hu.bits]
      · intro i h1 h2
        simp [List.getD_eq_getElem?_getD, List.getElem?_eq_getElem h1]
    conv_lhs => rw [show d.prep = ⟨d.prep.kopprf, d.prep.r, d.prep.bits⟩ from rfl, this]
  obtain ⟨s1, p1, p2, p3, p4, p5, p6⟩ := prepare_ok (W := W) hP.server hA e1 e2 e3 e4 hP.si0 hP.si1 d.prep.kopprf d.prep.r
    (fun j => d.prep.bits.getD j ⟨0, 0, 0, 0⟩) (fun i hi sy sy' => by
      have h1 := hu.full sy (i + 1) (by omega)
      have h2 := hu.full sy' i (by omega)
      obtain ⟨c, h3, -⟩ := seal_ok (W := W) hu.iv h1.1 (m := d.key sy' i) (by linarith [h2.1]) (n := 16)
        (by have := h2.2; norm_num at this ⊢; exact this) (by norm_num) (hu.slack _)
      exact ⟨c, h3⟩)
  rw [← hbits] at p1
  have hcR : Ready W.env ⟨(c.setMessage x).otr, s1.ots⟩ := Ready.of_dme hP.ready rfl (by rw [p3])
  obtain ⟨ots, c2, q1, q2, q3⟩ := spy_rounds (x := x) hd hu.iv hu.slack hu.full 16 le_rfl p2 hcR rfl hP.result (by simp)
    (by rw [p5]; exact hu.walk) (by rw [p5]; exact ho.1) (hu.fine s1 p1)
  have hsum : ∑ j ∈ Finset.range 16, (((d.prep.bits.getD j ⟨0, 0, 0, 0⟩).ok : ℤ) : F) = (d.okSum : F) := by
    rw [← hu.bits]
    exact sum_getD _ _
  have hz : (d.mask' : F) • (G : Grp CC) = (d.prep.kopprf : F) • G + (-(d.okSum : F)) • (d.prep.r : F) • G :=
    mask_eq _ _ _ _
  obtain ⟨m, m1, m2⟩ := spy_masks (p2.ots ots) (by rw [p4]; exact hP.server) hsum hz (sy0 := compare x.toNat s.theta.toNat)
    (k := d.mask) (by rw [p4]; exact hu.mask) (by rw [p4]; exact ho.2)
  have hk : c2.key = d.key (compare x.toNat s.theta.toNat) 0 := by
    rw [← sym_zero, ← p5]
    exact q3 (by norm_num)
  unfold spy
  simp only [p1, R.ok_bind, q1, m1, ← hd.masks.1, ← hd.masks.2, hk]
  have m2' : whichMask W (d.key (compare x.toNat s.theta.toNat) 0) ((order d.mask.sh1 d.mask.sh2).zip m.toList) =
      .ok (some (compare x.toNat s.theta.toNat)) := m2
  rw [m2', R.ok_bind, p5, ← sym_zero]
  rfl

/-- What this tells about the threshold: for two thresholds the client notes the same exactly if they agree in every bit
above which the first one agrees with `x`, that is in the leading bits up to and including the first in which it differs
from `x`. -/
theorem C110_threshold (x theta theta' : Msg) :
    (∀ j < 16, compare (x.toNat / 2 ^ j) (theta.toNat / 2 ^ j) = compare (x.toNat / 2 ^ j) (theta'.toNat / 2 ^ j)) ↔
      ∀ j < 16, (∀ i, j < i → theta.toNat.testBit i = x.toNat.testBit i) → theta'.toNat.testBit j = theta.toNat.testBit j := by
  have heq : ∀ t : Msg, ∀ j, sym x t j = .eq ↔ ∀ i, j ≤ i → t.toNat.testBit i = x.toNat.testBit i := by
    intro t j
    rw [sym, compare_eq_iff_eq]
    constructor
    · intro h i hi
      obtain ⟨k, rfl⟩ := Nat.exists_eq_add_of_le hi
      have := congrArg (fun n => n.testBit k) h
      simp only [Nat.testBit_div_two_pow] at this
      rw [add_comm]
      exact this.symm
    · intro h
      refine Nat.eq_of_testBit_eq fun k => ?_
      rw [Nat.testBit_div_two_pow, Nat.testBit_div_two_pow]
      exact (h _ (by omega)).symm
  have h16 : ∀ t : Msg, sym x t 16 = .eq := by
    intro t
    rw [sym, Nat.div_eq_of_lt x.isLt, Nat.div_eq_of_lt t.isLt]
    rfl
  change (∀ j < 16, sym x theta j = sym x theta' j) ↔ _
  constructor
  · intro h j hj ha
    have e1 : sym x theta (j + 1) = .eq := (heq theta (j + 1)).2 fun i hi => ha i (by omega)
    have e2 : sym x theta' (j + 1) = .eq := by
      rcases Nat.lt_or_ge (j + 1) 16 with h1 | h1
      · rw [← h _ h1, e1]
      · obtain rfl : j = 15 := by omega
        exact h16 _
    have := h j hj
    rw [sym_step, sym_step x theta', e1, e2] at this
    revert this
    cases x.toNat.testBit j <;> cases theta.toNat.testBit j <;> cases theta'.toNat.testBit j <;> decide
  · intro h
    have : ∀ k ≤ 16, sym x theta (16 - k) = sym x theta' (16 - k) := by
      intro k hk
      induction k with
      | zero => rw [Nat.sub_zero, h16, h16]
      | succ k ih =>
        have e : 16 - k = 16 - (k + 1) + 1 := by omega
        have ih := ih (by omega)
        rw [e] at ih
        rw [sym_step, sym_step x theta', ← ih]
        cases hs : sym x theta (16 - (k + 1) + 1) with
        | lt => rfl
        | gt => rfl
        | eq => rw [h (16 - (k + 1)) (by omega) fun i hi => (heq theta _).1 hs i hi]
    intro j hj
    have := this (16 - j) (by omega)
    rwa [show 16 - (16 - j) = j by omega] at this

/-! ## What holds for uniform numbers -/

theorem order_mod (r1 r2 : ℕ) : order r1 r2 = order (r1 % 2) (r2 % 3) := by
  unfold order Arr3.shuffle
  simp only [Nat.mod_mod]

theorem count_mod (N q a : ℕ) (ha : a < q) : ((Finset.range N).filter fun r => r % q = a).card =
    N / q + if a < N % q then 1 else 0 := by
  have := Nat.count_modEq_card N (by omega : 0 < q) a
  rw [Nat.count_eq_card_filter_range, Nat.mod_eq_of_lt ha] at this
  rw [← this]
  congr 1
  ext r
  simp only [Finset.mem_filter, Nat.ModEq, Nat.mod_eq_of_lt ha]

theorem count_order (N : ℕ) (o : Ordering) (i : ℕ) :
    ((Finset.range N ×ˢ Finset.range N).filter fun r => (order r.1 r.2)[i]? = some o).card =
      ∑ b ∈ Finset.range 2 ×ˢ Finset.range 3, if (order b.1 b.2)[i]? = some o then
        (N / 2 + if b.1 < N % 2 then 1 else 0) * (N / 3 + if b.2 < N % 3 then 1 else 0) else 0 := by
  rw [Finset.card_eq_sum_card_fiberwise (f := fun r : ℕ × ℕ => (r.1 % 2, r.2 % 3)) (t := Finset.range 2 ×ˢ Finset.range 3) (by
    intro r _
    simp only [Finset.coe_product, Set.mem_prod, Finset.mem_coe, Finset.mem_range]
    exact ⟨Nat.mod_lt _ (by norm_num), Nat.mod_lt _ (by norm_num)⟩)]
  refine Finset.sum_congr rfl ?_
  rintro ⟨a, b⟩ hab
  rw [Finset.mem_product, Finset.mem_range, Finset.mem_range] at hab
  rw [Finset.filter_filter]
  by_cases ho : (order a b)[i]? = some o
  · rw [if_pos ho, ← count_mod N 2 a hab.1, ← count_mod N 3 b hab.2, ← Finset.card_product, ← Finset.filter_product]
    congr 1
    ext r
    simp only [Finset.mem_filter, Prod.mk.injEq, and_congr_right_iff]
    intro _
    constructor
    · exact fun h => h.2
    · rintro ⟨rfl, rfl⟩
      rw [order_mod]
      exact ⟨ho, rfl, rfl⟩
  · rw [if_neg ho, Finset.card_eq_zero, Finset.filter_eq_empty_iff]
    rintro r - ⟨h1, h2⟩
    obtain ⟨rfl, rfl⟩ := Prod.mk.inj h2
    rw [order_mod] at h1
    exact ho h1

/-- C110 (part): if the two numbers are independent and uniform on `[0, 2^31)`, each outcome is at each of the three places
with probability 1/3 up to `2^32 / (3 * 2^62)`.
Missing: `rand()` is not seeded, see `C110_counterexample`. -/
theorem C110_uniform_partial (o : Ordering) (i : ℕ) (hi : i < 3) :
    |(3 : ℤ) * (((Finset.range (2 ^ 31) ×ˢ Finset.range (2 ^ 31)).filter fun r => (order r.1 r.2)[i]? = some o).card : ℤ) - 2 ^ 62|
      ≤ 2 ^ 32 := by
  rw [count_order]
  interval_cases i <;> cases o <;> decide +kernel

/-! ## Examples -/

/-- the numbers of the sample draws -/
def sampleRand (k : ℕ) : ℕ := if 30 ≤ k then 0 else if k % 2 = 0 then 4 else 5

theorem sample_fromRand : FromRand sampleRand Sample.draws := by
  refine ⟨fun n hn => ?_, rfl, rfl⟩
  interval_cases n <;> exact ⟨rfl, rfl⟩

/-- a client with input 700 and a server with threshold 1000: the client notes that the numbers agree down to bit 9, and that bit 8 makes the threshold greater -/
example : spy Sample.W sampleRand Sample.srv0 (Client.ctor (some 1) Sample.crs) 700#16 Sample.draws =
    .ok (List.replicate 7 (some .eq) ++ List.replicate 9 (some .lt)) := by
  refine (C110_counterexample (x := 700#16) Sample.parties sample_fromRand
    (Sample.undisturbed (x := 700#16) (by decide) _ (Sample.a_fine _))).trans ?_
  decide

/-- so the threshold is one of the 256 numbers with the leading bits 00000011 -/
example (theta' : Msg) : (∀ j < 16, compare ((700#16).toNat / 2 ^ j) ((1000#16).toNat / 2 ^ j) =
    compare ((700#16).toNat / 2 ^ j) (theta'.toNat / 2 ^ j)) → theta'.toNat.testBit 9 = true ∧ theta'.toNat.testBit 8 = true := by
  intro h
  have h := (C110_threshold _ _ _).1 h
  refine ⟨h 9 (by norm_num) fun i hi => ?_, h 8 (by norm_num) fun i hi => ?_⟩
  · rcases Nat.lt_or_ge i 16 with h' | h'
    · interval_cases i <;> decide
    · rw [Nat.testBit_lt_two_pow (lt_of_lt_of_le (BitVec.isLt _) (Nat.pow_le_pow_right (by norm_num) h')),
        Nat.testBit_lt_two_pow (lt_of_lt_of_le (BitVec.isLt _) (Nat.pow_le_pow_right (by norm_num) h'))]
  · rcases Nat.lt_or_ge i 16 with h' | h'
    · interval_cases i <;> decide
    · rw [Nat.testBit_lt_two_pow (lt_of_lt_of_le (BitVec.isLt _) (Nat.pow_le_pow_right (by norm_num) h')),
        Nat.testBit_lt_two_pow (lt_of_lt_of_le (BitVec.isLt _) (Nat.pow_le_pow_right (by norm_num) h'))]

end Opprf
end Verif
