import Verif.Props.Opprf

/-!
# C97: what the entries of one input tell
-/

namespace Verif
namespace Opprf

open Dme Ot Aes EC

/-- the point that a client whose bit `j` is `b` receives for this bit (`src/opprf/opprf.cpp:96-114`) -/
def pointAt (s : Server) (b : Bool) (j : ℕ) : Option Pt :=
  if j = 15 then some (if b then s.Sl1 else s.Sl0).prf else ((if b then s.Si1 else s.Si0)[j + 1]?).map InputI.prf

/-- the sealed keys of the table entry for bit `j` (below 15) with value `b` -/
def cipherAt (s : Server) (b : Bool) (j : ℕ) : Option (ℤ × ℤ × ℤ) :=
  ((if b then s.Si1 else s.Si0)[j + 1]?).map fun e => (e.k_lt, e.k_eq, e.k_gt)

/-- the point that `sendEncryptedMasks` seals for the outcomes `lt` and `eq` (`src/opprf/opprf.cpp:118-125`) -/
def maskOf (env : Env) (s : Server) : R Pt := do
  let o ← at' s.ok 0
  let sum ← okSum env s.ok 15 1 o
  let neg ← sum.neg CC.fn
  let rs ← s.r.smul env CC neg
  s.kopprf.add env CC rs

/-- this is what `sendEncryptedMasks` seals -/
theorem masks_eq (W : World) (s : Server) (k : MaskCoins) : s.sendEncryptedMasks W k = (do
    let mask ← maskOf W.env s
    let lt ← at' s.k_lt 0
    let e0 ← mask.getEncodedX W.env CC
    let c0 ← W.seal lt e0
    let eq ← at' s.k_eq 0
    let e1 ← mask.getEncodedX W.env CC
    let c1 ← W.seal eq e1
    let gt ← at' s.k_gt 0
    let rnd ← Curve.getRandomPoint W.env CC s.curve k.rnd
    let e2 ← rnd.getEncodedX W.env CC
    let c2 ← W.seal gt e2
    .ok (Arr3.shuffle ⟨c0, c1, c2⟩ k.sh1 k.sh2)) := by
  unfold Server.sendEncryptedMasks maskOf
  simp only [bind_assoc]

/-- the two servers hold the same keys, the same sealed keys, and the same points on the path of `x` -/
structure SameEntries (env : Env) (x : Msg) (s s' : Server) : Prop where
  keys : ∀ sy, ∀ j < 16, (s'.keys sy)[j]? = (s.keys sy)[j]?
  top : s'.Sl0.k = s.Sl0.k ∧ s'.Sl1.k = s.Sl1.k
  ciphers : ∀ b, ∀ j < 15, cipherAt s' b j = cipherAt s b j
  points : ∀ j < 16, ∃ P P', pointAt s (x.toNat.testBit j) j = some P ∧ pointAt s' (x.toNat.testBit j) j = some P' ∧
    EqP env CC (.ok P) (.ok P')

/-- the draws of a preparation with the same keys and the same `r` -/
structure SameKeys (k k' : PrepCoins) : Prop where
  keys : (k'.bits.map fun b => (b.lt, b.eq, b.gt)) = k.bits.map fun b => (b.lt, b.eq, b.gt)
  r : k'.r = k.r

/-- all seals of a preparation come off (C48, C63) -/
def Sealable (W : World) (k : PrepCoins) : Prop :=
  ∀ i < 15, ∀ sy sy', ∃ c, W.seal ((k.bits.getD (i + 1) ⟨0, 0, 0, 0⟩).key sy) ((k.bits.getD i ⟨0, 0, 0, 0⟩).key sy') = .ok c

/-- a server that can be prepared: its curve object exists, its secret is valid, it holds no keys -/
structure Fresh (env : Env) (s : Server) : Prop where
  curve : LiveGen env s.curve
  ga : Valid env CC s.ga
  noKeys : s.k_lt = [] ∧ s.k_eq = [] ∧ s.k_gt = [] ∧ s.ok = []
  si0 : s.Si0.length = 16
  si1 : s.Si1.length = 16

theorem range_getD {k : PrepCoins} (h : k.bits.length = 16) :
    k = ⟨k.kopprf, k.r, (List.range 16).map fun j => k.bits.getD j ⟨0, 0, 0, 0⟩⟩ := by
  have : k.bits = (List.range 16).map fun j => k.bits.getD j ⟨0, 0, 0, 0⟩ := by
    apply List.ext_getElem
    · simp [h]
    · intro i h1 h2
      simp [List.getD_eq_getElem?_getD, List.getElem?_eq_getElem h1]
  conv_lhs => rw [show k = ⟨k.kopprf, k.r, k.bits⟩ from rfl, this]

/-- the contribution of a bit -/
def wt (x : Msg) (j : ℕ) : ℕ := if x.toNat.testBit j then 2 ^ j else 0

theorem sum_wt (x : Msg) : ∑ j ∈ Finset.range 16, wt x j = x.toNat := by
  have h : ∀ n, ∑ j ∈ Finset.range n, wt x j = x.toNat % 2 ^ n := by
    intro n
    induction n with
    | zero => simp [Nat.mod_one]
    | succ n ih => rw [Finset.sum_range_succ, ih, mod_step, add_comm]; rfl
  rw [h 16, Nat.mod_eq_of_lt x.isLt]

theorem mask_rep {W : World} {s : Server} {K : Ordering → ℕ → ℤ} {A B Q : Grp CC} {o : ℕ → F} (hp : Prepared W s K A B Q o)
    {S : F} (hS : ∑ j ∈ Finset.range 16, o j = S) :
    ∃ M, maskOf W.env s = .ok M ∧ Rep W.env M (Q + (-S) • B) := by
  have a0 := at'_ok.2 (hp.ok 0 (by norm_num))
  have a1 := okSum_ok (env := W.env) (ok := s.ok) (o := o) 15 1 (fun j hj => hp.ok j (by omega)) (o 0)
  have a2 : o 0 + ∑ j ∈ Finset.Ico 1 (1 + 15), o j = ∑ j ∈ Finset.range 16, o j := by
    rw [Finset.range_eq_Ico, Finset.sum_eq_sum_Ico_succ_bot (show 0 < 16 by norm_num)]
  rw [a2, hS] at a1
  obtain ⟨rs, b1, b2⟩ := smulF_rep hp.r (-S)
  obtain ⟨M, b3, b4⟩ := add_rep hp.kopprf b2
  refine ⟨M, ?_, b4⟩
  unfold maskOf
  simp only [a0, a1, R.ok_bind, Fld.neg_ofZ, b1, b3]

theorem view_rep {W : World} {s : Server} (hs : Fresh W.env s) {k : PrepCoins} (hb : k.bits.length = 16) (hk : Sealable W k)
    {A : Grp CC} (hA : Rep W.env s.ga A) (x : Msg) :
    ∃ t, s.prepare W k = .ok t ∧
      Prepared W t (fun sy j => (k.bits.getD j ⟨0, 0, 0, 0⟩).key sy) A ((k.r : F) • G) ((k.kopprf : F) • G)
        (fun j => ((k.bits.getD j ⟨0, 0, 0, 0⟩).ok : F)) ∧ t.ga = s.ga ∧ t.theta = s.theta ∧
      (∀ j < 16, ∃ P, pointAt t (x.toNat.testBit j) j = some P ∧
        Rep W.env P ((wt x j : F) • A + ((k.bits.getD j ⟨0, 0, 0, 0⟩).ok : F) • ((k.r : F) • (G : Grp CC)))) ∧
      ∃ M, maskOf W.env t = .ok M ∧ Rep W.env M ((k.kopprf : F) • (G : Grp CC) +
        (-∑ j ∈ Finset.range 16, ((k.bits.getD j ⟨0, 0, 0, 0⟩).ok : F)) • ((k.r : F) • (G : Grp CC))) := by
  obtain ⟨e1, e2, e3, e4⟩ := hs.noKeys
  obtain ⟨t, p1, p2, -, -, p5, p6⟩ := prepare_ok (W := W) hs.curve hA e1 e2 e3 e4 hs.si0 hs.si1 k.kopprf k.r
    (fun j => k.bits.getD j ⟨0, 0, 0, 0⟩) hk
  rw [← range_getD hb] at p1
  refine ⟨t, p1, p2, p6, p5, ?_, ?_⟩
  · intro j hj
    unfold pointAt wt
    by_cases h15 : j = 15
    · subst h15
      rw [if_pos rfl]
      exact ⟨_, rfl, p2.topPrf (x.toNat.testBit 15)⟩
    · rw [if_neg h15]
      obtain ⟨e0, e1, h1, h2, h3⟩ := p2.tab j (by omega)
      have h4 := (h3 (x.toNat.testBit j)).2
      revert h4
      cases x.toNat.testBit j
      · exact fun h4 => ⟨e0.prf, by simp [h1], h4⟩
      · exact fun h4 => ⟨e1.prf, by simp [h2], h4⟩
  · exact mask_rep p2 rfl

theorem SameKeys.key {k k' : PrepCoins} (h : SameKeys k k') (sy : Ordering) (j : ℕ) :
    (k'.bits.getD j ⟨0, 0, 0, 0⟩).key sy = (k.bits.getD j ⟨0, 0, 0, 0⟩).key sy := by
  have h1 := congrArg (fun l => l.getD j (0, 0, 0)) h.keys
  have hm : ∀ l : List BitCoins, (l.map fun b => (b.lt, b.eq, b.gt)).getD j (0, 0, 0) =
      ((l.getD j ⟨0, 0, 0, 0⟩).lt, (l.getD j ⟨0, 0, 0, 0⟩).eq, (l.getD j ⟨0, 0, 0, 0⟩).gt) := by
    intro l
    simp only [List.getD_eq_getElem?_getD, List.getElem?_map]
    cases l[j]? <;> rfl
  simp only [hm, Prod.mk.injEq] at h1
  cases sy
  exacts [h1.1, h1.2.1, h1.2.2]

theorem SameKeys.length {k k' : PrepCoins} (h : SameKeys k k') : k'.bits.length = k.bits.length := by
  simpa using congrArg List.length h.keys

theorem SameKeys.sealable {W : World} {k k' : PrepCoins} (h : SameKeys k k') (hk : Sealable W k) : Sealable W k' := by
  intro i hi sy sy'
  rw [h.key, h.key]
  exact hk i hi sy sy'

/-- two preparations of servers with the same threshold and keys: the entries of `x` agree exactly if 16 equations hold -/
theorem sameEntries_iff {W : World} {s s' : Server} (hs : Fresh W.env s) (hs' : Fresh W.env s') (hth : s'.theta = s.theta)
    {k k' : PrepCoins} (hb : k.bits.length = 16) (hk : Sealable W k) (hkk : SameKeys k k') {A A' : Grp CC}
    (hA : Rep W.env s.ga A) (hA' : Rep W.env s'.ga A') (x : Msg) :
    ∃ t t', s.prepare W k = .ok t ∧ s'.prepare W k' = .ok t' ∧
      (SameEntries W.env x t t' ↔ ∀ j < 16,
        (wt x j : F) • A + ((k.bits.getD j ⟨0, 0, 0, 0⟩).ok : F) • ((k.r : F) • (G : Grp CC)) =
        (wt x j : F) • A' + ((k'.bits.getD j ⟨0, 0, 0, 0⟩).ok : F) • ((k.r : F) • (G : Grp CC))) ∧
      (EqP W.env CC (maskOf W.env t) (maskOf W.env t') ↔
        (k.kopprf : F) • (G : Grp CC) + (-∑ j ∈ Finset.range 16, ((k.bits.getD j ⟨0, 0, 0, 0⟩).ok : F)) • ((k.r : F) • (G : Grp CC)) =
        (k'.kopprf : F) • (G : Grp CC) +
          (-∑ j ∈ Finset.range 16, ((k'.bits.getD j ⟨0, 0, 0, 0⟩).ok : F)) • ((k.r : F) • (G : Grp CC))) := by
  obtain ⟨t, a1, a2, -, a4, a5, M, a6, a7⟩ := view_rep hs hb hk hA x
  obtain ⟨t', b1, b2, -, b4, b5, M', b6, b7⟩ := view_rep hs' (hkk.length.trans hb) (hkk.sealable hk) hA' x
  refine ⟨t, t', a1, b1, ⟨fun h j hj => ?_, fun h => ⟨?_, ?_, ?_, ?_⟩⟩, ?_⟩
  · obtain ⟨P, P', c1, c2, c3⟩ := h.points j hj
    obtain ⟨Q, d1, d2⟩ := a5 j hj
    obtain ⟨Q', d3, d4⟩ := b5 j hj
    rw [d1] at c1
    rw [d3] at c2
    obtain rfl := Option.some.inj c1
    obtain rfl := Option.some.inj c2
    have := (eqP_ok_iff d2 d4).1 c3
    rw [hkk.r] at this
    exact this
  · intro sy j hj
    rw [a2.keys sy j hj, b2.keys sy j hj, hkk.key]
  · have u := fun b => a2.topKey b
    have v := fun b => b2.topKey b
    rw [b4, hth, ← a4] at v
    simp only [hkk.key] at v
    exact ⟨(v false).trans (u false).symm, (v true).trans (u true).symm⟩
  · intro b j hj
    obtain ⟨e0, e1, h1, h2, h3⟩ := a2.tab j hj
    obtain ⟨f0, f1, g1, g2, g3⟩ := b2.tab j hj
    have key : ∀ sy, (if b then e1 else e0).k sy = (if b then f1 else f0).k sy := by
      intro sy
      have u := (h3 b).1 sy
      have v := (g3 b).1 sy
      rw [b4, hth, ← a4, hkk.key, hkk.key, u] at v
      exact Except.ok.inj v
    unfold cipherAt
    cases b
    · simp only [Bool.false_eq_true, if_false] at key ⊢
      rw [h1, g1]
      have k1 := key .lt; have k2 := key .eq; have k3 := key .gt
      simp only [InputI.k] at k1 k2 k3
      simp [k1, k2, k3]
    · simp only [if_true] at key ⊢
      rw [h2, g2]
      have k1 := key .lt; have k2 := key .eq; have k3 := key .gt
      simp only [InputI.k] at k1 k2 k3
      simp [k1, k2, k3]
  · intro j hj
    obtain ⟨Q, d1, d2⟩ := a5 j hj
    obtain ⟨Q', d3, d4⟩ := b5 j hj
    rw [hkk.r] at d4
    exact ⟨Q, Q', d1, d3, (eqP_ok_iff d2 d4).2 (h j hj)⟩
  · rw [a6, b6]
    rw [hkk.r] at b7
    exact eqP_ok_iff a7 b7

/-- `kopprf + ga * x` -/
def valueAt (env : Env) (s : Server) (x : Msg) : R Pt := do
  let p ← s.ga.smulZ env CC x.toNat
  s.kopprf.add env CC p

theorem valueAt_rep {W : World} {s : Server} {K : Ordering → ℕ → ℤ} {A B Q : Grp CC} {o : ℕ → F} (hp : Prepared W s K A B Q o)
    (hA : Rep W.env s.ga A) (x : Msg) : ∃ P, valueAt W.env s x = .ok P ∧ Rep W.env P (Q + (x.toNat : F) • A) := by
  obtain ⟨p, h1, h2⟩ := smulI_rep hA (x.toNat : ℤ)
  obtain ⟨v, h3, h4⟩ := add_rep hp.kopprf h2
  refine ⟨v, by unfold valueAt; rw [h1, R.ok_bind, h3], ?_⟩
  rw [Int.cast_natCast] at h4
  exact h4

theorem value_eq {M : Type} [AddCommGroup M] [Module F M] (x : Msg) (o o' : ℕ → F) (A A' B B' Q Q' : M)
    (h : ∀ j < 16, (wt x j : F) • A + o j • B = (wt x j : F) • A' + o' j • B')
    (hm : Q + (-∑ j ∈ Finset.range 16, o j) • B = Q' + (-∑ j ∈ Finset.range 16, o' j) • B') :
    Q + (x.toNat : F) • A = Q' + (x.toNat : F) • A' := by
  have h1 := Finset.sum_congr (s₁ := Finset.range 16) rfl fun j hj => h j (Finset.mem_range.1 hj)
  rw [Finset.sum_add_distrib, Finset.sum_add_distrib, ← Finset.sum_smul, ← Finset.sum_smul, ← Finset.sum_smul,
    ← Finset.sum_smul, ← Nat.cast_sum, sum_wt] at h1
  have h2 := congrArg₂ (· + ·) h1 hm
  simp only [neg_smul] at h2
  generalize (∑ j ∈ Finset.range 16, o j) • B = u at h2
  generalize (∑ j ∈ Finset.range 16, o' j) • B' = v at h2
  generalize (x.toNat : F) • A = a at *
  generalize (x.toNat : F) • A' = a' at *
  calc Q + a = a + u + (Q + -u) := by abel
    _ = a' + v + (Q' + -v) := h2
    _ = Q' + a' := by abel

/-- C97: the points on the path of `x` and the mask determine `kopprf + ga * x`, whatever the secrets, the draws and the
keys of two preparations. -/
theorem C97_value {W : World} {s s' : Server} (hs : Fresh W.env s) (hs' : Fresh W.env s') {k k' : PrepCoins}
    (hb : k.bits.length = 16) (hb' : k'.bits.length = 16) (hk : Sealable W k) (hk' : Sealable W k') (x : Msg) :
    Ends (s.prepare W k) fun t => Ends (s'.prepare W k') fun t' =>
      (∀ j < 16, ∃ P P', pointAt t (x.toNat.testBit j) j = some P ∧ pointAt t' (x.toNat.testBit j) j = some P' ∧
        EqP W.env CC (.ok P) (.ok P')) → EqP W.env CC (maskOf W.env t) (maskOf W.env t') →
      EqP W.env CC (valueAt W.env t x) (valueAt W.env t' x) := by
  obtain ⟨A, hA⟩ := valid_iff.1 hs.ga
  obtain ⟨A', hA'⟩ := valid_iff.1 hs'.ga
  obtain ⟨t, a1, a2, a3, -, a5, M, a6, a7⟩ := view_rep hs hb hk hA x
  obtain ⟨t', b1, b2, b3, -, b5, M', b6, b7⟩ := view_rep hs' hb' hk' hA' x
  refine ⟨t, a1, t', b1, fun h hm => ?_⟩
  rw [a6, b6] at hm
  refine eqP_of_rep (valueAt_rep a2 (by rw [a3]; exact hA) x) (valueAt_rep b2 (by rw [b3]; exact hA') x)
    (value_eq x _ _ _ _ _ _ _ _ (fun j hj => ?_) ((eqP_ok_iff a7 b7).1 hm))
  obtain ⟨P, P', c1, c2, c3⟩ := h j hj
  obtain ⟨Q, d1, d2⟩ := a5 j hj
  obtain ⟨Q', d3, d4⟩ := b5 j hj
  rw [d1] at c1
  rw [d3] at c2
  obtain rfl := Option.some.inj c1
  obtain rfl := Option.some.inj c2
  exact (eqP_ok_iff d2 d4).1 c3

/-- the draws `k` with other scalars and another `kopprf` -/
def redraw (k : PrepCoins) (kk : ℤ) (o : ℕ → F) : PrepCoins :=
  ⟨kk, k.r, (List.range 16).map fun j => { k.bits.getD j ⟨0, 0, 0, 0⟩ with ok := (o j).val }⟩

theorem redraw_sameKeys {k : PrepCoins} (hb : k.bits.length = 16) (kk : ℤ) (o : ℕ → F) : SameKeys k (redraw k kk o) := by
  refine ⟨?_, rfl⟩
  conv_rhs => rw [range_getD hb]
  simp [redraw]

theorem redraw_ok (k : PrepCoins) (kk : ℤ) (o : ℕ → F) {j : ℕ} (hj : j < 16) :
    ((((redraw k kk o).bits.getD j ⟨0, 0, 0, 0⟩).ok : ℤ) : F) = o j := by
  have : (redraw k kk o).bits.getD j ⟨0, 0, 0, 0⟩ = { k.bits.getD j ⟨0, 0, 0, 0⟩ with ok := ((o j).val : ℤ) } := by
    simp [redraw, List.getD_eq_getElem?_getD, hj]
  rw [this]
  simp

theorem coin_val (z : F) : Coin (z.val : ℤ) := by
  have ho : CC.order = (CC.fn : ℤ) := by decide
  refine ⟨by positivity, ?_⟩
  rw [ho]
  exact_mod_cast ZMod.val_lt z

theorem redraw_coin (k : PrepCoins) (kk : ℤ) (o : ℕ → F) : ∀ b ∈ (redraw k kk o).bits, Coin b.ok := by
  intro b hb
  obtain ⟨j, -, rfl⟩ := List.mem_map.1 hb
  exact coin_val _

/-- draws with the same keys, `kopprf` and scalars modulo the order are the same draws -/
theorem redraw_unique {k k' : PrepCoins} (hb : k.bits.length = 16) (h : SameKeys k k') (hc : ∀ b ∈ k'.bits, Coin b.ok)
    {kk : ℤ} (hkk : k'.kopprf = kk) {o : ℕ → F} (ho : ∀ j < 16, (((k'.bits.getD j ⟨0, 0, 0, 0⟩).ok : ℤ) : F) = o j) :
    k' = redraw k kk o := by
  have hl := h.length.trans hb
  rw [range_getD hl, redraw, h.r, hkk]
  congr 1
  refine List.map_congr_left fun j hj => ?_
  have hj := List.mem_range.1 hj
  have h1 : (k'.bits.getD j ⟨0, 0, 0, 0⟩).ok = ((o j).val : ℤ) := by
    refine coin_cast_inj (hc _ ?_) (coin_val _) ?_
    · rw [List.getD_eq_getElem?_getD, List.getElem?_eq_getElem (by omega)]
      exact List.getElem_mem _
    · rw [ho j hj]
      simp
  have h2 := h.key .lt j
  have h3 := h.key .eq j
  have h4 := h.key .gt j
  simp only [BitCoins.key] at h2 h3 h4
  dsimp only
  rw [← h2, ← h3, ← h4, ← h1]

/-- C97: nothing but `kopprf + ga * x` is told.  Take any preparation with `r` not infinity, any input `x` and any other
secret `ga'`.  Exactly one choice of `kopprf` and the scalars, with all keys and `r` as they are, gives a server with the
secret `ga'` the same keys, the same sealed keys, the same points on the path of `x`, and the same mask. -/
theorem C97_hides {W : World} {s : Server} (hs : Fresh W.env s) {ga' : Pt} (hga : Valid W.env CC ga') {k : PrepCoins}
    (hb : k.bits.length = 16) (hk : Sealable W k) (hr : ¬ CC.order ∣ k.r) (x : Msg) :
    Ends (s.prepare W k) fun t =>
      ∃! k', (SameKeys k k' ∧ Coin k'.kopprf ∧ ∀ b ∈ k'.bits, Coin b.ok) ∧
        Ends ({ s with ga := ga' }.prepare W k') fun t' =>
          SameEntries W.env x t t' ∧ EqP W.env CC (maskOf W.env t) (maskOf W.env t') := by
  obtain ⟨A, hA⟩ := valid_iff.1 hs.ga
  obtain ⟨A', hA'⟩ := valid_iff.1 hga
  have hs' : Fresh W.env { s with ga := ga' } := ⟨hs.curve, hga, hs.noKeys, hs.si0, hs.si1⟩
  have hB : (k.r : F) • (G : Grp CC) ≠ 0 := fun h => hr (smulG_eq_zero_iff.1 h)
  obtain ⟨t, a1, -⟩ := view_rep hs hb hk hA x
  refine ⟨t, a1, ?_⟩
  have key := fun {k'} (hkk : SameKeys k k') => sameEntries_iff hs hs' rfl hb hk hkk hA hA' x
  generalize hBd : (k.r : F) • (G : Grp CC) = B at key hB
  obtain ⟨α, rfl⟩ := exists_smul hB A
  obtain ⟨α', rfl⟩ := exists_smul hB A'
  have heq : ∀ (w o o' : F), w • α • B + o • B = w • α' • B + o' • B ↔ o' = o + w * (α - α') := by
    intro w o o'
    rw [smul_smul, smul_smul, ← add_smul, ← add_smul, smul_left_injective F hB |>.eq_iff]
    constructor
    · intro h
      linear_combination -h
    · rintro rfl
      ring
  let o' : ℕ → F := fun j => ((k.bits.getD j ⟨0, 0, 0, 0⟩).ok : F) + (wt x j : F) * (α - α')
  obtain ⟨q, hq⟩ := exists_smul (C := CC) G_ne_zero ((k.kopprf : F) • (G : Grp CC) +
    (-∑ j ∈ Finset.range 16, ((k.bits.getD j ⟨0, 0, 0, 0⟩).ok : F)) • B + (∑ j ∈ Finset.range 16, o' j) • B)
  have hsum : ∀ {k' : PrepCoins}, (∀ j < 16, (((k'.bits.getD j ⟨0, 0, 0, 0⟩).ok : ℤ) : F) = o' j) →
      ∑ j ∈ Finset.range 16, (((k'.bits.getD j ⟨0, 0, 0, 0⟩).ok : ℤ) : F) = ∑ j ∈ Finset.range 16, o' j :=
    fun h => Finset.sum_congr rfl fun j hj => h j (Finset.mem_range.1 hj)
  refine ⟨redraw k q.val o', ⟨⟨redraw_sameKeys hb _ _, coin_val _, redraw_coin _ _ _⟩, ?_⟩, ?_⟩
  · obtain ⟨t1, t', c1, c2, c3, c4⟩ := key (redraw_sameKeys hb q.val o')
    obtain rfl := Except.ok.inj (a1.symm.trans c1)
    refine ⟨t', c2, c3.2 fun j hj => ?_, c4.2 ?_⟩
    · rw [heq, redraw_ok _ _ _ hj]
    · rw [hsum fun j hj => redraw_ok _ _ _ hj]
      have hv : (((redraw k q.val o').kopprf : ℤ) : F) = q := by simp [redraw]
      rw [hv, ← hq, neg_smul, neg_smul]
      abel
  · rintro k'' ⟨⟨d1, d2, d3⟩, t'', d4, d5, d6⟩
    obtain ⟨t1, t', c1, c2, c3, c4⟩ := key d1
    obtain rfl := Except.ok.inj (a1.symm.trans c1)
    obtain rfl := Except.ok.inj (c2.symm.trans d4)
    have h1 : ∀ j < 16, (((k''.bits.getD j ⟨0, 0, 0, 0⟩).ok : ℤ) : F) = o' j := fun j hj => (heq _ _ _).1 (c3.1 d5 j hj)
    refine redraw_unique hb d1 d3 ?_ h1
    have h2 := c4.1 d6
    rw [hsum h1] at h2
    refine coin_cast_inj d2 (coin_val _) ?_
    have h3 : (k''.kopprf : F) • (G : Grp CC) = q • G := by
      rw [← hq, h2, neg_smul]
      abel
    have h4 := smul_left_injective F (G_ne_zero (C := CC)) h3
    rw [h4]
    simp

/-- C97, above the threshold, where the client cannot open the mask: the entries tell nothing of `ga` and `kopprf`.  For any
other secret `ga'` and any other draw of `kopprf` exactly one choice of the scalars gives the same entries. -/
theorem C97_above {W : World} {s : Server} (hs : Fresh W.env s) {ga' : Pt} (hga : Valid W.env CC ga') {k : PrepCoins}
    (hb : k.bits.length = 16) (hk : Sealable W k) (hr : ¬ CC.order ∣ k.r) (x : Msg) (kk : ℤ) :
    Ends (s.prepare W k) fun t =>
      ∃! k', (SameKeys k k' ∧ k'.kopprf = kk ∧ ∀ b ∈ k'.bits, Coin b.ok) ∧
        Ends ({ s with ga := ga' }.prepare W k') fun t' => SameEntries W.env x t t' := by
  obtain ⟨A, hA⟩ := valid_iff.1 hs.ga
  obtain ⟨A', hA'⟩ := valid_iff.1 hga
  have hs' : Fresh W.env { s with ga := ga' } := ⟨hs.curve, hga, hs.noKeys, hs.si0, hs.si1⟩
  have hB : (k.r : F) • (G : Grp CC) ≠ 0 := fun h => hr (smulG_eq_zero_iff.1 h)
  obtain ⟨t, a1, -⟩ := view_rep hs hb hk hA x
  refine ⟨t, a1, ?_⟩
  have key := fun {k'} (hkk : SameKeys k k') => sameEntries_iff hs hs' rfl hb hk hkk hA hA' x
  generalize hBd : (k.r : F) • (G : Grp CC) = B at key hB
  obtain ⟨α, rfl⟩ := exists_smul hB A
  obtain ⟨α', rfl⟩ := exists_smul hB A'
  have heq : ∀ (w o o' : F), w • α • B + o • B = w • α' • B + o' • B ↔ o' = o + w * (α - α') := by
    intro w o o'
    rw [smul_smul, smul_smul, ← add_smul, ← add_smul, smul_left_injective F hB |>.eq_iff]
    constructor
    · intro h
      linear_combination -h
    · rintro rfl
      ring
  let o' : ℕ → F := fun j => ((k.bits.getD j ⟨0, 0, 0, 0⟩).ok : F) + (wt x j : F) * (α - α')
  refine ⟨redraw k kk o', ⟨⟨redraw_sameKeys hb _ _, rfl, redraw_coin _ _ _⟩, ?_⟩, ?_⟩
  · obtain ⟨t1, t', c1, c2, c3, -⟩ := key (redraw_sameKeys hb kk o')
    obtain rfl := Except.ok.inj (a1.symm.trans c1)
    exact ⟨t', c2, c3.2 fun j hj => by rw [heq, redraw_ok _ _ _ hj]⟩
  · rintro k'' ⟨⟨d1, d2, d3⟩, t'', d4, d5⟩
    obtain ⟨t1, t', c1, c2, c3, -⟩ := key d1
    obtain rfl := Except.ok.inj (a1.symm.trans c1)
    obtain rfl := Except.ok.inj (c2.symm.trans d4)
    exact redraw_unique hb d1 d3 d2 fun j hj => (heq _ _ _).1 (c3.1 d5 j hj)

/-- C97 is false for the draw that makes `r` infinity (one in the order of the group): then the entries of any input but 0
determine `ga`. -/
theorem C97_counterexample {W : World} {s : Server} (hs : Fresh W.env s) {ga' : Pt} (hga : Valid W.env CC ga')
    {k k' : PrepCoins} (hb : k.bits.length = 16) (hk : Sealable W k) (hr : CC.order ∣ k.r) {x : Msg} (hx : x ≠ 0)
    (hkk : SameKeys k k') :
    Ends (s.prepare W k) fun t => Ends ({ s with ga := ga' }.prepare W k') fun t' =>
      SameEntries W.env x t t' → EqP W.env CC (.ok s.ga) (.ok ga') := by
  obtain ⟨A, hA⟩ := valid_iff.1 hs.ga
  obtain ⟨A', hA'⟩ := valid_iff.1 hga
  have hs' : Fresh W.env { s with ga := ga' } := ⟨hs.curve, hga, hs.noKeys, hs.si0, hs.si1⟩
  obtain ⟨t, t', c1, c2, c3, -⟩ := sameEntries_iff hs hs' rfl hb hk hkk hA hA' x
  refine ⟨t, c1, t', c2, fun h => (eqP_ok_iff hA hA').2 ?_⟩
  have h1 := c3.1 h
  rw [smulG_eq_zero_iff.2 hr] at h1
  simp only [smul_zero, add_zero] at h1
  obtain ⟨j, hj, hbit⟩ : ∃ j < 16, x.toNat.testBit j = true := by
    by_contra hno
    push Not at hno
    refine hx (BitVec.eq_of_toNat_eq ?_)
    rw [← sum_wt x]
    exact Finset.sum_eq_zero fun j hj => by simp [wt, hno j (Finset.mem_range.1 hj)]
  have h2 := h1 j hj
  rw [wt, if_pos hbit] at h2
  have h3 : ((2 ^ j : ℕ) : F) ≠ 0 := by
    rw [Nat.cast_pow]
    refine pow_ne_zero _ ?_
    rw [Ne, ZMod.natCast_eq_zero_iff]
    intro hd
    exact absurd (Nat.le_of_dvd (by norm_num) hd) (by decide)
  exact smul_right_injective (Grp CC) h3 h2

end Opprf
end Verif
