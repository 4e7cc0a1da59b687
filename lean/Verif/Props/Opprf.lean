import Verif.Lemmas.Opprf

/-!
# C52–C55: the oblivious programmable PRF
-/

namespace Verif
namespace Opprf

open EC Dme Ot Aes BytesSpec

attribute [local irreducible] Rep

/-! ## C52 -/

/-- C52: whatever the keys, after `prepareKeysAndInputs` the tables chain the key of the comparison from bit `i + 1` upwards
to the key of the comparison from bit `i` upwards: the last input holds the key for the top bit, and the entry of round
`i + 1` on the client's branch, for the outcome so far, seals the key for the next outcome.  At bit 0 the outcome is the
comparison of the two numbers.  Nothing is assumed about earlier calls. -/
theorem C52_chain {W : World} {s s' : Server} {k : PrepCoins} (h : s.prepare W k = .ok s') (x : Msg) :
    s'.theta = s.theta ∧
    (s'.keys (sym x s.theta 15))[15]? = some (if x.toNat.testBit 15 then s'.Sl1 else s'.Sl0).k ∧
    (∀ i < 15, ∃ e key key', (if x.toNat.testBit i then s'.Si1 else s'.Si0)[i + 1]? = some e ∧
      (s'.keys (sym x s.theta (i + 1)))[i + 1]? = some key ∧ (s'.keys (sym x s.theta i))[i]? = some key' ∧
      W.seal key key' = .ok (e.k (sym x s.theta (i + 1)))) ∧
    sym x s.theta 0 = compare x.toNat s.theta.toNat := by
  unfold Server.prepare at h
  obtain ⟨Q, -, h⟩ := R.bind_eq_ok.1 h
  obtain ⟨B, -, h⟩ := R.bind_eq_ok.1 h
  obtain ⟨s1, h1, h⟩ := R.bind_eq_ok.1 h
  obtain ⟨s2, h2, h3⟩ := R.bind_eq_ok.1 h
  have ht1 : s1.theta = s.theta := by
    obtain ⟨os, -, rfl⟩ := pushKeys_inv _ h1
    rfl
  obtain ⟨⟨a, b, u1, -, -⟩, u2, -⟩ := tableLoop_inv 15 h3
  obtain ⟨⟨l0, l1, w0⟩, ht⟩ := prepareTop_inv h2
  have ht2 : s2.theta = s1.theta := by rw [w0]
  have ht' : s'.theta = s.theta := by rw [u1]; exact ht2.trans ht1
  refine ⟨ht', ?_, ?_, sym_zero _ _⟩
  · rw [sym_top, ← ht1, u1]
    exact ht _
  · intro i hi
    obtain ⟨x0, x1, v1, v2, v3⟩ := u2 i hi
    obtain ⟨k, k', w1, w2, w3⟩ := entries_inv v1
    have w := w3 (x.toNat.testBit i) (sym x s.theta (i + 1))
    rw [ht2, ht1, ← sym_step] at w
    refine ⟨if x.toNat.testBit i then x1 else x0, k _, k' _, ?_, ?_, ?_, w⟩
    · cases x.toNat.testBit i
      exacts [v2, v3]
    · rw [u1]; exact w1 _
    · rw [u1]; exact w2 _

/-! ## The parties -/

/-- A server and a client ready for an evaluation: their curve objects live, the same valid CRS, a valid secret, and no
keys left from an earlier preparation. -/
structure Parties (env : Env) (s : Server) (c : Client) : Prop where
  ready : Ready env ⟨c.otr, s.ots⟩
  server : LiveGen env s.curve
  client : LiveGen env c.curve
  ga : Valid env CC s.ga
  result : Valid env CC c.result
  noKeys : s.k_lt = [] ∧ s.k_eq = [] ∧ s.k_gt = [] ∧ s.ok = []
  si0 : s.Si0.length = 16
  si1 : s.Si1.length = 16

theorem cassert_true {env : Env} {r : R Bool} (h : r = .ok true) : cassert env r = .ok () := by
  rw [h, cassert]
  split <;> rfl

theorem samePoint_curve (P : Pt) (a b : Option Addr) : SamePoint { P with curve := a } { P with curve := b } := by
  cases h : P.inf
  · exact .inr ⟨rfl, rfl, rfl, rfl⟩
  · exact .inl ⟨rfl, rfl⟩

/-- A newly constructed server and client with the same CRS, after `setSecret`, are ready; the caller's point keeps its
coordinates and now refers to the server's curve object. -/
theorem parties_of_ctor (env : Env) {a a' : Option Addr} (ha : LiveGen env a) (ha' : LiveGen env a') {crs : Crs}
    (h : OnCurve CC crs.g0 ∧ OnCurve CC crs.g1 ∧ OnCurve CC crs.h0 ∧ OnCurve CC crs.h1) (theta : Msg) (g : ℤ) {ga : Pt}
    (hga : OnCurve CC ga) :
    Ends (do let s ← Server.ctor env a theta crs g; s.setSecret env ga) fun r =>
      Parties env r.2 (Client.ctor a' crs) ∧ r.2.theta = theta ∧ r.2.curve = a ∧ r.2.ga = { ga with curve := a } ∧
        r.1 = { ga with curve := a } := by
  obtain ⟨gk, h1, -⟩ := randomPoint_rep (C := CC) ha g
  obtain ⟨h2, -⟩ := rep_setCurve (env := env) hga ha.live
  obtain ⟨-, c1, c2, -⟩ := C32_transport env ha.live h
  obtain ⟨-, c3, c4, -⟩ := C32_transport env ha'.live h
  have hv : Pt.isValid env CC { ga with curve := a } = .ok true := by
    rcases h2 with h2 | h2
    · rw [Pt.isValid, if_pos h2.flag]
    · obtain ⟨b, h3, h4⟩ := C08_isValid_object env (C := CC) (.inr rfl) h2.x h2.y h2.live
      rw [h3, h4.2 (.inr h2.on)]
  refine ⟨({ ga with curve := a }, ⟨Sndr.ctor (ctorCrs a crs), a, theta, { ga with curve := a }, Pt.infty CC, Pt.infty CC, gk,
    [], [], [], [], .default, .default, List.replicate 16 .default, List.replicate 16 .default⟩), ?_, ?_⟩
  · unfold Server.ctor Server.setSecret
    have hcu : (ctorCrs a crs).curve = a := rfl
    simp only [hcu, h1, R.ok_bind, cassert_true hv]
  · refine ⟨⟨⟨ha'.live, ha.live, c3, c1, ?_⟩, ha, ha', h2, .inl ⟨rfl, rfl, rfl⟩, ⟨rfl, rfl, rfl, rfl⟩, rfl, rfl⟩, rfl, rfl, rfl, rfl⟩
    exact ⟨samePoint_curve _ _ _, samePoint_curve _ _ _, samePoint_curve _ _ _, samePoint_curve _ _ _⟩

/-- the key drawn for outcome `sy` and bit `j` -/
def Draws.key (d : Draws) (sy : Ordering) (j : ℕ) : ℤ := (d.prep.bits.getD j ⟨0, 0, 0, 0⟩).key sy

/-- the sum of the scalars `ok` drawn -/
def Draws.okSum (d : Draws) : ℤ := (d.prep.bits.map BitCoins.ok).sum

/-- the generator times this is `kopprf + r * (-ok_sum)` -/
def Draws.mask' (d : Draws) : ℤ := d.prep.kopprf - d.prep.r * d.okSum

/-- The draws are such that in the evaluation of `x` the client is not misled, although it may fail to decrypt: there is
* no heap block without four spare bytes and no unreadable IV (C44, C51),
* no AES key of less than 16 bytes (C48),
* no integer without an encoding (C30), no seal that another key opens, or that its own key opens to something else (C49),
* no infinity among the ciphertexts to be decrypted or the masks (C24, C18). -/
structure NotMisled (W : World) (s : Server) (c : Client) (x : Msg) (d : Draws) : Prop where
  slack : ∀ n, n + 4 ≤ W.pf.usable n
  iv : IvReadable W.iv
  bits : d.prep.bits.length = 16
  full : ∀ sy, ∀ j < 16, 2 ^ 120 ≤ d.key sy j ∧ d.key sy j < 2 ^ 128
  walk : Legible W d.key x s.theta
  fine : ∀ s', s.prepare W d.prep = .ok s' → FineRounds W d.rounds x 16 s' (c.setMessage x)
  mask : MaskLegible W s.curve (fun sy => d.key sy 0) (compare x.toNat s.theta.toNat) d.mask' d.mask.rnd
  un : ¬ CC.order ∣ d.un

/-- The 15 sealed keys and the mask meant for a client with input `x` open. -/
def AllOpen (W : World) (s : Server) (x : Msg) (d : Draws) : Prop :=
  PathOpens W d.key x s.theta ∧
    MaskOpens W s.curve (fun sy => d.key sy 0) (compare x.toNat s.theta.toNat) d.mask' d.mask.rnd

/-- The draws are such that the evaluation of `x` is not disturbed: the client is not misled, and what is meant for it
opens. -/
def Undisturbed (W : World) (s : Server) (c : Client) (x : Msg) (d : Draws) : Prop :=
  NotMisled W s c x d ∧ AllOpen W s x d

theorem mask_eq {M : Type} [AddCommGroup M] [Module F M] (a b c : ℤ) (g : M) :
    (((a - b * c : ℤ)) : F) • g = (a : F) • g + (-(c : F)) • (b : F) • g := by
  push_cast
  module

theorem sum_getD (l : List BitCoins) (z : BitCoins) :
    ∑ j ∈ Finset.range l.length, (((l.getD j z).ok : ℤ) : F) = (((l.map BitCoins.ok).sum : ℤ) : F) := by
  induction l with
  | nil => simp
  | cons a l ih =>
    rw [List.length_cons, Finset.sum_range_succ', List.map_cons, List.sum_cons, Int.cast_add, ← ih, add_comm]
    rfl

/-- an evaluation that does not mislead the client ends with the right result, or with the client's exception if something
meant for it does not open -/
theorem evaluate_gen {W : World} {s : Server} {c : Client} (hP : Parties W.env s c) {x : Msg} {d : Draws}
    (hu : NotMisled W s c x d) {A R0 : Grp CC} (hA : Rep W.env s.ga A) (hR : Rep W.env c.result R0) :
    (evaluate W s c x d = .error (noDecryption W.env) ∧ ¬ AllOpen W s x d) ∨
    ∃ s' c', evaluate W s c x d = .ok (s', c') ∧ Rep W.env s'.kopprf ((d.prep.kopprf : F) • (G : Grp CC)) ∧ s'.ga = s.ga ∧
      Rep W.env s'.r ((d.prep.r : F) • (G : Grp CC)) ∧ s'.curve = s.curve ∧ s'.theta = s.theta ∧
      c'.key = d.key (compare x.toNat s.theta.toNat) 0 ∧ (∀ j < 16, s'.ok[j]? = some (Fld.ofZ (((d.prep.bits.getD j ⟨0, 0, 0, 0⟩).ok : ℤ) : F))) ∧
      Rep W.env c'.result (R0 + (x.toNat : F) • A + (d.okSum : F) • (d.prep.r : F) • G +
        ((if compare x.toNat s.theta.toNat = .gt then d.mask.rnd else d.mask' : ℤ) : F) • G) ∧ AllOpen W s x d := by
  obtain ⟨e1, e2, e3, e4⟩ := hP.noKeys
  have hbits : d.prep = ⟨d.prep.kopprf, d.prep.r, (List.range 16).map fun j => d.prep.bits.getD j ⟨0, 0, 0, 0⟩⟩ := by
    have : d.prep.bits = (List.range 16).map fun j => d.prep.bits.getD j ⟨0, 0, 0, 0⟩ := by
      apply List.ext_getElem
      · simp [hu.bits]
      · intro i h1 h2
        simp [List.getD_eq_getElem?_getD, List.getElem?_eq_getElem h1]
    conv_lhs => rw [show d.prep = ⟨d.prep.kopprf, d.prep.r, d.prep.bits⟩ from rfl, this]
  obtain ⟨s1, p1, p2, p3, p4, p5, p6⟩ := prepare_ok (W := W) hP.server hA e1 e2 e3 e4 hP.si0 hP.si1 d.prep.kopprf d.prep.r
    (fun j => d.prep.bits.getD j ⟨0, 0, 0, 0⟩) (fun i hi sy sy' => by
      have h1 := hu.full sy (i + 1) (by omega)
      have h2 := hu.full sy' i (by omega)
      obtain ⟨c, h3, -⟩ := seal_ok (W := W) hu.iv h1.1 (m := d.key sy' i) (by linarith [h2.1]) (n := 16)
        (by have := h2.2; norm_num at this ⊢; exact this) (by norm_num) (hu.slack _)
      exact ⟨c, h3⟩)
  rw [← hbits] at p1
  have hcR : Ready W.env ⟨(c.setMessage x).otr, s1.ots⟩ := Ready.of_dme hP.ready rfl (by rw [p3])
  rcases rounds_ok (x := x) d.rounds hu.iv hu.slack hu.full 16 le_rfl p2 hcR rfl hR (by simp) (by rw [p5]; exact hu.walk)
    (hu.fine s1 p1) with ⟨q1, j, -, q3, q4⟩ | ⟨s2, c2, q1, ⟨ots, rfl, q2⟩, q3, q4, q5, q6, q7, q8⟩
  · refine .inl ⟨?_, fun h => q4 ?_⟩
    · unfold evaluate
      simp only [p1, R.ok_bind, q1, R.error_bind]
    · rw [p5]
      exact h.1 j q3
  have hsum : ∑ j ∈ Finset.range 16, (((d.prep.bits.getD j ⟨0, 0, 0, 0⟩).ok : ℤ) : F) = (d.okSum : F) := by
    rw [← hu.bits]
    exact sum_getD _ _
  rw [hsum] at q7
  have hz : (d.mask' : F) • (G : Grp CC) = (d.prep.kopprf : F) • G + (-(d.okSum : F)) • (d.prep.r : F) • G :=
    mask_eq _ _ _ _
  rw [p5, sym_zero] at q6
  have hm := masks_ok (p2.ots ots) (by rw [p4]; exact hP.server) hu.iv hu.slack (fun sy => (hu.full sy 0 (by norm_num)).1) hsum hz
    (sy0 := compare x.toNat s.theta.toNat) (k := d.mask) (by rw [p4]; exact hu.mask) (c := c2) (q6 (by norm_num))
    (by rw [q5]; exact hP.client) hu.un q7
  obtain ⟨m, m1, ⟨m2, m3⟩ | ⟨c3, m2, m3, m4, m5⟩⟩ := hm
  · refine .inl ⟨?_, fun h => m3 ?_⟩
    · unfold evaluate
      simp only [p1, R.ok_bind, q1, m1, m2, R.error_bind]
    · rw [p4]
      exact h.2
  refine .inr ⟨{ s1 with ots := ots }, c3, ?_, p2.kopprf, p6, p2.r, p4, p5, ?_, p2.ok, ?_, ?_, ?_⟩
  · unfold evaluate
    simp only [p1, R.ok_bind, q1, m1, m2]
  · rw [m3]
    exact q6 (by norm_num)
  · have e : x.toNat % 2 ^ 16 = x.toNat := Nat.mod_eq_of_lt x.isLt
    rw [e, ← add_assoc] at m4
    exact m4
  · intro j hj
    rw [← p5]
    exact q8 j (by omega) hj
  · rw [← p4]
    exact m5

theorem evaluate_ok {W : World} {s : Server} {c : Client} (hP : Parties W.env s c) {x : Msg} {d : Draws}
    (hu : Undisturbed W s c x d) {A R0 : Grp CC} (hA : Rep W.env s.ga A) (hR : Rep W.env c.result R0) :
    ∃ s' c', evaluate W s c x d = .ok (s', c') ∧ Rep W.env s'.kopprf ((d.prep.kopprf : F) • (G : Grp CC)) ∧ s'.ga = s.ga ∧
      Rep W.env s'.r ((d.prep.r : F) • (G : Grp CC)) ∧ s'.curve = s.curve ∧ s'.theta = s.theta ∧
      c'.key = d.key (compare x.toNat s.theta.toNat) 0 ∧ (∀ j < 16, s'.ok[j]? = some (Fld.ofZ (((d.prep.bits.getD j ⟨0, 0, 0, 0⟩).ok : ℤ) : F))) ∧
      Rep W.env c'.result (R0 + (x.toNat : F) • A + (d.okSum : F) • (d.prep.r : F) • G +
        ((if compare x.toNat s.theta.toNat = .gt then d.mask.rnd else d.mask' : ℤ) : F) • G) := by
  rcases evaluate_gen hP hu.1 hA hR with ⟨-, h⟩ | ⟨s', c', h1, h2, h3, h4, h5, h6, h7, h8, h9, -⟩
  · exact absurd hu.2 h
  · exact ⟨s', c', h1, h2, h3, h4, h5, h6, h7, h8, h9⟩

/-- C52 (part), the client's walk: with undisturbing draws the client ends an evaluation holding the key of bit 0 for the
outcome of the comparison of its input with the threshold.
Missing: draws that disturb the evaluation (see `Undisturbed`). -/
theorem C52_walk_partial {W : World} {s : Server} {c : Client} (hP : Parties W.env s c) {x : Msg} {d : Draws}
    (hu : Undisturbed W s c x d) :
    Ends (evaluate W s c x d) fun r => r.2.key = d.key (compare x.toNat s.theta.toNat) 0 := by
  obtain ⟨A, hA⟩ := valid_iff.1 hP.ga
  obtain ⟨R0, hR⟩ := valid_iff.1 hP.result
  obtain ⟨s', c', h1, -, -, -, -, -, h2, -⟩ := evaluate_ok hP hu hA hR
  exact ⟨_, h1, h2⟩

/-! ## C53 -/

/-- C53 (part): for an input at most the threshold, undisturbing draws and any shuffles, a fresh or cleaned client ends with
`kopprf + ga * x`.
Missing: draws that disturb the evaluation (see `Undisturbed`). -/
theorem C53_partial {W : World} {s : Server} {c : Client} (hP : Parties W.env s c) (hc : c.result = Pt.infty CC)
    {x : Msg} (hx : x.toNat ≤ s.theta.toNat) {d : Draws} (hu : Undisturbed W s c x d) :
    Ends (evaluate W s c x d) fun r => EqP W.env CC (.ok r.2.result)
      (do let t ← s.ga.smulZ W.env CC x.toNat; r.1.kopprf.add W.env CC t) := by
  obtain ⟨A, hA⟩ := valid_iff.1 hP.ga
  obtain ⟨s', c', h1, h2, h3, h4, -, -, -, -, h5⟩ := evaluate_ok hP hu hA (R0 := 0) (by rw [hc]; exact rep_infty)
  refine ⟨_, h1, ?_⟩
  have hne : compare x.toNat s.theta.toNat ≠ .gt := by
    rw [Ne, Nat.compare_eq_gt]
    omega
  obtain ⟨t, t1, t2⟩ := smulI_rep hA (x.toNat : ℤ)
  obtain ⟨v, v1, v2⟩ := add_rep h2 t2
  refine eqP_of_rep ⟨_, rfl, h5⟩ ⟨v, by rw [t1, R.ok_bind, v1], v2⟩ ?_
  rw [if_neg hne, Draws.mask', mask_eq, Int.cast_natCast]
  generalize (d.prep.r : F) • (G : Grp CC) = B
  generalize (d.prep.kopprf : F) • (G : Grp CC) = Q
  generalize (d.okSum : F) = o
  generalize (x.toNat : F) = xx
  module

/-! ## C54 -/

/-- `R + ga * x + r * sum` as the operators compute it; `R` is the point `getRandomPoint` returns for the draw `k` -/
def aboveResult (W : World) (curve : Option Addr) (k : ℤ) (ga : Pt) (x : Msg) (r : Pt) (sum : ℤ) : R Pt := do
  let R ← Curve.getRandomPoint W.env CC curve k
  let t ← ga.smulZ W.env CC x.toNat
  let u ← R.add W.env CC t
  let v ← r.smulZ W.env CC sum
  u.add W.env CC v

theorem aboveResult_rep {W : World} {curve : Option Addr} (hc : LiveGen W.env curve) (k : ℤ) {ga r : Pt} {A B : Grp CC}
    (hA : Rep W.env ga A) (hB : Rep W.env r B) (x : Msg) (sum : ℤ) :
    ∃ P, aboveResult W curve k ga x r sum = .ok P ∧
      Rep W.env P ((k : F) • G + (x.toNat : F) • A + (sum : F) • B) := by
  obtain ⟨P1, a1, a2⟩ := randomPoint_rep (C := CC) hc k
  obtain ⟨P2, b1, b2⟩ := smulI_rep hA (x.toNat : ℤ)
  obtain ⟨P3, c1, c2⟩ := add_rep a2 b2
  obtain ⟨P4, d1, d2⟩ := smulI_rep hB sum
  obtain ⟨P5, e1, e2⟩ := add_rep c2 d2
  refine ⟨P5, by simp only [aboveResult, a1, b1, c1, d1, e1, R.ok_bind], ?_⟩
  rwa [Int.cast_natCast] at e2

/-- C54 (part): for an input above the threshold, undisturbing draws and any shuffles, a fresh or cleaned client ends with
`R + ga * x + r * sum(ok)`, `R` being the point drawn by `sendEncryptedMasks`.
Missing: draws that disturb the evaluation (see `Undisturbed`). -/
theorem C54_partial {W : World} {s : Server} {c : Client} (hP : Parties W.env s c) (hc : c.result = Pt.infty CC)
    {x : Msg} (hx : s.theta.toNat < x.toNat) {d : Draws} (hu : Undisturbed W s c x d) :
    Ends (evaluate W s c x d) fun r => EqP W.env CC (.ok r.2.result)
      (aboveResult W s.curve d.mask.rnd s.ga x r.1.r d.okSum) := by
  obtain ⟨A, hA⟩ := valid_iff.1 hP.ga
  obtain ⟨s', c', h1, h2, h3, h4, -, -, -, -, h5⟩ := evaluate_ok hP hu hA (R0 := 0) (by rw [hc]; exact rep_infty)
  refine ⟨_, h1, ?_⟩
  refine eqP_of_rep ⟨_, rfl, h5⟩ (aboveResult_rep hP.server _ hA h4 x _) ?_
  rw [if_pos (Nat.compare_eq_gt.2 hx)]
  generalize (d.prep.r : F) • (G : Grp CC) = B
  generalize (d.mask.rnd : F) • (G : Grp CC) = Q
  generalize (d.okSum : F) = o
  generalize (x.toNat : F) = xx
  module

/-- C53 and C54 (part) for two new objects: a server and a client constructed with the same CRS on the curve, the server
then given the point `ga` by `setSecret`. The result is in terms of the caller's `ga` and of the threshold passed to the
constructor.
Missing: draws that disturb the evaluation (see `Undisturbed`). -/
theorem C53_new_partial {W : World} {a a' : Option Addr} (ha : LiveGen W.env a) (ha' : LiveGen W.env a') {crs : Crs}
    (h : OnCurve CC crs.g0 ∧ OnCurve CC crs.g1 ∧ OnCurve CC crs.h0 ∧ OnCurve CC crs.h1) (theta : Msg) (g : ℤ) {ga : Pt}
    (hga : OnCurve CC ga) {x : Msg} {d : Draws}
    (hu : ∀ s p s', Server.ctor W.env a theta crs g = .ok s → s.setSecret W.env ga = .ok (p, s') →
      Undisturbed W s' (Client.ctor a' crs) x d) :
    Ends (do
      let s ← Server.ctor W.env a theta crs g
      let (_, s) ← s.setSecret W.env ga
      evaluate W s (Client.ctor a' crs) x d) fun r =>
      (x.toNat ≤ theta.toNat → EqP W.env CC (.ok r.2.result) (do
        let t ← Pt.smulZ W.env CC { ga with curve := a } x.toNat
        r.1.kopprf.add W.env CC t)) ∧
      (theta.toNat < x.toNat → EqP W.env CC (.ok r.2.result)
        (aboveResult W a d.mask.rnd { ga with curve := a } x r.1.r d.okSum)) := by
  obtain ⟨⟨p, s'⟩, h1, h2, h3, h4, h5, -⟩ := parties_of_ctor W.env ha ha' h theta g hga
  obtain ⟨s, h6, h7⟩ := R.bind_eq_ok.1 h1
  have hu := hu s p s' h6 h7
  simp only at h2 h3 h4 h5
  rcases Nat.lt_or_ge theta.toNat x.toNat with hx | hx
  · obtain ⟨r, e1, e2⟩ := C54_partial h2 rfl (by rw [h3]; exact hx) hu
    refine ⟨r, by simp only [h6, h7, e1, R.ok_bind], fun hx' => absurd hx' (by omega), fun _ => ?_⟩
    rwa [h4, h5] at e2
  · obtain ⟨r, e1, e2⟩ := C53_partial h2 rfl (by rw [h3]; exact hx) hu
    refine ⟨r, by simp only [h6, h7, e1, R.ok_bind], fun _ => ?_, fun hx' => absurd hx' (by omega)⟩
    rwa [h5] at e2

/-- C54: that result takes every value exactly once as the draw of `R` varies. -/
theorem C54_every_value {W : World} {curve : Option Addr} (hc : LiveGen W.env curve) {ga r T : Pt}
    (hga : Valid W.env CC ga) (hr : Valid W.env CC r) (hT : Valid W.env CC T) (x : Msg) (sum : ℤ) :
    ∃! k, Coin k ∧ EqP W.env CC (aboveResult W curve k ga x r sum) (.ok T) := by
  obtain ⟨A, hA⟩ := valid_iff.1 hga
  obtain ⟨B, hB⟩ := valid_iff.1 hr
  obtain ⟨T', hT'⟩ := valid_iff.1 hT
  have key : ∀ k : ℤ, EqP W.env CC (aboveResult W curve k ga x r sum) (.ok T) ↔
      (k : F) • (G : Grp CC) + (x.toNat : F) • A + (sum : F) • B = T' := fun k =>
    eqP_res_iff (aboveResult_rep hc k hA hB x sum) hT'
  obtain ⟨k, hk⟩ := exists_smul (C := CC) G_ne_zero (T' - (x.toNat : F) • A - (sum : F) • B)
  refine ⟨(k.val : ℤ), ⟨coin_val k, (key _).2 ?_⟩, ?_⟩
  · rw [coin_val_cast, ← hk]
    abel
  · rintro j ⟨hj, hj'⟩
    have h1 := (key j).1 hj'
    refine coin_cast_inj hj (coin_val k) ?_
    rw [coin_val_cast]
    have h2 : (j : F) • (G : Grp CC) = k • G := by
      rw [← hk, ← h1]
      abel
    exact smul_left_injective F G_ne_zero h2

/-! ## C55 -/

/-- calls of the server's public methods -/
inductive SCall
  | secret (ga : Pt)
  | prepare (k : PrepCoins)
  | round (round : ℤ) (pk : PKey) (k : RoundCoins)
  | masks (k : MaskCoins)
  | clean (coin : ℤ)

/-- the server after one call -/
def SCall.run (W : World) (s : Server) : SCall → R Server
  | .secret ga => do let (_, s) ← s.setSecret W.env ga; .ok s
  | .prepare k => s.prepare W k
  | .round i pk k => do let (_, s) ← s.runOTRound W i pk k; .ok s
  | .masks k => do let _ ← s.sendEncryptedMasks W k; .ok s
  | .clean k => s.clean W.env k

/-- calls of the client's public methods -/
inductive CCall
  | message (x : Msg)
  | start (round coin : ℤ)
  | finish (round : ℤ) (m : OtCtxts)
  | unmask (m : Arr3 ℤ) (coin : ℤ)
  | clean

/-- the client after one call -/
def CCall.run (W : World) (c : Client) : CCall → R Client
  | .message x => .ok (c.setMessage x)
  | .start i k => do let (_, c) ← c.start W i k; .ok c
  | .finish i m => c.finish W i m
  | .unmask m k => c.unmaskResult W m k
  | .clean => .ok c.clean

/-- a sequence of calls -/
def runAll {σ κ : Type} (step : σ → κ → R σ) (s : σ) : List κ → R σ
  | [] => .ok s
  | k :: ks => do let s ← step s k; runAll step s ks

theorem runAll_inv {σ κ : Type} {step : σ → κ → R σ} {I : σ → Prop} (h : ∀ s k s', I s → step s k = .ok s' → I s')
    (ks : List κ) {s s' : σ} (hs : I s) (hr : runAll step s ks = .ok s') : I s' := by
  induction ks generalizing s with
  | nil => rw [← Except.ok.inj hr]; exact hs
  | cons k ks ih =>
    rw [runAll] at hr
    obtain ⟨t, h1, h2⟩ := R.bind_eq_ok.1 hr
    exact ih (h _ _ _ hs h1) h2

/-- what never changes in a server -/
def Server.frozen (s : Server) : Inst × Option Addr × Msg := (s.ots.dme, s.curve, s.theta)

theorem runOTRound_inv {W : World} {s s' : Server} {i : ℤ} {pk : PKey} {k : RoundCoins} {m : OtCtxts}
    (h : s.runOTRound W i pk k = .ok (m, s')) : ∃ c, s' = { s with ots := { s.ots with c := c } } := by
  have hz : ∀ {ots ots' : Sndr} {pk : PKey} {a b : ℤ} {k0 k1 : EncCoins} {c : List Ctxt},
      encMsgsZ W.env ots pk a b k0 k1 = .ok (c, ots') → ots' = { ots with c := c } := by
    intro ots ots' pk a b k0 k1 c h
    unfold encMsgsZ at h
    obtain ⟨_, -, h⟩ := R.bind_eq_ok.1 h
    obtain ⟨_, -, h⟩ := R.bind_eq_ok.1 h
    obtain ⟨rfl, rfl⟩ := Prod.mk.inj (Except.ok.inj h)
    rfl
  have hp : ∀ {ots ots' : Sndr} {pk : PKey} {a b : Pt} {k0 k1 : EncCoins} {c : List Ctxt},
      encMsgs W.env ots pk a b k0 k1 = .ok (c, ots') → ots' = { ots with c := c } := by
    intro ots ots' pk a b k0 k1 c h
    unfold encMsgs at h
    obtain ⟨_, -, h⟩ := R.bind_eq_ok.1 h
    obtain ⟨_, -, h⟩ := R.bind_eq_ok.1 h
    obtain ⟨rfl, rfl⟩ := Prod.mk.inj (Except.ok.inj h)
    rfl
  unfold Server.runOTRound at h
  split_ifs at h
  · obtain ⟨⟨c, o1⟩, h1, h⟩ := R.bind_eq_ok.1 h
    obtain ⟨⟨p, o2⟩, h2, h⟩ := R.bind_eq_ok.1 h
    obtain ⟨-, rfl⟩ := Prod.mk.inj (Except.ok.inj h)
    rw [hp h2, hz h1]
    exact ⟨p, rfl⟩
  · obtain ⟨x0, -, h⟩ := R.bind_eq_ok.1 h
    obtain ⟨x1, -, h⟩ := R.bind_eq_ok.1 h
    obtain ⟨⟨c0, o0⟩, h0, h⟩ := R.bind_eq_ok.1 h
    obtain ⟨⟨c1, o1⟩, h1, h⟩ := R.bind_eq_ok.1 h
    obtain ⟨⟨c2, o2⟩, h2, h⟩ := R.bind_eq_ok.1 h
    obtain ⟨⟨p, o3⟩, h3, h⟩ := R.bind_eq_ok.1 h
    obtain ⟨-, rfl⟩ := Prod.mk.inj (Except.ok.inj h)
    rw [hp h3, hz h2, hz h1, hz h0]
    exact ⟨p, rfl⟩

theorem prepare_inv {W : World} {s s' : Server} {k : PrepCoins} (h : s.prepare W k = .ok s') :
    ∃ Q B os l0 l1 a b, os.length = k.bits.length ∧ s' = { s with
      kopprf := Q, r := B, k_lt := s.k_lt ++ k.bits.map BitCoins.lt, k_eq := s.k_eq ++ k.bits.map BitCoins.eq,
      k_gt := s.k_gt ++ k.bits.map BitCoins.gt, ok := s.ok ++ os, Sl0 := l0, Sl1 := l1, Si0 := a, Si1 := b } := by
  unfold Server.prepare at h
  obtain ⟨Q, -, h⟩ := R.bind_eq_ok.1 h
  obtain ⟨B, -, h⟩ := R.bind_eq_ok.1 h
  obtain ⟨s1, h1, h⟩ := R.bind_eq_ok.1 h
  obtain ⟨s2, h2, h3⟩ := R.bind_eq_ok.1 h
  obtain ⟨os, ho, rfl⟩ := pushKeys_inv _ h1
  obtain ⟨⟨l0, l1, rfl⟩, -⟩ := prepareTop_inv h2
  obtain ⟨⟨a, b, rfl, -⟩, -⟩ := tableLoop_inv 15 h3
  exact ⟨Q, B, os, l0, l1, a, b, ho, rfl⟩

theorem SCall.frozen {W : World} {s s' : Server} {k : SCall} (h : k.run W s = .ok s') : s'.frozen = s.frozen := by
  cases k with
  | secret ga =>
    obtain ⟨⟨p, t⟩, h1, h2⟩ := R.bind_eq_ok.1 h
    obtain rfl := Except.ok.inj h2
    unfold Server.setSecret at h1
    obtain ⟨_, -, h1⟩ := R.bind_eq_ok.1 h1
    obtain ⟨-, rfl⟩ := Prod.mk.inj (Except.ok.inj h1)
    rfl
  | prepare k =>
    obtain ⟨Q, B, os, l0, l1, a, b, -, rfl⟩ := prepare_inv h
    rfl
  | round i pk k =>
    obtain ⟨⟨m, t⟩, h1, h2⟩ := R.bind_eq_ok.1 h
    obtain rfl := Except.ok.inj h2
    obtain ⟨c, rfl⟩ := runOTRound_inv h1
    rfl
  | masks k =>
    obtain ⟨m, -, h2⟩ := R.bind_eq_ok.1 h
    obtain rfl := Except.ok.inj h2
    rfl
  | clean k =>
    obtain ⟨g, -, h2⟩ := R.bind_eq_ok.1 h
    obtain rfl := (Except.ok.inj h2).symm
    rfl

theorem CCall.frozen {W : World} {c c' : Client} {k : CCall} (h : k.run W c = .ok c') :
    c'.otr.dme = c.otr.dme ∧ c'.curve = c.curve := by
  cases k with
  | message x => obtain rfl := (Except.ok.inj h).symm; exact ⟨rfl, rfl⟩
  | clean => obtain rfl := (Except.ok.inj h).symm; exact ⟨rfl, rfl⟩
  | start i k =>
    obtain ⟨⟨m, t⟩, h1, h2⟩ := R.bind_eq_ok.1 h
    obtain rfl := Except.ok.inj h2
    unfold Client.start at h1
    cases hx : c.x with
    | none => rw [hx] at h1; simp at h1
    | some x =>
      rw [hx] at h1
      simp only at h1
      split_ifs at h1
      obtain ⟨⟨pk, o⟩, h3, h1⟩ := R.bind_eq_ok.1 h1
      obtain ⟨-, rfl⟩ := Prod.mk.inj (Except.ok.inj h1)
      unfold selectMsg at h3
      obtain ⟨kp, -, h3⟩ := R.bind_eq_ok.1 h3
      obtain ⟨-, rfl⟩ := Prod.mk.inj (Except.ok.inj h3)
      exact ⟨rfl, rfl⟩
  | finish i m =>
    change Client.finish W c i m = .ok c' at h
    unfold Client.finish at h
    split_ifs at h
    · obtain ⟨_, -, h⟩ := R.bind_eq_ok.1 h
      obtain ⟨_, -, h⟩ := R.bind_eq_ok.1 h
      obtain ⟨_, -, h⟩ := R.bind_eq_ok.1 h
      obtain rfl := (Except.ok.inj h).symm
      exact ⟨rfl, rfl⟩
    · obtain ⟨f, -, h⟩ := R.bind_eq_ok.1 h
      obtain ⟨_, -, h⟩ := R.bind_eq_ok.1 h
      cases f with
      | none => simp [R.error_bind] at h
      | some f =>
        simp only [R.ok_bind] at h
        obtain ⟨_, -, h⟩ := R.bind_eq_ok.1 h
        obtain ⟨_, -, h⟩ := R.bind_eq_ok.1 h
        obtain rfl := (Except.ok.inj h).symm
        exact ⟨rfl, rfl⟩
  | unmask m k =>
    change Client.unmaskResult W c m k = .ok c' at h
    unfold Client.unmaskResult at h
    obtain ⟨f, -, h⟩ := R.bind_eq_ok.1 h
    obtain ⟨_, -, h⟩ := R.bind_eq_ok.1 h
    cases f with
    | none => simp at h
    | some f =>
      simp only at h
      obtain ⟨_, -, h⟩ := R.bind_eq_ok.1 h
      obtain ⟨_, -, h⟩ := R.bind_eq_ok.1 h
      obtain ⟨_, -, h⟩ := R.bind_eq_ok.1 h
      obtain rfl := (Except.ok.inj h).symm
      exact ⟨rfl, rfl⟩

/-- a round does not touch the client's input -/
theorem client_x {W : World} {c c' c'' : Client} {i k : ℤ} {pk : PKey} {m : OtCtxts} (h : c.start W i k = .ok (pk, c'))
    (h' : c'.finish W i m = .ok c'') : c''.x = c.x := by
  have h1 : c'.x = c.x := by
    unfold Client.start at h
    cases hx : c.x with
    | none => rw [hx] at h; simp at h
    | some x =>
      rw [hx] at h
      simp only at h
      split_ifs at h
      obtain ⟨⟨pk, o⟩, -, h⟩ := R.bind_eq_ok.1 h
      obtain ⟨-, rfl⟩ := Prod.mk.inj (Except.ok.inj h)
      first | rfl | exact hx
  rw [← h1]
  unfold Client.finish at h'
  split_ifs at h'
  · obtain ⟨_, -, h'⟩ := R.bind_eq_ok.1 h'
    obtain ⟨_, -, h'⟩ := R.bind_eq_ok.1 h'
    obtain ⟨_, -, h'⟩ := R.bind_eq_ok.1 h'
    obtain rfl := (Except.ok.inj h').symm
    rfl
  · obtain ⟨f, -, h'⟩ := R.bind_eq_ok.1 h'
    obtain ⟨_, -, h'⟩ := R.bind_eq_ok.1 h'
    cases f with
    | none => simp [R.error_bind] at h'
    | some f =>
      simp only [R.ok_bind] at h'
      obtain ⟨_, -, h'⟩ := R.bind_eq_ok.1 h'
      obtain ⟨_, -, h'⟩ := R.bind_eq_ok.1 h'
      obtain rfl := (Except.ok.inj h').symm
      rfl

/-- C55: take any server and client, whatever calls were made on them (with any arguments, in any order), call `clean()` on
both and set a secret.  Then an evaluation is the same - all values, all faults, all later state - as with newly constructed
objects that drew the same `gk` and were given the same secret. -/
theorem C55_clean {W : World} {a a' : Option Addr} {theta : Msg} {crs crs' : Crs} {g g' : ℤ} {s0 s s1 f s2 f2 : Server}
    {c : Client} {hs : List SCall} {hc : List CCall} {ga p p' : Pt}
    (h0 : Server.ctor W.env a theta crs g = .ok s0) (h1 : runAll (SCall.run W) s0 hs = .ok s)
    (h2 : runAll (CCall.run W) (Client.ctor a' crs') hc = .ok c)
    (h3 : s.clean W.env g' = .ok s1) (h4 : s1.setSecret W.env ga = .ok (p, s2))
    (h5 : Server.ctor W.env a theta crs g' = .ok f) (h6 : f.setSecret W.env ga = .ok (p', f2)) (x : Msg) (d : Draws) :
    evaluate W s2 c.clean x d = evaluate W f2 (Client.ctor a' crs') x d := by
  have i1 : s.frozen = s0.frozen :=
    runAll_inv (I := fun t => t.frozen = s0.frozen) (fun _ _ _ hI h => (SCall.frozen h).trans hI) hs rfl h1
  have i2 : c.otr.dme = (Client.ctor a' crs').otr.dme ∧ c.curve = (Client.ctor a' crs').curve :=
    runAll_inv (I := fun t => t.otr.dme = (Client.ctor a' crs').otr.dme ∧ t.curve = (Client.ctor a' crs').curve)
      (fun _ _ _ hI h => ⟨(CCall.frozen h).1.trans hI.1, (CCall.frozen h).2.trans hI.2⟩) hc ⟨rfl, rfl⟩ h2
  obtain ⟨gk0, -, h0⟩ := R.bind_eq_ok.1 h0
  obtain rfl := (Except.ok.inj h0).symm
  obtain ⟨j1, j2⟩ := Prod.mk.inj i1
  obtain ⟨j2, j3⟩ := Prod.mk.inj j2
  obtain ⟨gk, e1, h3⟩ := R.bind_eq_ok.1 h3
  obtain rfl := (Except.ok.inj h3).symm
  obtain ⟨gk', e2, h5⟩ := R.bind_eq_ok.1 h5
  obtain rfl := (Except.ok.inj h5).symm
  simp only at j1 j2 j3 e1 e2
  rw [j2, e2] at e1
  obtain rfl := Except.ok.inj e1
  unfold Server.setSecret at h4 h6
  obtain ⟨_, -, h4⟩ := R.bind_eq_ok.1 h4
  obtain ⟨-, rfl⟩ := Prod.mk.inj (Except.ok.inj h4)
  obtain ⟨_, -, h6⟩ := R.bind_eq_ok.1 h6
  obtain ⟨-, rfl⟩ := Prod.mk.inj (Except.ok.inj h6)
  rcases s with ⟨ots, cu, th, ga0, kop, r, gk, klt, keq, kgt, ok, l0, l1, t0, t1⟩
  rcases c with ⟨ccu, otr, cx, res, key⟩
  simp only at j1 j2 j3 i2
  subst j2 j3
  obtain ⟨i2, i3⟩ := i2
  subst i3
  unfold evaluate
  have hp := prepare_frame (W := W)
    ⟨Sndr.ctor (ctorCrs cu crs), cu, th, { ga with curve := cu }, Pt.infty CC, Pt.infty CC, gk', [], [], [], [], .default, .default,
      List.replicate 16 .default, List.replicate 16 .default⟩ ots l0 l1 d.prep
  simp only [Client.setMessage, Client.clean]
  simp only at hp
  have hcu : (ctorCrs cu crs).curve = cu := rfl
  simp only [hcu]
  rw [hp, bind_map]
  refine bind_congr' _ _ _ fun t ht => ?_
  have hd : ots.dme = t.ots.dme := by
    obtain ⟨Q, B, os, l0, l1, a, b, -, rfl⟩ := prepare_inv ht
    exact j1
  have hr := runRounds_frame (W := W) d.rounds 15 t hd
    ⟨ccu, (Client.ctor ccu crs').otr, some x, Pt.infty CC, 0⟩ (otr := otr) i2
  simp only at hr
  rw [hr]
  rfl

/-- C55: without the client's `clean()` the previous result is added in (undisturbing draws).
Missing: draws that disturb the evaluation (see `Undisturbed`). -/
theorem C55_no_clean_partial {W : World} {s : Server} {c : Client} (hP : Parties W.env s c) {x : Msg} {d : Draws}
    (hu : Undisturbed W s c x d) (hu' : Undisturbed W s c.clean x d) :
    Ends (evaluate W s c x d) fun r => Ends (evaluate W s c.clean x d) fun r' =>
      EqP W.env CC (.ok r.2.result) (c.result.add W.env CC r'.2.result) := by
  obtain ⟨A, hA⟩ := valid_iff.1 hP.ga
  obtain ⟨R0, hR⟩ := valid_iff.1 hP.result
  have hP' : Parties W.env s c.clean :=
    ⟨hP.ready, hP.server, hP.client, hP.ga, valid_iff.2 ⟨0, rep_infty⟩, hP.noKeys, hP.si0, hP.si1⟩
  obtain ⟨s', c', h1, -, -, -, -, -, -, -, h2⟩ := evaluate_ok hP hu hA hR
  obtain ⟨s'', c'', h3, -, -, -, -, -, -, -, h4⟩ := evaluate_ok hP' hu' hA (R0 := 0) rep_infty
  refine ⟨_, h1, _, h3, ?_⟩
  obtain ⟨v, v1, v2⟩ := add_rep hR h4
  refine eqP_of_rep ⟨_, rfl, h2⟩ ⟨v, v1, v2⟩ ?_
  abel

end Opprf
end Verif
