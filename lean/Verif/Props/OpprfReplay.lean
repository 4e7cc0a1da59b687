import Verif.Props.Opprf

/-!
# C96: one preparation answers any number of evaluations
-/

namespace Verif
namespace Opprf

open Dme Ot Aes EC

/-- the calls of one evaluation (`testsuit/test_opprf.cpp:42-62`) without `prepareKeysAndInputs()`; `d.prep` is not used -/
def again (W : World) (s : Server) (c : Client) (x : Msg) (d : Draws) : R (Server × Client) := do
  let c := c.setMessage x
  let (s, c) ← runRounds W d.rounds 16 s c
  let m ← s.sendEncryptedMasks W d.mask
  let c ← c.unmaskResult W m d.un
  .ok (s, c)

theorem runRounds_inv {W : World} {d : ℕ → RoundDraws} (n : ℕ) {s s' : Server} {c c' : Client}
    (h : runRounds W d n s c = .ok (s', c')) : ∃ l, s' = { s with ots := { s.ots with c := l } } := by
  induction n generalizing s c with
  | zero =>
    obtain ⟨rfl, rfl⟩ := Prod.mk.inj (Except.ok.inj h)
    exact ⟨s.ots.c, rfl⟩
  | succ n ih =>
    rw [runRounds] at h
    obtain ⟨⟨pk, c1⟩, -, h⟩ := R.bind_eq_ok.1 h
    obtain ⟨⟨m, s1⟩, h2, h⟩ := R.bind_eq_ok.1 h
    obtain ⟨c2, -, h⟩ := R.bind_eq_ok.1 h
    obtain ⟨l1, rfl⟩ := runOTRound_inv h2
    obtain ⟨l2, rfl⟩ := ih h
    exact ⟨l2, rfl⟩

/-- C96: a server that has answered an evaluation answers the next client, whoever it is and whatever its input, without a
new preparation, and does so as if it had just been prepared with the same draws: all values, all faults, all later state are
the same.  There is no condition on the draws. -/
theorem C96_replay {W : World} {s s1 : Server} {c c1 : Client} {x : Msg} {d : Draws}
    (h : evaluate W s c x d = .ok (s1, c1)) (c' : Client) (x' : Msg) (d' : Draws) :
    again W s1 c' x' d' = evaluate W s c' x' { d' with prep := d.prep } := by
  unfold evaluate at h
  obtain ⟨t, h1, h⟩ := R.bind_eq_ok.1 h
  obtain ⟨⟨s2, c2⟩, h2, h⟩ := R.bind_eq_ok.1 h
  obtain ⟨m, -, h⟩ := R.bind_eq_ok.1 h
  obtain ⟨c3, -, h⟩ := R.bind_eq_ok.1 h
  obtain ⟨rfl, rfl⟩ := Prod.mk.inj (Except.ok.inj h)
  obtain ⟨l, rfl⟩ := runRounds_inv 16 h2
  unfold again evaluate
  have hr := runRounds_frame (W := W) d'.rounds 15 t (ots := { t.ots with c := l }) rfl (c'.setMessage x')
    (otr := (c'.setMessage x').otr) rfl
  simp only [h1, R.ok_bind]
  have hr' : runRounds W d'.rounds 16 { t with ots := { t.ots with c := l } } (c'.setMessage x') =
    runRounds W d'.rounds 16 t (c'.setMessage x') := hr
  rw [hr']

/-- what the client can make of two results: `p * (1 - l) + q * l` -/
def combine (env : Env) (p q : Pt) (l : ℤ) : R Pt := do
  let a ← p.smulZ env CC (1 - l)
  let b ← q.smulZ env CC l
  a.add env CC b

/-- C96 is false: with one preparation, two evaluations of different inputs `x` and `y` up to the threshold (undisturbing
draws) give both `kopprf + ga * x` and `kopprf + ga * y` for the same `kopprf`, and the two results give
`kopprf + ga * z` for every integer `z`, above the threshold too. -/
theorem C96_counterexample {W : World} {s : Server} {c c' : Client} (hP : Parties W.env s c) (hP' : Parties W.env s c')
    (hc : c.result = Pt.infty CC) (hc' : c'.result = Pt.infty CC) {x y : Msg} (hxy : x ≠ y)
    (hx : x.toNat ≤ s.theta.toNat) (hy : y.toNat ≤ s.theta.toNat) {d d' : Draws} (hu : Undisturbed W s c x d)
    (hu' : Undisturbed W s c' y { d' with prep := d.prep }) :
    Ends (evaluate W s c x d) fun r => Ends (again W r.1 c' y d') fun r' =>
      (EqP W.env CC (.ok r'.2.result) do let t ← s.ga.smulZ W.env CC y.toNat; r.1.kopprf.add W.env CC t) ∧
      ∀ z : ℤ, (∃ l : ℤ, l * (y.toNat - x.toNat) ≡ z - x.toNat [ZMOD CC.order]) ∧
        ∀ l : ℤ, l * (y.toNat - x.toNat) ≡ z - x.toNat [ZMOD CC.order] →
          EqP W.env CC (combine W.env r.2.result r'.2.result l)
            (do let t ← s.ga.smulZ W.env CC z; r.1.kopprf.add W.env CC t) := by
  obtain ⟨A, hA⟩ := valid_iff.1 hP.ga
  obtain ⟨s1, c1, h1, h2, h3, h4, -, -, -, -, h5⟩ := evaluate_ok hP hu hA (R0 := 0) (by rw [hc]; exact rep_infty)
  obtain ⟨s2, c2, k1, k2, k3, k4, -, -, -, -, k5⟩ := evaluate_ok hP' hu' hA (R0 := 0) (by rw [hc']; exact rep_infty)
  rw [← C96_replay h1] at k1
  have e1 : compare x.toNat s.theta.toNat ≠ .gt := by rw [Ne, Nat.compare_eq_gt]; omega
  have e2 : compare y.toNat s.theta.toNat ≠ .gt := by rw [Ne, Nat.compare_eq_gt]; omega
  have hs : ∀ (u : F) (m o : F) (B Q : Grp CC), 0 + u • A + o • B + (Q + (-o) • B) = Q + u • A := by
    intro u m o B Q
    module
  rw [if_neg e1, Draws.mask', mask_eq, hs _ 0] at h5
  rw [if_neg e2, Draws.mask', mask_eq, hs _ 0] at k5
  refine ⟨_, h1, _, k1, ?_, fun z => ⟨?_, fun l hl => ?_⟩⟩
  · obtain ⟨t, t1, t2⟩ := smulI_rep hA (y.toNat : ℤ)
    obtain ⟨v, v1, v2⟩ := add_rep h2 t2
    refine eqP_of_rep ⟨_, rfl, k5⟩ ⟨v, by rw [t1, R.ok_bind, v1], v2⟩ ?_
    rw [Int.cast_natCast]
  · have hne : (((y.toNat : ℤ) - x.toNat : ℤ) : F) ≠ 0 := by
      rw [Ne, ZMod.intCast_zmod_eq_zero_iff_dvd]
      intro hd
      have h6 : (y.toNat : ℤ) - x.toNat = 0 := by
        refine Int.eq_zero_of_abs_lt_dvd hd ?_
        have h7 := x.isLt
        have h8 := y.isLt
        have h9 : (65536 : ℤ) ≤ (CC.fn : ℕ) := by decide +kernel
        rw [abs_lt]
        constructor <;> omega
      exact hxy (BitVec.eq_of_toNat_eq (by omega))
    refine ⟨(((z - x.toNat : ℤ) : F) * (((y.toNat : ℤ) - x.toNat : ℤ) : F)⁻¹).val, ?_⟩
    refine (ZMod.intCast_eq_intCast_iff _ _ CC.fn).1 ?_
    rw [Int.cast_mul, Int.cast_natCast, ZMod.natCast_val, ZMod.cast_id', id, mul_assoc, inv_mul_cancel₀ hne, mul_one]
  · have hl' := (ZMod.intCast_eq_intCast_iff _ _ CC.fn).2 hl
    push_cast at hl'
    obtain ⟨t, t1, t2⟩ := smulI_rep hA z
    obtain ⟨v, v1, v2⟩ := add_rep h2 t2
    obtain ⟨a, a1, a2⟩ := smulI_rep h5 (1 - l)
    obtain ⟨b, b1, b2⟩ := smulI_rep k5 l
    obtain ⟨w, w1, w2⟩ := add_rep a2 b2
    refine eqP_of_rep ⟨w, by unfold combine; rw [a1, R.ok_bind, b1, R.ok_bind, w1], w2⟩ ⟨v, by rw [t1, R.ok_bind, v1], v2⟩ ?_
    have hz : (z : F) = x.toNat + l * (y.toNat - x.toNat) := by rw [hl']; ring
    rw [hz]
    push_cast
    generalize (d.prep.kopprf : F) • (G : Grp CC) = Q
    generalize (x.toNat : F) = xx
    generalize (y.toNat : F) = yy
    generalize (l : F) = ll
    module

end Opprf
end Verif
