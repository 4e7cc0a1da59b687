import Verif.Model.ProcessOpprf
import Verif.Props.OpprfDebug
import Verif.Props.OpprfSampleB
import Verif.Props.Process

/-!
# C101: the secret of an OPPRF server and clients that run the same library
-/

namespace Verif
namespace Proc

open EC Dme Opprf

attribute [local irreducible] Rep

/-! ## The attacker

A process of its own that uses nothing but the library, its own fresh generators, and what a client receives. -/

/-- draw the server's `kopprf` -/
def guessKopprf (G U : Gen) (env : Env) (g : G.State) (u : U.State) (c : Option Addr) : R Pt :=
  Curve.getRandomPoint env CC c (prepDraws G U g u).1.kopprf

/-- `ga` from the `result` of a client with input `x` after the last round, before it unmasks: draw `r` and the scalars of the
server, subtract `r * sum(ok)` and divide by `x` -/
def recoverGa (G U : Gen) (env : Env) (g : G.State) (u : U.State) (c : Option Addr) (result : Pt) (x : Msg) : R Pt := do
  let k := (prepDraws G U g u).1
  let r ← Curve.getRandomPoint env CC c k.r
  let t ← r.smulZ env CC (-(k.bits.map BitCoins.ok).sum)
  let a ← result.add env CC t
  let i ← (Fld.mk' CC.fn 1).div env CC.fn (Fld.mk' CC.fn x.toNat)
  a.smul env CC i

/-- the value `kopprf + ga * z` that a client gets for an input `z` below the threshold -/
def forge (G U : Gen) (env : Env) (g : G.State) (u : U.State) (c : Option Addr) (result : Pt) (x : Msg) (z : Int) : R Pt := do
  let a ← recoverGa G U env g u c result x
  let k ← guessKopprf G U env g u c
  let t ← a.smulZ env CC z
  k.add env CC t

theorem bitDraws_length (G U : Gen) (n : ℕ) (g : G.State) (u : U.State) : (bitDraws G U n g u).1.length = n := by
  induction n generalizing g u with
  | zero => rfl
  | succ n ih => simp only [bitDraws, List.length_cons, ih]

theorem prepDraws_length (G U : Gen) (g : G.State) (u : U.State) : (prepDraws G U g u).1.bits.length = 16 :=
  bitDraws_length G U 16 _ _

/-- C101 is false: from the `result` that a client with a nonzero input holds after the last round, whether the input is above
the threshold or not, another process finds out `ga`, from nothing at all `kopprf`, and so the value of every input. -/
theorem C101_counterexample {G U : Gen} {W : World} {g : G.State} {u : U.State} {s s1 s2 : Server} {c c2 : Client}
    (hP : Parties W.env s c) (hc : c.result = Pt.infty CC) {x : Msg} (hx : x ≠ 0) {a : Option Addr} (ha : LiveGen W.env a)
    {st : G.State × U.State} (h1 : prepare G U W g u s = .ok (s1, st)) {d : ℕ → RoundDraws}
    (hf : FinePoints W d x 16 s1 (c.setMessage x)) (h2 : runRounds W d 16 s1 (c.setMessage x) = .ok (s2, c2)) :
    EqP W.env CC (recoverGa G U W.env g u a c2.result x) (.ok s.ga) ∧
      EqP W.env CC (guessKopprf G U W.env g u a) (.ok s1.kopprf) ∧
      ∀ z : ℤ, EqP W.env CC (forge G U W.env g u a c2.result x z)
        (do let t ← s.ga.smulZ W.env CC z; s1.kopprf.add W.env CC t) := by
  obtain ⟨A, hA⟩ := valid_iff.1 hP.ga
  obtain ⟨-, -, -, e4⟩ := hP.noKeys
  have hb := prepDraws_length G U g u
  unfold prepare at h1
  simp only at h1
  generalize hk : (prepDraws G U g u).1 = k at hb h1
  obtain ⟨s1', h3, h1'⟩ := R.bind_eq_ok.1 h1
  obtain ⟨rfl, -⟩ := Prod.mk.inj (Except.ok.inj h1')
  obtain ⟨p1, p2, p3, p4, p5⟩ := prepare_pts hP.server hA e4 hb h3
  have hcR : Ot.Ready W.env ⟨(c.setMessage x).otr, s1'.ots⟩ := Ready.of_dme hP.ready rfl (by rw [p2])
  obtain ⟨-, -, q3⟩ := rounds_any (x := x) d 16 le_rfl p1 hcR rfl (Rn := 0)
    (by change Rep W.env c.result 0; rw [hc]; exact rep_infty) hf h2
  have hsum : ∑ j ∈ Finset.range 16, (((k.bits.getD j ⟨0, 0, 0, 0⟩).ok : ℤ) : F) = ((k.bits.map BitCoins.ok).sum : F) := by
    rw [← hb]
    exact sum_getD _ _
  rw [hsum, Nat.mod_eq_of_lt x.isLt, zero_add] at q3
  have hx0 : ((x.toNat : ℕ) : F) ≠ 0 := by
    rw [Ne, ZMod.natCast_eq_zero_iff]
    intro hd
    have h0 : x.toNat ≠ 0 := fun h => hx (BitVec.eq_of_toNat_eq (by simpa using h))
    have := Nat.le_of_dvd (Nat.pos_of_ne_zero h0) hd
    have hlt : x.toNat < 2 ^ 16 := x.isLt
    have : 2 ^ 16 < CC.fn := by decide
    omega
  obtain ⟨Q, r1, r2⟩ := randomPoint_rep (C := CC) ha k.r
  obtain ⟨T, t1, t2⟩ := smulI_rep r2 (-(k.bits.map BitCoins.ok).sum)
  obtain ⟨D, d1, d2⟩ := add_rep q3 t2
  obtain ⟨E, f1, f2⟩ := smulF_rep d2 ((1 : F) / ((x.toNat : ℕ) : F))
  have hi : (Fld.mk' CC.fn 1).div W.env CC.fn (Fld.mk' CC.fn x.toNat) = .ok (Fld.ofZ ((1 : F) / ((x.toNat : ℕ) : F))) := by
    have e1 : Fld.mk' CC.fn 1 = Fld.ofZ (1 : F) := by
      rw [Fld.mk'_eq]; simp
    have e2 : Fld.mk' CC.fn x.toNat = Fld.ofZ ((x.toNat : ℕ) : F) := by
      rw [Fld.mk'_eq]; simp
    rw [e1, e2, Fld.div_ofZ W.env _ hx0]
  rw [Int.cast_neg, neg_smul, add_neg_cancel_right, smul_smul, one_div, inv_mul_cancel₀ hx0, one_smul] at f2
  have hE : recoverGa G U W.env g u a c2.result x = .ok E := by simp only [recoverGa, hk, r1, t1, d1, hi, f1, R.ok_bind]
  obtain ⟨K, k1, k2⟩ := randomPoint_rep (C := CC) ha k.kopprf
  have hK : guessKopprf G U W.env g u a = .ok K := by rw [guessKopprf, hk, k1]
  refine ⟨eqP_of_rep ⟨E, hE, f2⟩ ⟨s.ga, rfl, hA⟩ rfl, eqP_of_rep ⟨K, hK, k2⟩ ⟨_, rfl, p1.kopprf⟩ rfl, fun z => ?_⟩
  obtain ⟨M, m1, m2⟩ := smulI_rep f2 z
  obtain ⟨N, n1, n2⟩ := add_rep k2 m2
  obtain ⟨M', m1', m2'⟩ := smulI_rep hA z
  obtain ⟨N', n1', n2'⟩ := add_rep p1.kopprf m2'
  exact eqP_of_rep ⟨N, by simp only [forge, hE, hK, m1, n1, R.ok_bind], n2⟩
    ⟨N', by simp only [m1', n1', R.ok_bind], n2'⟩ rfl

/-- C101 is false in debug builds for all draws, if `ga` and the CRS are finite. -/
theorem C101_debug_counterexample {G U : Gen} {W : World} (hd : W.env.ndebug = false) {g : G.State} {u : U.State}
    {s s1 s2 : Server} {c c2 : Client} (hP : Parties W.env s c) (hga : s.ga.inf = false) (hcrs : FiniteCrs c.otr.dme.crs)
    (hc : c.result = Pt.infty CC) {x : Msg} (hx : x ≠ 0) {a : Option Addr} (ha : LiveGen W.env a)
    {st : G.State × U.State} (h1 : prepare G U W g u s = .ok (s1, st)) {d : ℕ → RoundDraws}
    (h2 : runRounds W d 16 s1 (c.setMessage x) = .ok (s2, c2)) :
    EqP W.env CC (recoverGa G U W.env g u a c2.result x) (.ok s.ga) ∧
      EqP W.env CC (guessKopprf G U W.env g u a) (.ok s1.kopprf) ∧
      ∀ z : ℤ, EqP W.env CC (forge G U W.env g u a c2.result x z)
        (do let t ← s.ga.smulZ W.env CC z; s1.kopprf.add W.env CC t) := by
  refine C101_counterexample hP hc hx ha h1 ?_ h2
  unfold prepare at h1
  simp only at h1
  obtain ⟨s1', h3, h1'⟩ := R.bind_eq_ok.1 h1
  obtain ⟨rfl, -⟩ := Prod.mk.inj (Except.ok.inj h1')
  obtain ⟨n1, n2⟩ := noPtrs_prepare hP.server hga h3
  refine finePoints_debug hd d 16 le_rfl n1 hcrs ?_ rfl
  rw [n2]
  exact finiteCrs_congr hP.ready.same hcrs

/-! ## An attack -/

/-- a generator that returns the values of a list -/
def scripted (l : List ℤ) : Gen where
  State := ℕ
  init := 0
  below := fun s n => (l.getD s 0 % n, s + 1)
  range := fun _ _ h => ⟨Int.emod_nonneg _ h.ne', Int.emod_lt_of_pos _ h⟩

def curveRand : Gen := scripted (2362 :: 17 :: (List.range 16).map fun j => (j : ℤ) + 1)
def utilsRand : Gen := scripted ((List.replicate 16 [Sample.kk .lt, Sample.kk .eq, Sample.kk .gt]).flatten)

theorem draws_eq : (prepDraws curveRand utilsRand curveRand.init utilsRand.init).1 = Sample.draws.prep := by
  decide +kernel

/-- a client whose input 1001 is above the threshold 1000 -/
example : ∃ s1 st s2 c2, prepare curveRand utilsRand Sample.W curveRand.init utilsRand.init Sample.srv0 = .ok (s1, st) ∧
    runRounds Sample.W Sample.draws.rounds 16 s1 ((Client.ctor (some 1) Sample.crs).setMessage 1001#16) = .ok (s2, c2) ∧
    EqP Sample.W.env CC (recoverGa curveRand utilsRand Sample.W.env curveRand.init utilsRand.init (some 1) c2.result 1001#16)
      (.ok Sample.ga) := by
  obtain ⟨r, hr, -⟩ := C52_walk_partial Sample.parties (Sample.undisturbed (x := 1001#16) (by decide) _ (Sample.b_fine _))
  have hr' := hr
  unfold evaluate at hr
  obtain ⟨s1, h1, hr⟩ := R.bind_eq_ok.1 hr
  obtain ⟨⟨s2, c2⟩, h2, hr⟩ := R.bind_eq_ok.1 hr
  have h3 : prepare curveRand utilsRand Sample.W curveRand.init utilsRand.init Sample.srv0 =
      .ok (s1, (prepDraws curveRand utilsRand curveRand.init utilsRand.init).2) := by
    unfold prepare
    simp only [draws_eq, h1, R.ok_bind]
  exact ⟨s1, _, s2, c2, h3, h2, (C101_debug_counterexample rfl Sample.parties rfl
    (fun b => by cases b <;> exact ⟨rfl, rfl⟩) rfl (by decide) Sample.liveGen1 h3 h2).1⟩

end Proc
end Verif
