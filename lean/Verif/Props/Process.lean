import Verif.Model.Process
import Verif.Props.Puda
import Verif.Props.Ot

/-!
# C68: secrets of different processes
-/

namespace Verif
namespace Proc

open EC Dme Ot

attribute [local irreducible] Rep

/-! ## The eavesdroppers

Each is a process of its own that uses nothing but the library, its own fresh generator, and what is sent. -/

/-- guess the branch behind the key `pk`: make a key for branch 0 and compare -/
def guessBranch (G : Gen) (env : Env) (s : G.State) (d : Inst) (pk : PKey) : R Branch := do
  let (pk0, _, _) ← selectMsg G env s (Recv.ctor d) .b0
  let e ← pk0.beq env pk
  .ok (if e then .b0 else .b1)

/-- read the message on branch `b` of the ciphertexts `cs` sent to the owner of `pk`: encrypt infinity and compare -/
def readMessage (G : Gen) (env : Env) (s : G.State) (d : Inst) (pk : PKey) (cs : List Ctxt) (b : Branch) : R Pt := do
  let (cs', _, _) ← encMsgs G env s (Sndr.ctor d) pk (Pt.infty CC) (Pt.infty CC)
  let c ← index cs b
  let c' ← index cs' b
  let v ← c'.mv.smulZ env CC (-1)
  c.mv.add env CC v

/-- read the message of user `i` of `n` in the ciphertext `c`: set up the same keys and aggregate the one ciphertext -/
def readUser (G : Gen) (env : Env) (s : G.State) (pp : Puda.Param) (n i : ℕ) (c : Pt) (t : ℤ) : R Puda.Msg := do
  let (pp, ks, _) ← setup G env s pp n
  let ak ← (Fld.zero CC.fn).sub env CC.fn (ks.ekv.getD i (Fld.zero CC.fn))
  let (m, _) ← Puda.agg env pp ak [c] [] t
  .ok m

variable {env : Env}

theorem draw_coin (G : Gen) (s : G.State) : Coin (G.draw s).1 := G.range s _ (by decide)

/-- C68 is false for the receiver of an oblivious transfer: another process finds out the selected branch from the public
key, whenever the two branches of the CRS differ and the draw is not 0. -/
theorem C68_branch_counterexample (G : Gen) (s : G.State) (h0 : (G.draw s).1 ≠ 0) {d d' : Inst}
    (hl : Live env d.curve) (hl' : Live env d'.curve) (hc : ValidCrs env d.crs) (hc' : ValidCrs env d'.crs)
    (hs : SameCrs d.crs d'.crs) (hne : ¬ (SamePoint d.crs.g0 d.crs.g1 ∧ SamePoint d.crs.h0 d.crs.h1)) (b : Branch) :
    Ends (selectMsg G env s (Recv.ctor d) b) fun r => guessBranch G env s d' r.1 = .ok b := by
  obtain ⟨g, h, r⟩ := hc.rep
  have r' := r.congr hs hc'
  obtain ⟨pg, ph, e1, a1, a2⟩ := keyGen_rep hl r b (G.draw s).1
  obtain ⟨pg', ph', e1', b1, b2⟩ := keyGen_rep hl' r' .b0 (G.draw s).1
  refine ⟨(⟨pg, ph⟩, _, (G.draw s).2), by simp only [selectMsg, Ot.selectMsg, Recv.ctor, e1, R.ok_bind]; rfl, ?_⟩
  have hz : ((G.draw s).1 : F) ≠ 0 := by rw [Ne, coin_zero_iff (draw_coin G s)]; exact h0
  change ¬ (SamePoint (d.crs.g .b0) (d.crs.g .b1) ∧ SamePoint (d.crs.h .b0) (d.crs.h .b1)) at hne
  rw [samePoint_iff (r.g .b0) (r.g .b1), samePoint_iff (r.h .b0) (r.h .b1)] at hne
  have e2 : (⟨pg', ph'⟩ : PKey).beq env ⟨pg, ph⟩ = .ok (decide (b = .b0)) := by
    simp only [PKey.beq, andR]
    rw [rep_beq b1 a1, rep_beq b2 a2, R.ok_bind]
    generalize ((G.draw s).1 : F) = z at hz
    cases b with
    | b0 => simp
    | b1 =>
      by_cases hg : z • g .b0 = z • g .b1
      · have hh : ¬ z • h .b0 = z • h .b1 := fun hh => hne ⟨smul_right_injective _ hz hg, smul_right_injective _ hz hh⟩
        simp [hg, hh]
      · simp [hg]
  simp only [guessBranch, selectMsg, Ot.selectMsg, Recv.ctor, e1', R.ok_bind, e2]
  cases b <;> rfl

/-- C68 is false for the sender of an oblivious transfer: another process reads both messages. -/
theorem C68_messages_counterexample (G : Gen) (s : G.State) {d d' : Inst} (hl : Live env d.curve) (hl' : Live env d'.curve)
    (hc : ValidCrs env d.crs) (hc' : ValidCrs env d'.crs) {pk : PKey} (hpk : ValidKey env pk)
    {m0 m1 : Pt} (h0 : Valid env CC m0) (h1 : Valid env CC m1) :
    Ends (encMsgs G env s (Sndr.ctor d) pk m0 m1) fun r =>
      EqP env CC (readMessage G env s d' pk r.1 .b0) (.ok m0) ∧ EqP env CC (readMessage G env s d' pk r.1 .b1) (.ok m1) := by
  obtain ⟨g, h, r⟩ := hc.rep
  obtain ⟨g', h', r'⟩ := hc'.rep
  obtain ⟨A, hA⟩ := valid_iff.1 hpk.g
  obtain ⟨B, hB⟩ := valid_iff.1 hpk.h
  obtain ⟨M0, hM0⟩ := valid_iff.1 h0
  obtain ⟨M1, hM1⟩ := valid_iff.1 h1
  generalize hk0 : G.draw s = k0
  generalize hk1 : G.draw k0.2 = k1
  generalize hk2 : G.draw k1.2 = k2
  generalize hk3 : G.draw k2.2 = k3
  obtain ⟨c0, -, e0, -, -, -, a0⟩ := enc_rep hl r hA hB hM0 .b0 k0.1 k1.1
  obtain ⟨c1, -, e1, -, -, -, a1⟩ := enc_rep hl r hA hB hM1 .b1 k2.1 k3.1
  obtain ⟨c0', -, e0', -, -, -, a0'⟩ := enc_rep hl' r' hA hB (rep_infty (env := env) (C := CC)) .b0 k0.1 k1.1
  obtain ⟨c1', -, e1', -, -, -, a1'⟩ := enc_rep hl' r' hA hB (rep_infty (env := env) (C := CC)) .b1 k2.1 k3.1
  refine ⟨([c0, c1], _, k3.2), by simp only [encMsgs, hk0, hk1, hk2, hk3, Ot.encMsgs, Sndr.ctor, e0, e1, R.ok_bind]; rfl, ?_⟩
  obtain ⟨v0, f0, g0⟩ := smulI_rep a0' (-1)
  obtain ⟨v1, f1, g1⟩ := smulI_rep a1' (-1)
  obtain ⟨w0, i0, j0⟩ := add_rep a0 g0
  obtain ⟨w1, i1, j1⟩ := add_rep a1 g1
  constructor
  · refine eqP_of_rep ⟨w0, ?_, j0⟩ ⟨m0, rfl, hM0⟩ ?_
    · simp only [readMessage, encMsgs, hk0, hk1, hk2, hk3, Ot.encMsgs, Sndr.ctor, e0', e1', R.ok_bind, index,
        List.getElem?_cons_zero, f0, i0]
    · generalize (k0.1 : F) • A + (k1.1 : F) • B = V
      push_cast
      module
  · refine eqP_of_rep ⟨w1, ?_, j1⟩ ⟨m1, rfl, hM1⟩ ?_
    · simp only [readMessage, encMsgs, hk0, hk1, hk2, hk3, Ot.encMsgs, Sndr.ctor, e0', e1', R.ok_bind, index,
        List.getElem?_cons_zero, List.getElem?_cons_succ, f1, i1]
    · generalize (k2.1 : F) • A + (k3.1 : F) • B = V
      push_cast
      module

theorem userDraws_length (G : Gen) (n : ℕ) (s : G.State) : (userDraws G n s).1.length = n := by
  induction n generalizing s with
  | zero => rfl
  | succ n ih => simp only [userDraws, List.length_cons, ih]

/-- C68 is false for the users of PUDA: another process reads every single message below 65535 from its ciphertext. -/
theorem C68_users_counterexample (G : Gen) (s : G.State) {pp pp' : Puda.Param} (hl1 : LiveGen env pp.curve1)
    (hl2 : LiveGen env pp.curve2) (hl1' : LiveGen env pp'.curve1) (hl2' : LiveGen env pp'.curve2) {n i : ℕ} (hi : i < n)
    {m : Puda.Msg} (hm : m.val < 65535) (t : ℤ) :
    Ends (setup G env s pp n) fun r => ∃ ek, r.2.1.ekv[i]? = some ek ∧
      Ends (Puda.enc env r.1 ek m t) fun c => readUser G env s pp' n i c t = .ok m := by
  generalize hk0 : G.draw s = k0
  generalize hk1 : G.draw k0.2 = k1
  generalize hk2 : userDraws G n k1.2 = k2
  have hlen : k2.1.length = n := by rw [← hk2, userDraws_length]
  obtain ⟨qq, v1, v2, e1, r, -, -⟩ := Puda.setup_rep hl1 hl2 ⟨k0.1, k1.1, k2.1⟩
  obtain ⟨qq', v1', v2', e1', r', -, -⟩ := Puda.setup_rep hl1' hl2' ⟨k0.1, k1.1, k2.1⟩
  refine ⟨(qq, _, k2.2), by simp only [setup, hk0, hk1, hk2, e1, R.ok_bind]; rfl, ?_⟩
  obtain ⟨u, hu⟩ : ∃ u, k2.1[i]? = some u := ⟨_, List.getElem?_eq_getElem (by omega)⟩
  refine ⟨Fld.ofZ (u.1 : F), by simp [hu], ?_⟩
  obtain ⟨c, f1, f2⟩ := Puda.enc_rep r (u.1 : F) m t
  refine ⟨c, f1, ?_⟩
  obtain ⟨tg, h1, -⟩ := Puda.agg_rep r' (-(u.1 : F)) (.cons f2 .nil) .nil t (x := ((m.val : ℕ) : F)) (by
    rw [List.sum_cons, List.sum_nil, add_zero]
    module)
  have hfn : 65536 < Puda.CC.fn := by decide
  rw [ZMod.val_natCast, Nat.mod_eq_of_lt (by omega), if_pos hm] at h1
  have hz : (Fld.zero CC.fn).sub env CC.fn (Fld.ofZ (u.1 : F)) = .ok (Fld.ofZ (-(u.1 : F))) := by
    rw [Fld.zero_eq, Fld.sub_ofZ, zero_sub]
  simp only [readUser, setup, hk0, hk1, hk2, e1', R.ok_bind]
  rw [List.getD_eq_getElem?_getD, List.getElem?_map, hu]
  simp only [Option.map_some, Option.getD_some, hz, R.ok_bind, h1]
  congr 1
  exact Fin.ext (by simp [Fin.ofNat, Nat.mod_eq_of_lt m.isLt])

/-- a generator that returns different values -/
def counter : Gen where
  State := ℤ
  init := 3
  below := fun s n => ((s * s + 5) % n, s + 1)
  range := fun _ _ h => ⟨Int.emod_nonneg _ h.ne', Int.emod_lt_of_pos _ h⟩

/-- the hypotheses of C68 about draws and messages, and an attack carried out -/
example : (counter.draw counter.init).1 ≠ 0 ∧ (7 : Puda.Msg).val < 65535 ∧ LiveGen env0 (Puda.ctor (some 0) (some 0)).curve1 :=
  ⟨by decide +kernel, by decide, env0_liveGen⟩
example : (do
    let d ← ctorMessy tenv (some 0) ⟨11, 12, 13, 14⟩
    let (pk, _, _) ← selectMsg counter tenv counter.init (Recv.ctor d) .b1
    let b ← guessBranch counter tenv counter.init (ctorCrs (some 0) d.crs) pk
    let e ← d.crs.g0.beq tenv CC d.crs.g1
    .ok (decide (b = Branch.b1), e)) = .ok (true, false) := by decide +kernel

end Proc
end Verif
