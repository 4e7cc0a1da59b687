import Verif.Props.TestsDme
import Verif.Props.OpprfDebug

/-!
# C79 in debug builds: exactly which draws let `test_dme` and `test_ot` succeed

With assertions on, a decryption that meets infinity is stopped, as infinity has no curve object.  The exception are the points of
a CRS that was copied: `updateCurve` gives a curve object to infinity too.  They are finite if the two trapdoors are not 0.
-/

namespace Verif
namespace Tests

open EC Dme Ot
open Opprf (NoPtr FiniteCrs finite_of_dec)

variable {env : Env}

/-- infinity among the points of a CRS has no curve object -/
def NoPtrCrs (c : Crs) : Prop := ∀ b, NoPtr (c.g b) ∧ NoPtr (c.h b)

theorem noPtrCrs_of_finite {c : Crs} (h : FiniteCrs c) : NoPtrCrs c := fun b => ⟨.of_finite (h b).1, .of_finite (h b).2⟩

theorem noPtr_random {c : Option Addr} {k : ℤ} {P : Pt} (h : Curve.getRandomPoint env CC c k = .ok P) : NoPtr P := by
  unfold Curve.getRandomPoint at h
  obtain ⟨g, h1, h2⟩ := R.bind_eq_ok.1 h
  unfold Curve.getDefaultGen at h1
  obtain ⟨o, -, h1⟩ := R.bind_eq_ok.1 h1
  obtain rfl := Except.ok.inj h1
  exact (NoPtr.of_finite rfl).smul h2

theorem noPtr_messy {c : Option Addr} {k : MessyCoins} {d : Inst} (h : ctorMessy env c k = .ok d) : NoPtrCrs d.crs := by
  unfold ctorMessy at h
  obtain ⟨_, -, h⟩ := R.bind_eq_ok.1 h
  obtain ⟨_, -, h⟩ := R.bind_eq_ok.1 h
  obtain ⟨g0, a0, h⟩ := R.bind_eq_ok.1 h
  obtain ⟨g1, a1, h⟩ := R.bind_eq_ok.1 h
  obtain ⟨h0, b0, h⟩ := R.bind_eq_ok.1 h
  obtain ⟨h1, b1, h⟩ := R.bind_eq_ok.1 h
  obtain rfl := Except.ok.inj h
  rintro (_ | _)
  · exact ⟨noPtr_random a0, (noPtr_random a0).smul b0⟩
  · exact ⟨noPtr_random a1, (noPtr_random a1).smul b1⟩

theorem noPtr_dec {c : Option Addr} {k : DecCoins} {d : Inst} (h : ctorDec env c k = .ok d) : NoPtrCrs d.crs := by
  unfold ctorDec at h
  obtain ⟨_, -, h⟩ := R.bind_eq_ok.1 h
  obtain ⟨g0, a0, h⟩ := R.bind_eq_ok.1 h
  obtain ⟨g1, a1, h⟩ := R.bind_eq_ok.1 h
  obtain ⟨_, -, h⟩ := R.bind_eq_ok.1 h
  obtain ⟨h0, b0, h⟩ := R.bind_eq_ok.1 h
  obtain ⟨h1, b1, h⟩ := R.bind_eq_ok.1 h
  obtain rfl := Except.ok.inj h
  rintro (_ | _)
  · exact ⟨noPtr_random a0, (noPtr_random a0).smul b0⟩
  · exact ⟨(noPtr_random a0).smul a1, ((noPtr_random a0).smul a1).smul b1⟩

/-- the points of a messy-mode CRS and of its copies are finite if no draw of the constructor is 0 -/
theorem finite_messy {k : MessyCoins} {c : Crs} (h : RepLogs env c (messyLogs k)) (g0 : NZ k.g0) (g1 : NZ k.g1)
    (e0 : NZ k.e0) (e1 : NZ k.e1) : FiniteCrs c := by
  have key : ∀ {x y : ℤ}, NZ x → NZ y → NZ (x * y) := by
    intro x y hx hy
    rw [nz_iff] at *
    push_cast
    exact mul_ne_zero hx hy
  rintro (_ | _)
  · exact ⟨rep_inf_false (h.g .b0) (nz_smul g0), rep_inf_false (h.h .b0) (nz_smul (key e0 g0))⟩
  · exact ⟨rep_inf_false (h.g .b1) (nz_smul g1), rep_inf_false (h.h .b1) (nz_smul (key e1 g1))⟩

theorem noPtr_keyGen {d : Inst} (hn : NoPtrCrs d.crs) {b : Branch} {sk : ℤ} {kp : KeyPair} (h : keyGen env d b sk = .ok kp) :
    NoPtr kp.pk.g ∧ NoPtr kp.pk.h := by
  unfold keyGen at h
  obtain ⟨_, -, h⟩ := R.bind_eq_ok.1 h
  obtain ⟨_, a, h⟩ := R.bind_eq_ok.1 h
  obtain ⟨_, b, h⟩ := R.bind_eq_ok.1 h
  obtain rfl := Except.ok.inj h
  exact ⟨(hn _).1.smul a, (hn _).2.smul b⟩

theorem noPtr_enc {d : Inst} (hc : NoPtrCrs d.crs) {pk : PKey} (hp : NoPtr pk.g ∧ NoPtr pk.h)
    {b : Branch} {m : Pt} (hm : NoPtr m) {s t : ℤ} {c : Ctxt} (h : enc env d pk b m s t = .ok c) :
    NoPtr c.u ∧ NoPtr c.mv := by
  unfold enc at h
  obtain ⟨_, -, h⟩ := R.bind_eq_ok.1 h
  obtain ⟨_, -, h⟩ := R.bind_eq_ok.1 h
  obtain ⟨_, a1, h⟩ := R.bind_eq_ok.1 h
  obtain ⟨_, a2, h⟩ := R.bind_eq_ok.1 h
  obtain ⟨_, a3, h⟩ := R.bind_eq_ok.1 h
  obtain ⟨_, a4, h⟩ := R.bind_eq_ok.1 h
  obtain ⟨_, a5, h⟩ := R.bind_eq_ok.1 h
  obtain ⟨_, a6, h⟩ := R.bind_eq_ok.1 h
  obtain ⟨_, a7, h⟩ := R.bind_eq_ok.1 h
  obtain rfl := Except.ok.inj h
  exact ⟨((hc b).1.smul a4).add ((hc b).2.smul a5) a6, ((hp.1.smul a1).add (hp.2.smul a2) a3).add hm a7⟩

theorem noPtr_eval {c d e : Ctxt} (hc : NoPtr c.u ∧ NoPtr c.mv) (hd : NoPtr d.u ∧ NoPtr d.mv) (h : eval env c d = .ok e) :
    NoPtr e.u ∧ NoPtr e.mv := by
  unfold eval at h
  obtain ⟨_, a1, h⟩ := R.bind_eq_ok.1 h
  obtain ⟨_, a2, h⟩ := R.bind_eq_ok.1 h
  obtain rfl := Except.ok.inj h
  exact ⟨hc.1.add hd.1 a1, hc.2.add hd.2 a2⟩

/-- with assertions on, a decryption that returns met neither an infinite mask nor an infinite second component -/
theorem nz_of_dec (hd : env.ndebug = false) {c : Ctxt} (hn : NoPtr c.u ∧ NoPtr c.mv) {U : ℤ}
    (hU : Rep env c.u ((U : F) • (G : Grp CC))) {B : Grp CC} (hV : Rep env c.mv B) {sk : ℤ} {x : Pt}
    (h : dec env (Fld.ofZ (sk : F)) c = .ok x) : NZ (sk * U) ∧ B ≠ 0 := by
  obtain ⟨f1, f2, f3⟩ := finite_of_dec hd hn.1 hn.2 h
  refine ⟨?_, ?_⟩
  · rw [nz_iff]
    push_cast
    refine mul_ne_zero ?_ (nz_iff.1 (nz_of_inf hU f1))
    intro h0
    rw [h0] at f2
    exact f2 rfl
  · intro h0
    have := (rep_inf hV).2 h0
    rw [f3] at this
    cases this

theorem nz_of_add {x y : ℤ} (h : (x : F) • (G : Grp CC) + (y : F) • (G : Grp CC) ≠ 0) : NZ (x + y) := by
  rw [nz_iff]
  intro h0
  refine h ?_
  rw [← add_smul, ← Int.cast_add, h0, zero_smul]

/-- a block that returns met no infinity -/
theorem nz_of_dmeCase (hd : env.ndebug = false) {d : Inst} (hl : LiveGen env d.curve) {L : Logs} (hc : RepLogs env d.crs L)
    (hn : NoPtrCrs d.crs) (kb db : Branch) (k : CaseCoins) {e : Bool} (h : dmeCase env d kb db k = .ok e) :
    NZ (k.sk * L.u db (k.s db) (k.t db)) ∧ NZ (k.sk * L.u kb (k.s db) (k.t db) + k.msg) := by
  obtain ⟨pg, ph, e1, r1, r2⟩ := keyGen_logs hl.live hc kb k.sk
  obtain ⟨m, e2, rm⟩ := randomPoint_rep (C := CC) hl k.msg
  obtain ⟨c0, e3, u0, v0⟩ := enc_logs (pk := ⟨pg, ph⟩) hl.live hc r1 r2 rm .b0 k.s0 k.t0
  obtain ⟨c1, e4, u1, v1⟩ := enc_logs (pk := ⟨pg, ph⟩) hl.live hc r1 r2 rm .b1 k.s1 k.t1
  have np := noPtr_keyGen hn e1
  have nm := noPtr_random e2
  simp only [dmeCase, e1, e2, e3, e4, R.ok_bind] at h
  obtain ⟨x, e5, -⟩ := R.bind_eq_ok.1 h
  rcases db with _ | _
  · obtain ⟨a, b⟩ := nz_of_dec hd (noPtr_enc hn np nm e3) u0 v0 e5
    exact ⟨a, nz_of_add b⟩
  · obtain ⟨a, b⟩ := nz_of_dec hd (noPtr_enc hn np nm e4) u1 v1 e5
    exact ⟨a, nz_of_add b⟩

/-- a check for the wrong branch that succeeds -/
theorem other_of_dmeCase (hd : env.ndebug = false) {d : Inst} (hl : LiveGen env d.curve) {L : Logs} (hc : RepLogs env d.crs L)
    (hn : NoPtrCrs d.crs) (b : Branch) (k : CaseCoins) (h : notR (dmeCase env d b b.other k) = .ok true) :
    Other L b k.sk k.msg (k.s b.other) (k.t b.other) := by
  unfold notR at h
  obtain ⟨e, h1, h2⟩ := R.bind_eq_ok.1 h
  obtain ⟨h3, h4⟩ := nz_of_dmeCase hd hl hc hn b b.other k h1
  refine ⟨h3, h4, ?_⟩
  rw [dmeCase_eq hl hc b b.other k rfl rfl h3 h4] at h1
  obtain rfl := Except.ok.inj h1
  rw [nz_iff]
  intro h0
  rw [decide_eq_true h0] at h2
  exact absurd (Except.ok.inj h2) (by decide)

theorem four_of_fourCases (hd : env.ndebug = false) {d : Inst} (hl : LiveGen env d.curve) {L : Logs} (hc : RepLogs env d.crs L)
    (hn : NoPtrCrs d.crs) {k : ℕ → CaseCoins} {rs : List (R Bool)} (h : ∀ r ∈ fourCases env d k ++ rs, r = .ok true) : Four L k :=
  ⟨same_of_dmeCase hl hc .b0 (k 0) (h _ (by simp [fourCases])),
    other_of_dmeCase hd hl hc hn .b0 (k 1) (h _ (by simp [fourCases, Branch.other])),
    other_of_dmeCase hd hl hc hn .b1 (k 2) (h _ (by simp [fourCases, Branch.other])),
    same_of_dmeCase hl hc .b1 (k 3) (h _ (by simp [fourCases]))⟩

theorem same_of_evalCase (hd : env.ndebug = false) {d : Inst} (hl : LiveGen env d.curve) {L : Logs} (hc : RepLogs env d.crs L)
    (hn : NoPtrCrs d.crs) {sk ma mb sa ta sb tb : ℤ} {e : Bool} (h : evalCase env d sk ma mb sa ta sb tb = .ok e) :
    Same L .b0 sk (ma + mb) (sa + sb) (ta + tb) := by
  obtain ⟨pg, ph, e1, r1, r2⟩ := keyGen_logs hl.live hc .b0 sk
  obtain ⟨a, e2, ra⟩ := randomPoint_rep (C := CC) hl ma
  obtain ⟨b, e3, rb⟩ := randomPoint_rep (C := CC) hl mb
  obtain ⟨ca, e4, u0, v0⟩ := enc_logs (pk := ⟨pg, ph⟩) hl.live hc r1 r2 ra .b0 sa ta
  obtain ⟨cb, e5, u1, v1⟩ := enc_logs (pk := ⟨pg, ph⟩) hl.live hc r1 r2 rb .b0 sb tb
  obtain ⟨c, e6, u, v⟩ := eval_rep u0 v0 u1 v1
  have u' : Rep env c.u ((L.u .b0 (sa + sb) (ta + tb) : F) • (G : Grp CC)) := by
    convert u using 1; simp only [Logs.u]; push_cast; module
  have v' : Rep env c.mv (((sk * L.u .b0 (sa + sb) (ta + tb) : ℤ) : F) • (G : Grp CC) + ((ma + mb : ℤ) : F) • (G : Grp CC)) := by
    convert v using 1; simp only [Logs.u]; push_cast; module
  have np := noPtr_keyGen hn e1
  have nc := noPtr_eval (noPtr_enc hn np (noPtr_random e2) e4) (noPtr_enc hn np (noPtr_random e3) e5) e6
  simp only [evalCase, e1, e2, e3, e4, e5, e6, R.ok_bind] at h
  obtain ⟨x, e7, -⟩ := R.bind_eq_ok.1 h
  obtain ⟨a1, a2⟩ := nz_of_dec hd nc u' v' e7
  exact ⟨a1, nz_of_add a2⟩

/-- an integer that comes back -/
theorem number_of_decDecode (hd : env.ndebug = false) {d : Inst} (hl : LiveGen env d.curve) {L : Logs} {b : Branch}
    {sk number s t : ℤ} {ct : Ctxt} (hn : NoPtr ct.u ∧ NoPtr ct.mv) (hu : Rep env ct.u ((L.u b s t : F) • (G : Grp CC)))
    {P : Pt} {A : Grp CC} (hv : Rep env ct.mv (((sk * L.u b s t : ℤ) : F) • (G : Grp CC) + A)) (hA : Rep env P A)
    (hP : encode env d number = .ok P) (h0 : 0 ≤ number) (hm : (number + 1) * 1024 ≤ CC.prime)
    (h : decDecode env (Fld.ofZ (sk : F)) ct = .ok number) :
    Opprf.Encodable number ∧ NumberFine env d L b sk number s t := by
  unfold decDecode at h
  obtain ⟨x, e1, e2⟩ := R.bind_eq_ok.1 h
  obtain ⟨a1, a2⟩ := nz_of_dec hd hn hu hv e1
  obtain ⟨y, e3, ry⟩ := dec_logs_eq hu hv sk a1 a2
  obtain rfl : x = y := Except.ok.inj (e1.symm.trans e3)
  rw [add_sub_cancel_left] at ry
  have hx : P.x.value = x.x.value ∧ P.inf = false := by
    obtain ⟨P', e4, hf, -⟩ := C30_encode_terminates env hl.live number
    obtain rfl : P = P' := Except.ok.inj (hP.symm.trans e4)
    have hf := hf.flag
    rcases (samePoint_iff hA ry).2 rfl with ⟨h1, -⟩ | ⟨-, -, h1, -⟩
    · rw [hf] at h1; cases h1
    · exact ⟨by rw [h1], hf⟩
  refine ⟨?_, a1, fun R E hR hE => ?_⟩
  · obtain ⟨P', e4, h4⟩ := C30_round_trip_partial env hl.live h0 hm
    obtain rfl : P = P' := Except.ok.inj (hP.symm.trans e4)
    refine h4.1 ?_
    have := Except.ok.inj e2
    simp only [decode, Fld.getRawValue] at this ⊢
    rw [hx.1]; exact this
  · obtain rfl : P = E := Except.ok.inj (hP.symm.trans hE)
    obtain ⟨R', e5, rR⟩ := randomPoint_rep (C := CC) hl (-(sk * L.u b s t))
    obtain rfl : R = R' := Except.ok.inj (hR.symm.trans e5)
    intro hs
    have := (samePoint_iff rR hA).1 hs
    refine a2 ?_
    rw [← this]; push_cast; module

theorem noPtr_encode {d : Inst} (hl : Live env d.curve) {m : ℤ} {P : Pt} (h : encode env d m = .ok P) : NoPtr P := by
  obtain ⟨P', e, hf, -⟩ := C30_encode_terminates env hl m
  obtain rfl : P = P' := Except.ok.inj (h.symm.trans e)
  exact .of_finite hf.flag

theorem number_of_numberCase (hd : env.ndebug = false) {d : Inst} (hl : LiveGen env d.curve) {L : Logs} (hc : RepLogs env d.crs L)
    (hn : NoPtrCrs d.crs) {sk number s0 t0 s1 t1 : ℤ} (h0 : 0 ≤ number) (hm : (number + 1) * 1024 ≤ CC.prime)
    (h : numberCase env d sk number s0 t0 s1 t1 = .ok true) :
    Opprf.Encodable number ∧ NumberFine env d L .b1 sk number s1 t1 := by
  obtain ⟨pg, ph, e1, r1, r2⟩ := keyGen_logs hl.live hc .b1 sk
  obtain ⟨P, e2, hP, -⟩ := C30_encode_terminates env (d := d) hl.live number
  obtain ⟨A, rA⟩ := valid_iff.1 (.inr hP)
  obtain ⟨c0, e3, -⟩ := enc_logs (pk := ⟨pg, ph⟩) hl.live hc r1 r2 rA .b0 s0 t0
  obtain ⟨c1, e4, u1, v1⟩ := enc_logs (pk := ⟨pg, ph⟩) hl.live hc r1 r2 rA .b1 s1 t1
  simp only [numberCase, e1, encZ, e2, e3, e4, R.ok_bind] at h
  obtain ⟨x, e5, h⟩ := R.bind_eq_ok.1 h
  obtain rfl : number = x := of_decide_eq_true (Except.ok.inj h)
  exact number_of_decDecode hd hl (noPtr_enc hn (noPtr_keyGen hn e1) (noPtr_encode hl.live e2) e4) u1 v1 rA e2 h0 hm e5

/-- C79: in debug builds, for trapdoors other than 0, `test_dme` exits with status 0 **exactly** for the draws that meet
`DmeFine`. -/
theorem C79_dme_debug (env : Env) (hd : env.ndebug = false) {a a' a'' : Option Addr} (h : LiveGen env a) (h' : LiveGen env a')
    (h'' : LiveGen env a'') {k : DmeDraws} (he0 : NZ k.ctor.e0) (he1 : NZ k.ctor.e1)
    (hr : 0 ≤ k.number.2.1 ∧ k.number.2.1 < 2 ^ 128) : testDme env a a' a'' k = .ok 0 ↔ DmeFine env a'' k := by
  refine ⟨fun hk => ?_, C79_dme_ok env h h' h''⟩
  have hneed := C79_dme_needs env h h' h'' hk
  have hg0 : NZ k.ctor.g0 := by
    have := nz_iff.1 hneed.messy.1.1
    rw [nz_iff]
    intro h0
    refine this ?_
    simp only [Logs.u, messyLogs]
    push_cast
    rw [h0]; ring
  have hg1 : NZ k.ctor.g1 := by
    have := nz_iff.1 hneed.find.1
    rw [nz_iff]
    intro h0
    refine this ?_
    push_cast
    rw [h0, mul_zero]
  obtain ⟨m, m1, mc, me, mr⟩ := messy_logs h k.ctor
  obtain ⟨d, d1, dc, dy, dr⟩ := dec_logs h' k.dctor
  have hm : LiveGen env m.curve := by rw [mc]; exact h
  have hd' : LiveGen env d.curve := by rw [dc]; exact h'
  have er : RepLogs env (ctorCrs a'' m.crs).crs (messyLogs k.ctor) := updateCurve_logs mr h''.live
  have he : LiveGen env (ctorCrs a'' m.crs).curve := h''
  have hp : (k.number.2.1 + 1) * 1024 ≤ CC.prime := by
    have : (2 ^ 128 * 1024 : ℤ) ≤ CC.prime := by decide
    have := hr.2
    omega
  have nm := noPtr_messy m1
  have nd := noPtr_dec d1
  have ne := noPtrCrs_of_finite (finite_messy er hg0 hg1 he0 he1)
  simp only [testDme, m1, R.ok_bind] at hk
  obtain ⟨bs1, e1, hk⟩ := R.bind_eq_ok.1 hk
  simp only [d1, R.ok_bind] at hk
  obtain ⟨bs2, e2, hk⟩ := R.bind_eq_ok.1 hk
  obtain ⟨bs3, e3, hk⟩ := R.bind_eq_ok.1 hk
  obtain ⟨bs4, e4, hk⟩ := R.bind_eq_ok.1 hk
  have hv := verdict_zero (Except.ok.inj hk)
  simp only [List.all_append, Bool.and_eq_true] at hv
  obtain ⟨⟨⟨v1, v2⟩, v3⟩, v4⟩ := hv
  have a1 := allChecks_true e1 v1
  have a2 := allChecks_true e2 v2
  have a4 := allChecks_true e4 v4
  rw [← List.append_nil (fourCases env d k.dec)] at a2
  obtain ⟨n1, n2⟩ := number_of_numberCase hd he er ne hr.1 hp
    (a4 (numberCase env (ctorCrs a'' m.crs) k.number.1 k.number.2.1 k.number.2.2.1.1 k.number.2.2.1.2 k.number.2.2.2.1
      k.number.2.2.2.2) (by simp))
  exact ⟨four_of_fourCases hd hm mr nm a1, hneed.find, four_of_fourCases hd hd' dr nd a2, hneed.y, hneed.trap.1, hneed.trap.2,
    four_of_fourCases hd he er ne a4, same_of_evalCase hd he er ne
      (a4 (evalCase env (ctorCrs a'' m.crs) k.eval.1 k.eval.2.1.1 k.eval.2.1.2 k.eval.2.2.1.1 k.eval.2.2.1.2 k.eval.2.2.2.1
        k.eval.2.2.2.2) (by simp)), hr, n1, fun e hc => n2.congr (by rw [hc]; rfl)⟩

/-! ### `test_ot` -/

theorem number_of_otNumberCase (hd : env.ndebug = false) {r : Recv} {s : Sndr} (hr : LiveGen env r.dme.curve)
    (hs : LiveGen env s.dme.curve) {L : Logs} (rr : RepLogs env r.dme.crs L) (rs : RepLogs env s.dme.crs L)
    (nr : NoPtrCrs r.dme.crs) (ns : NoPtrCrs s.dme.crs) {sk : ℤ} {k0 k1 : EncCoins} {r' : Recv} {s' : Sndr}
    (h : otNumberCase env r s sk k0 k1 = .ok (true, r', s')) : NumberFine env s.dme L .b0 sk 19123 k0.s k0.t := by
  obtain ⟨pg, ph, e1, r1, r2⟩ := keyGen_logs hr.live rr .b0 sk
  obtain ⟨P, e2, hP, -⟩ := C30_encode_terminates env (d := s.dme) hs.live 19123
  obtain ⟨A, rA⟩ := valid_iff.1 (.inr hP)
  obtain ⟨Q, e3, hQ, -⟩ := C30_encode_terminates env (d := s.dme) hs.live 73812
  obtain ⟨B, rB⟩ := valid_iff.1 (.inr hQ)
  obtain ⟨c0, e4, u0, v0⟩ := enc_logs (pk := ⟨pg, ph⟩) hs.live rs r1 r2 rA .b0 k0.s k0.t
  obtain ⟨c1, e5, u1, v1⟩ := enc_logs (pk := ⟨pg, ph⟩) hs.live rs r1 r2 rB .b1 k1.s k1.t
  simp only [otNumberCase, selectMsg, e1, encMsgsZ, encZ, e2, e3, e4, e5, decryptMsgDecode, selected, index,
    List.getElem?_cons_zero, R.ok_bind] at h
  obtain ⟨x, e6, h⟩ := R.bind_eq_ok.1 h
  obtain rfl : 19123 = x := of_decide_eq_true (Prod.mk.inj (Except.ok.inj h)).1
  exact (number_of_decDecode hd hs (noPtr_enc ns (noPtr_keyGen nr e1) (noPtr_encode hs.live e2) e4) u0 v0 rA e2 (by decide)
    (by decide) e6).2

theorem noPtr_sendRandom {s : Sndr} (ns : NoPtrCrs s.dme.crs) {pk : PKey} (hp : NoPtr pk.g ∧ NoPtr pk.h) {k : OtDraws} {m : Pt}
    {c0 c1 : Ctxt} (h : sendRandom env s pk k = .ok (m, [c0, c1])) :
    NoPtr c0.u ∧ NoPtr c0.mv := by
  unfold sendRandom at h
  obtain ⟨m0, e1, h⟩ := R.bind_eq_ok.1 h
  obtain ⟨m1, e2, h⟩ := R.bind_eq_ok.1 h
  unfold encMsgs at h
  obtain ⟨⟨c, s'⟩, e3, h⟩ := R.bind_eq_ok.1 h
  obtain ⟨x0, f0, e3⟩ := R.bind_eq_ok.1 e3
  obtain ⟨x1, f1, e3⟩ := R.bind_eq_ok.1 e3
  obtain ⟨rfl, -⟩ := Prod.mk.inj (Except.ok.inj e3)
  obtain ⟨-, h⟩ := Prod.mk.inj (Except.ok.inj h)
  obtain ⟨rfl, -⟩ := List.cons.inj h
  exact noPtr_enc ns hp (noPtr_random e1) f0

theorem same_of_dotCase (hd : env.ndebug = false) {r : Recv} {sa sb sc : Sndr} (hr : LiveGen env r.dme.curve)
    (ha : LiveGen env sa.dme.curve) (hb : LiveGen env sb.dme.curve) (hc : LiveGen env sc.dme.curve) {L : Logs}
    (rr : RepLogs env r.dme.crs L) (ra : RepLogs env sa.dme.crs L) (rb : RepLogs env sb.dme.crs L) (rc : RepLogs env sc.dme.crs L)
    (nr : NoPtrCrs r.dme.crs) (na : NoPtrCrs sa.dme.crs) (nb : NoPtrCrs sb.dme.crs) (nc : NoPtrCrs sc.dme.crs) {sk : ℤ}
    {ka kb kc : OtDraws} {e : Bool} (h : dotCase env r sa sb sc sk ka kb kc = .ok e) :
    Same L .b0 sk (ka.m0 + kb.m0 + kc.m0) (ka.k0.s + kb.k0.s + kc.k0.s) (ka.k0.t + kb.k0.t + kc.k0.t) := by
  obtain ⟨pg, ph, e1, r1, r2⟩ := keyGen_logs hr.live rr .b0 sk
  obtain ⟨ma, a0, a1, va, e2, rma, ua0, va0, ua1, va1⟩ := sendRandom_ok (pk := ⟨pg, ph⟩) ha ra r1 r2 ka
  obtain ⟨mb, b0, b1, vb, e3, rmb, ub0, vb0, ub1, vb1⟩ := sendRandom_ok (pk := ⟨pg, ph⟩) hb rb r1 r2 kb
  obtain ⟨mc, c0, c1, vc, e4, rmc, uc0, vc0, uc1, vc1⟩ := sendRandom_ok (pk := ⟨pg, ph⟩) hc rc r1 r2 kc
  obtain ⟨x0, f1, p1, p2⟩ := eval_rep ua0 va0 ub0 vb0
  obtain ⟨x1, f2, p3, p4⟩ := eval_rep ua1 va1 ub1 vb1
  obtain ⟨y0, f3, p5, p6⟩ := eval_rep p1 p2 uc0 vc0
  obtain ⟨y1, f4, p7, p8⟩ := eval_rep p3 p4 uc1 vc1
  have u' : Rep env y0.u ((L.u .b0 (ka.k0.s + kb.k0.s + kc.k0.s) (ka.k0.t + kb.k0.t + kc.k0.t) : F) • (G : Grp CC)) := by
    convert p5 using 1; simp only [Logs.u]; push_cast; module
  have v' : Rep env y0.mv (((sk * L.u .b0 (ka.k0.s + kb.k0.s + kc.k0.s) (ka.k0.t + kb.k0.t + kc.k0.t) : ℤ) : F) • (G : Grp CC) +
      ((ka.m0 + kb.m0 + kc.m0 : ℤ) : F) • (G : Grp CC)) := by
    convert p6 using 1; simp only [Logs.u]; push_cast; module
  have np := noPtr_keyGen nr e1
  have n1 := noPtr_eval (noPtr_sendRandom na np e2) (noPtr_sendRandom nb np e3) f1
  have n2 := noPtr_eval n1 (noPtr_sendRandom nc np e4) f3
  simp only [dotCase, selectMsg, e1, e2, e3, e4, R.ok_bind, aggregate, aggLoop, index, List.getElem?_cons_succ,
    List.getElem?_cons_zero, f1, f2, f3, f4, decryptMsg, selected] at h
  obtain ⟨x, e7, -⟩ := R.bind_eq_ok.1 h
  obtain ⟨q1, q2⟩ := nz_of_dec hd n2 u' v' e7
  exact ⟨q1, nz_of_add q2⟩

/-- C79: in debug builds, for trapdoors other than 0, `test_ot` exits with status 0 **exactly** for the draws that meet
`OtTestFine`. -/
theorem C79_ot_debug (env : Env) (hd : env.ndebug = false) {a : ℕ → Option Addr} (h : ∀ i < 7, LiveGen env (a i))
    {k : OtTestDraws} (he0 : NZ k.ctor.e0) (he1 : NZ k.ctor.e1) : testOt env a k = .ok 0 ↔ OtTestFine env (a 2) k := by
  refine ⟨fun hk => ?_, C79_ot_ok env h⟩
  obtain ⟨hn1, hn2⟩ := C79_ot_needs env h hk
  have hg0 : NZ k.ctor.g0 := by
    have := nz_iff.1 hn1.1
    rw [nz_iff]
    intro h0
    refine this ?_
    simp only [Logs.u, messyLogs]
    push_cast
    rw [h0]; ring
  have hg1 : NZ k.ctor.g1 := by
    have := nz_iff.1 hn2.1
    rw [nz_iff]
    intro h0
    refine this ?_
    simp only [Logs.u, messyLogs]
    push_cast
    rw [h0]; ring
  obtain ⟨d, d1, -, -, dr⟩ := messy_logs (h 0 (by decide)) k.ctor
  have er : ∀ i < 7, RepLogs env (ctorCrs (a i) d.crs).crs (messyLogs k.ctor) := fun i hi => updateCurve_logs dr (h i hi).live
  have el : ∀ i < 7, LiveGen env (ctorCrs (a i) d.crs).curve := h
  have en : ∀ i < 7, NoPtrCrs (ctorCrs (a i) d.crs).crs := fun i hi =>
    noPtrCrs_of_finite (finite_messy (er i hi) hg0 hg1 he0 he1)
  simp only [testOt, d1, R.ok_bind] at hk
  obtain ⟨⟨b1, r1, s1⟩, e1, hk⟩ := R.bind_eq_ok.1 hk
  obtain ⟨⟨b2, r2, s2⟩, e2, hk⟩ := R.bind_eq_ok.1 hk
  obtain ⟨⟨b3, r3, s3⟩, e3, hk⟩ := R.bind_eq_ok.1 hk
  obtain ⟨b4, e4, hk⟩ := R.bind_eq_ok.1 hk
  have hv := verdict_zero (Except.ok.inj hk)
  simp only [List.all_cons, List.all_nil, id_eq, Bool.and_eq_true] at hv
  obtain ⟨hr1, hs1, -⟩ := otFine_of (r := Recv.ctor (ctorCrs (a 1) d.crs)) (s := Sndr.ctor (ctorCrs (a 2) d.crs))
    (el 1 (by decide)) (el 2 (by decide)) (er 1 (by decide)) (er 2 (by decide)) .b0 e1
  obtain ⟨hr2, hs2, -⟩ := otFine_of (r := r1) (s := s1) (by rw [hr1]; exact el 1 (by decide))
    (by rw [hs1]; exact el 2 (by decide)) (by rw [hr1]; exact er 1 (by decide)) (by rw [hs1]; exact er 2 (by decide)) .b1 e2
  have hr' : r2.dme = ctorCrs (a 1) d.crs := hr2.trans hr1
  have hs' : s2.dme = ctorCrs (a 2) d.crs := hs2.trans hs1
  have e3' := e3
  rw [hv.2.2.1] at e3'
  have hnum := number_of_otNumberCase hd (by rw [hr']; exact el 1 (by decide)) (by rw [hs']; exact el 2 (by decide))
    (by rw [hr']; exact er 1 (by decide)) (by rw [hs']; exact er 2 (by decide)) (by rw [hr']; exact en 1 (by decide))
    (by rw [hs']; exact en 2 (by decide)) e3'
  refine ⟨hn1, hn2, fun e hc => hnum.congr (by rw [hc, hs']; rfl), ?_⟩
  exact same_of_dotCase hd (r := Recv.ctor (ctorCrs (a 3) d.crs)) (sa := Sndr.ctor (ctorCrs (a 4) d.crs))
    (sb := Sndr.ctor (ctorCrs (a 5) d.crs)) (sc := Sndr.ctor (ctorCrs (a 6) d.crs)) (el 3 (by decide)) (el 4 (by decide))
    (el 5 (by decide)) (el 6 (by decide)) (er 3 (by decide)) (er 4 (by decide)) (er 5 (by decide)) (er 6 (by decide))
    (en 3 (by decide)) (en 4 (by decide)) (en 5 (by decide)) (en 6 (by decide)) e4

/-- draws that meet all conditions of `C79_dme_needs` but let `test_dme` fail: the masks of the two branches agree in the second
block -/
def maskedDme : DmeDraws := { sampleDme with messy := fun i => if i = 1 then ⟨1, 13, 0, 0, 17, -2⟩ else sampleDme.messy i }

example : DmeNeeds maskedDme ∧ testDme tenv (some 0) (some 0) (some 0) maskedDme ≠ .ok 0 :=
  ⟨⟨by decide, by decide, by decide, by decide, by decide, by decide⟩, fun h => absurd
    ((C79_dme_debug tenv rfl env0_liveGen env0_liveGen env0_liveGen (by decide) (by decide) (by decide)).1 h).messy.c1 (by decide)⟩

/-- draws for which the three ciphertexts of the last block of `test_ot` cancel -/
example : testOt tenv (fun _ => some 0) { sampleOt with dc := ⟨79, 83, ⟨-62, -70⟩, ⟨101, 103⟩⟩ } ≠ .ok 0 := fun h => absurd
    ((C79_ot_debug tenv rfl (fun _ _ => env0_liveGen) (by decide) (by decide)).1 h).dot (by decide)

end Tests
end Verif
