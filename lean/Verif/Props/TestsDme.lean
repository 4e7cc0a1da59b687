import Verif.Spec.Tests
import Verif.Props.Dme

/-!
# C79: `test_dme` and `test_ot` succeed for all but degenerate draws
-/

namespace Verif
namespace Tests

open EC Dme Ot

variable {env : Env}

theorem nz_iff {z : ℤ} : NZ z ↔ (z : F) ≠ 0 := by
  have ho : CC.order = (CC.fn : ℤ) := by decide
  rw [NZ, ho, Ne, ZMod.intCast_zmod_eq_zero_iff_dvd]

theorem nz_smul {z : ℤ} (h : NZ z) : (z : F) • (G : Grp CC) ≠ 0 := by
  rw [Ne, smul_eq_zero]
  exact fun h' => h'.elim (nz_iff.1 h) G_ne_zero

/-- a CRS with known discrete logarithms -/
def RepLogs (env : Env) (c : Crs) (L : Logs) : Prop :=
  RepCrs env c (fun b => (L.g b : F) • (G : Grp CC)) (fun b => (L.h b : F) • (G : Grp CC))

theorem messy_logs {c : Option Addr} (hl : LiveGen env c) (k : MessyCoins) :
    ∃ d, ctorMessy env c k = .ok d ∧ d.curve = c ∧ d.e0 = Fld.ofZ (k.e0 : F) ∧ RepLogs env d.crs (messyLogs k) := by
  obtain ⟨d, h1, h2, h3, -, h5⟩ := ctorMessy_rep (env := env) hl k
  refine ⟨d, h1, h2, h3, ?_⟩
  rw [RepLogs]
  convert h5 using 2 with b b
  · rcases b with _ | _ <;> rfl
  · rcases b with _ | _ <;> simp only [messyLogs] <;> push_cast <;> rw [mul_smul]

theorem dec_logs {c : Option Addr} (hl : LiveGen env c) (k : DecCoins) :
    ∃ d, ctorDec env c k = .ok d ∧ d.curve = c ∧ d.y = Fld.ofZ (k.y : F) ∧ RepLogs env d.crs (decLogs k) := by
  obtain ⟨d, h1, h2, h3, h5⟩ := ctorDec_rep (env := env) hl k
  refine ⟨d, h1, h2, h3, ?_⟩
  rw [RepLogs]
  convert h5 using 2 with b b
  · rcases b with _ | _ <;> simp only [decLogs] <;> push_cast <;> simp only [mul_smul]
  · rcases b with _ | _ <;> simp only [decLogs] <;> push_cast <;> simp only [mul_smul]

theorem updateCurve_logs {c : Crs} {L : Logs} (h : RepLogs env c L) {a : Option Addr} (ha : Live env a) :
    RepLogs env (c.updateCurve a) L := by
  have key : ∀ {P : Pt} {A : Grp CC}, Rep env P A → Rep env { P with curve := a } A := by
    intro P A hP
    obtain ⟨h1, h2⟩ := rep_setCurve (hP.valid.imp id fun h => ⟨h.1, h.2, h.3, h.4⟩) ha
    exact hP.congr h2 h1
  constructor
  · rintro (_ | _)
    · exact key (h.g .b0)
    · exact key (h.g .b1)
  · rintro (_ | _)
    · exact key (h.h .b0)
    · exact key (h.h .b1)

/-- encryption of a point with known logarithm under an honest key -/
theorem enc_logs {d : Inst} (hl : Live env d.curve) {L : Logs} (hc : RepLogs env d.crs L) {pk : PKey} {kb : Branch} {sk : ℤ}
    (hg : Rep env pk.g ((sk : F) • (L.g kb : F) • (G : Grp CC))) (hh : Rep env pk.h ((sk : F) • (L.h kb : F) • (G : Grp CC)))
    {m : Pt} {M : Grp CC} (hm : Rep env m M) (b : Branch) (s t : ℤ) :
    ∃ c, enc env d pk b m s t = .ok c ∧ Rep env c.u ((L.u b s t : F) • (G : Grp CC)) ∧
      Rep env c.mv (((sk * L.u kb s t : ℤ) : F) • (G : Grp CC) + M) := by
  obtain ⟨c, v, h1, h2, -, -, h3⟩ := enc_rep hl hc hg hh hm b s t
  refine ⟨c, h1, ?_, ?_⟩
  · convert h2 using 1
    simp only [Logs.u]; push_cast; module
  · convert h3 using 1
    simp only [Logs.u]; push_cast; module

theorem dec_logs_eq {c : Ctxt} {U : ℤ} (hU : Rep env c.u ((U : F) • (G : Grp CC))) {B : Grp CC}
    (hV : Rep env c.mv B) (sk : ℤ) (h1 : NZ (sk * U)) (h2 : B ≠ 0) :
    ∃ m, dec env (Fld.ofZ (sk : F)) c = .ok m ∧ Rep env m (B - ((sk * U : ℤ) : F) • (G : Grp CC)) := by
  have e : ((sk * U : ℤ) : F) • (G : Grp CC) = (sk : F) • (U : F) • (G : Grp CC) := by push_cast; rw [mul_smul]
  rw [e]
  refine dec_rep hU hV ?_ h2
  rw [← e]
  exact nz_smul h1

theorem keyGen_logs {d : Inst} (hl : Live env d.curve) {L : Logs} (hc : RepLogs env d.crs L) (b : Branch) (sk : ℤ) :
    ∃ pg ph, keyGen env d b sk = .ok ⟨⟨pg, ph⟩, Fld.ofZ (sk : F)⟩ ∧ Rep env pg ((sk : F) • (L.g b : F) • (G : Grp CC)) ∧
      Rep env ph ((sk : F) • (L.h b : F) • (G : Grp CC)) := keyGen_rep hl hc b sk

/-- `NZ` of a sum of logarithms -/
theorem nz_add {x : ℤ} {y : ℤ} (h : NZ (x + y)) : (x : F) • (G : Grp CC) + (y : F) • (G : Grp CC) ≠ 0 := by
  have := nz_smul h
  rwa [Int.cast_add, add_smul] at this

/-- the draws of the encryption on a branch -/
def CaseCoins.s (k : CaseCoins) : Branch → ℤ
  | .b0 => k.s0
  | .b1 => k.s1

@[inherit_doc CaseCoins.s]
def CaseCoins.t (k : CaseCoins) : Branch → ℤ
  | .b0 => k.t0
  | .b1 => k.t1

/-- what a block computes when nothing is infinite -/
theorem dmeCase_eq {d : Inst} (hl : LiveGen env d.curve) {L : Logs} (hc : RepLogs env d.crs L) (kb db : Branch) (k : CaseCoins)
    {s t : ℤ} (hs : s = k.s db) (ht : t = k.t db)
    (h1 : NZ (k.sk * L.u db s t)) (h2 : NZ (k.sk * L.u kb s t + k.msg)) :
    dmeCase env d kb db k = .ok (decide (((k.sk * L.u kb s t - k.sk * L.u db s t : ℤ) : F) = 0)) := by
  obtain ⟨pg, ph, e1, r1, r2⟩ := keyGen_logs hl.live hc kb k.sk
  obtain ⟨m, e2, rm⟩ := randomPoint_rep (C := CC) hl k.msg
  obtain ⟨c0, e3, u0, v0⟩ := enc_logs (pk := ⟨pg, ph⟩) hl.live hc r1 r2 rm .b0 k.s0 k.t0
  obtain ⟨c1, e4, u1, v1⟩ := enc_logs (pk := ⟨pg, ph⟩) hl.live hc r1 r2 rm .b1 k.s1 k.t1
  have key : ∀ c : Ctxt, Rep env c.u ((L.u db s t : F) • (G : Grp CC)) →
      Rep env c.mv (((k.sk * L.u kb s t : ℤ) : F) • (G : Grp CC) + (k.msg : F) • (G : Grp CC)) →
      ∃ x, dec env (Fld.ofZ (k.sk : F)) c = .ok x ∧
        m.beq env CC x = .ok (decide (((k.sk * L.u kb s t - k.sk * L.u db s t : ℤ) : F) = 0)) := by
    intro c hu hv
    obtain ⟨x, e5, rx⟩ := dec_logs_eq hu hv k.sk h1 (nz_add h2)
    refine ⟨x, e5, ?_⟩
    rw [rep_beq rm rx]
    congr 1
    refine decide_eq_decide.2 ?_
    have e : ((k.sk * L.u kb s t : ℤ) : F) • (G : Grp CC) + (k.msg : F) • (G : Grp CC) -
        ((k.sk * L.u db s t : ℤ) : F) • (G : Grp CC) =
        (k.msg : F) • (G : Grp CC) + ((k.sk * L.u kb s t - k.sk * L.u db s t : ℤ) : F) • (G : Grp CC) := by
      push_cast; module
    rw [e, left_eq_add, smul_eq_zero]
    exact ⟨fun h => h.resolve_right G_ne_zero, Or.inl⟩
  subst hs ht
  rcases db with _ | _
  · obtain ⟨x, e5, e6⟩ := key c0 u0 v0
    simp only [dmeCase, e1, e2, e3, e4, R.ok_bind, e5, e6]
  · obtain ⟨x, e5, e6⟩ := key c1 u1 v1
    simp only [dmeCase, e1, e2, e3, e4, R.ok_bind, e5, e6]

theorem dmeCase_same {d : Inst} (hl : LiveGen env d.curve) {L : Logs} (hc : RepLogs env d.crs L) (b : Branch) (k : CaseCoins)
    {s t : ℤ} (hs : s = k.s b) (ht : t = k.t b)
    (h : Same L b k.sk k.msg s t) : dmeCase env d b b k = .ok true := by
  rw [dmeCase_eq hl hc b b k hs ht h.1 h.2]
  simp

theorem dmeCase_other {d : Inst} (hl : LiveGen env d.curve) {L : Logs} (hc : RepLogs env d.crs L) (b : Branch) (k : CaseCoins)
    {s t : ℤ} (hs : s = k.s b.other) (ht : t = k.t b.other)
    (h : Other L b k.sk k.msg s t) : notR (dmeCase env d b b.other k) = .ok true := by
  rw [dmeCase_eq hl hc b b.other k hs ht h.1 h.2.1, notR, R.ok_bind, decide_eq_false (nz_iff.1 h.2.2)]
  rfl

theorem fourCases_ok {d : Inst} (hl : LiveGen env d.curve) {L : Logs} (hc : RepLogs env d.crs L) {k : ℕ → CaseCoins}
    (h : Four L k) (rs : List (R Bool)) :
    allChecks (fourCases env d k ++ rs) = (do
      let bs ← allChecks rs
      .ok (true :: true :: true :: true :: bs)) := by
  simp only [fourCases, List.cons_append, List.nil_append, allChecks, dmeCase_same hl hc .b0 (k 0) rfl rfl h.c0,
    dmeCase_same hl hc .b1 (k 3) rfl rfl h.c3,
    show notR (dmeCase env d .b0 .b1 (k 1)) = .ok true from dmeCase_other hl hc .b0 (k 1) rfl rfl h.c1,
    show notR (dmeCase env d .b1 .b0 (k 2)) = .ok true from dmeCase_other hl hc .b1 (k 2) rfl rfl h.c2, R.ok_bind]
  rcases allChecks rs with e | bs <;> rfl

/-! ### The remaining blocks of `test_dme` -/

theorem findCase_b0 {d : Inst} (hl : LiveGen env d.curve) {k : MessyCoins} (he : d.e0 = Fld.ofZ (k.e0 : F))
    (hc : RepLogs env d.crs (messyLogs k)) (sk : ℤ) : findCase env d .b0 .b1 sk = .ok true := by
  obtain ⟨pg, ph, e1, r1, r2⟩ := keyGen_logs hl.live hc .b0 sk
  rw [findCase, e1, R.ok_bind, findMessy_rep he (pk := ⟨pg, ph⟩) r1 r2, R.ok_bind, if_pos]
  · rfl
  · simp only [messyLogs]; push_cast; module

theorem findCase_b1 {d : Inst} (hl : LiveGen env d.curve) {k : MessyCoins} (he : d.e0 = Fld.ofZ (k.e0 : F))
    (hc : RepLogs env d.crs (messyLogs k)) {sk : ℤ} (h1 : NZ (sk * k.g1)) (h2 : NZ (k.e1 - k.e0)) :
    findCase env d .b1 .b0 sk = .ok true := by
  obtain ⟨pg, ph, e1, r1, r2⟩ := keyGen_logs hl.live hc .b1 sk
  rw [findCase, e1, R.ok_bind, findMessy_rep he (pk := ⟨pg, ph⟩) r1 r2, R.ok_bind, if_neg]
  · rfl
  · simp only [messyLogs]
    intro h
    have : ((k.e1 - k.e0 : ℤ) : F) • (((sk * k.g1 : ℤ) : F) • (G : Grp CC)) = 0 := by
      rw [← sub_eq_zero] at h
      rw [← h]; push_cast; module
    exact (smul_eq_zero.1 this).elim (nz_iff.1 h2) (nz_smul h1)

theorem trapCase_ok {d : Inst} (hl : LiveGen env d.curve) {k : DecCoins} (hy : d.y = Fld.ofZ (k.y : F))
    (hc : RepLogs env d.crs (decLogs k)) (hy0 : NZ k.y) {q : CaseCoins}
    (h0 : Same (decLogs k) .b0 q.sk q.msg q.s0 q.t0) (h1 : Same (decLogs k) .b0 q.sk q.msg q.s1 q.t1) :
    trapCase env d q = .ok [true, true] := by
  have hy' : (k.y : F) ≠ 0 := nz_iff.1 hy0
  obtain ⟨pg, a1, a2⟩ := smulF_rep (hc.g .b0) (q.sk : F)
  obtain ⟨ph, b1, b2⟩ := smulF_rep (hc.h .b0) (q.sk : F)
  have a1' : d.crs.g0.smul env CC (Fld.ofZ (q.sk : F)) = .ok pg := a1
  have b1' : d.crs.h0.smul env CC (Fld.ofZ (q.sk : F)) = .ok ph := b1
  have e1 : trapKeyGen env d q.sk = .ok (⟨pg, ph⟩, Fld.ofZ (q.sk : F), Fld.ofZ ((q.sk : F) / (k.y : F))) := by
    simp only [trapKeyGen, getRandomScalar_ok hl.live, R.ok_bind, a1', b1', hy, Fld.div_ofZ env _ hy']
  obtain ⟨m, e2, rm⟩ := randomPoint_rep (C := CC) hl q.msg
  obtain ⟨c0, e3, u0, v0⟩ := enc_logs (pk := ⟨pg, ph⟩) hl.live hc a2 b2 rm .b0 q.s0 q.t0
  obtain ⟨c1, e4, u1, v1⟩ := enc_logs (pk := ⟨pg, ph⟩) hl.live hc a2 b2 rm .b1 q.s1 q.t1
  obtain ⟨x, e5, rx⟩ := dec_logs_eq u0 v0 q.sk h0.1 (nz_add h0.2)
  have eu : ((q.sk : F) / (k.y : F)) • (((decLogs k).u .b1 q.s1 q.t1 : ℤ) : F) • (G : Grp CC) =
      ((q.sk * (decLogs k).u .b0 q.s1 q.t1 : ℤ) : F) • (G : Grp CC) := by
    rw [smul_smul]
    congr 1
    simp only [Logs.u, decLogs]
    push_cast
    field_simp
  obtain ⟨y, e6, ry⟩ := dec_rep u1 v1 (k := (q.sk : F) / (k.y : F)) (by rw [eu]; exact nz_smul h1.1) (nz_add h1.2)
  rw [eu] at ry
  have f1 : m.beq env CC x = .ok true := by
    rw [rep_beq rm rx]; congr 1; simp
  have f2 : m.beq env CC y = .ok true := by
    rw [rep_beq rm ry]; congr 1; simp
  simp only [trapCase, e1, e2, e3, e4, e5, e6, f1, f2, R.ok_bind]

theorem evalCase_ok {d : Inst} (hl : LiveGen env d.curve) {L : Logs} (hc : RepLogs env d.crs L) {sk ma mb sa ta sb tb : ℤ}
    (h : Same L .b0 sk (ma + mb) (sa + sb) (ta + tb)) : evalCase env d sk ma mb sa ta sb tb = .ok true := by
  obtain ⟨pg, ph, e1, r1, r2⟩ := keyGen_logs hl.live hc .b0 sk
  obtain ⟨a, e2, ra⟩ := randomPoint_rep (C := CC) hl ma
  obtain ⟨b, e3, rb⟩ := randomPoint_rep (C := CC) hl mb
  obtain ⟨ca, e4, u0, v0⟩ := enc_logs (pk := ⟨pg, ph⟩) hl.live hc r1 r2 ra .b0 sa ta
  obtain ⟨cb, e5, u1, v1⟩ := enc_logs (pk := ⟨pg, ph⟩) hl.live hc r1 r2 rb .b0 sb tb
  obtain ⟨c, e6, u, v⟩ := eval_rep u0 v0 u1 v1
  have u' : Rep env c.u ((L.u .b0 (sa + sb) (ta + tb) : F) • (G : Grp CC)) := by
    convert u using 1; simp only [Logs.u]; push_cast; module
  have v' : Rep env c.mv (((sk * L.u .b0 (sa + sb) (ta + tb) : ℤ) : F) • (G : Grp CC) + ((ma + mb : ℤ) : F) • (G : Grp CC)) := by
    convert v using 1; simp only [Logs.u]; push_cast; module
  obtain ⟨x, e7, rx⟩ := dec_logs_eq u' v' sk h.1 (nz_add h.2)
  obtain ⟨ab, e8, rab⟩ := add_rep ra rb
  have f : ab.beq env CC x = .ok true := by
    rw [rep_beq rab rx]; congr 1; rw [decide_eq_true_eq]; push_cast; module
  simp only [evalCase, e1, e2, e3, e4, e5, e6, e7, e8, f, R.ok_bind]

/-- an encoded integer as a group element, with its abscissa in the window -/
theorem encode_window {d : Inst} (hl : Live env d.curve) {m : ℤ} (h0 : 0 ≤ m) (hm : (m + 1) * 1024 ≤ CC.prime)
    (he : Opprf.Encodable m) :
    ∃ P A, encode env d m = .ok P ∧ Rep env P (A : Grp CC) ∧ P.inf = false ∧ P.x.value / 1024 = m := by
  obtain ⟨P, e1, h1⟩ := C30_round_trip_partial env hl h0 hm
  obtain ⟨P', e2, h2, -⟩ := C30_encode_terminates env hl m
  obtain rfl : P = P' := Except.ok.inj (e1.symm.trans e2)
  obtain ⟨A, hA⟩ := valid_iff.1 (.inr h2)
  exact ⟨P, A, e1, hA, h2.flag, h1.2 he⟩

theorem NumberFine.congr {d e : Inst} {L : Logs} {b : Branch} {sk number s t : ℤ} (h : NumberFine env d L b sk number s t)
    (hc : e.curve = d.curve) : NumberFine env e L b sk number s t := by
  refine ⟨h.1, fun P E hP hE => h.2 P E (by rw [← hc]; exact hP) ?_⟩
  unfold encode at hE ⊢
  rw [← hc]; exact hE

/-- decryption of an encoded integer -/
theorem decDecode_ok {d : Inst} (hl : LiveGen env d.curve) {L : Logs} {b : Branch} {sk number s t : ℤ}
    {ct : Ctxt} (hu : Rep env ct.u ((L.u b s t : F) • (G : Grp CC))) {P : Pt} {A : Grp CC}
    (hv : Rep env ct.mv (((sk * L.u b s t : ℤ) : F) • (G : Grp CC) + A)) (hA : Rep env P A) (hf : P.inf = false)
    (hP : encode env d number = .ok P) (hw : P.x.value / 1024 = number) (h : NumberFine env d L b sk number s t) :
    decDecode env (Fld.ofZ (sk : F)) ct = .ok number := by
  have hne : ((sk * L.u b s t : ℤ) : F) • (G : Grp CC) + A ≠ 0 := by
    intro h0
    obtain ⟨Q, e1, rQ⟩ := randomPoint_rep (C := CC) hl (-(sk * L.u b s t))
    have hAQ : A = ((-(sk * L.u b s t) : ℤ) : F) • (G : Grp CC) := by
      rw [Int.cast_neg, neg_smul]
      exact eq_neg_of_add_eq_zero_right h0
    exact h.2 Q P e1 hP ((samePoint_iff rQ hA).2 hAQ.symm)
  obtain ⟨x, e2, rx⟩ := dec_logs_eq hu hv sk h.1 hne
  rw [decDecode, e2, R.ok_bind, decode]
  congr 1
  rw [add_sub_cancel_left] at rx
  rcases (samePoint_iff hA rx).2 rfl with ⟨h1, -⟩ | ⟨-, -, h1, -⟩
  · rw [hf] at h1; cases h1
  · rw [Fld.getRawValue, ← h1]; exact hw

theorem numberCase_ok {d : Inst} (hl : LiveGen env d.curve) {L : Logs} (hc : RepLogs env d.crs L) {sk number s0 t0 s1 t1 : ℤ}
    (h0 : 0 ≤ number) (hm : (number + 1) * 1024 ≤ CC.prime) (he : Opprf.Encodable number)
    (h : NumberFine env d L .b1 sk number s1 t1) : numberCase env d sk number s0 t0 s1 t1 = .ok true := by
  obtain ⟨pg, ph, e1, r1, r2⟩ := keyGen_logs hl.live hc .b1 sk
  obtain ⟨P, A, e2, rA, hf, hw⟩ := encode_window hl.live h0 hm he
  obtain ⟨c0, e3, -⟩ := enc_logs (pk := ⟨pg, ph⟩) hl.live hc r1 r2 rA .b0 s0 t0
  obtain ⟨c1, e4, u1, v1⟩ := enc_logs (pk := ⟨pg, ph⟩) hl.live hc r1 r2 rA .b1 s1 t1
  have e5 := decDecode_ok hl u1 v1 rA hf e2 hw h
  simp only [numberCase, e1, encZ, e2, e3, e4, e5, R.ok_bind, decide_true]

/-! ### `test_dme` -/

/-- C79: `test_dme` exits with status 0 for all draws other than degenerate ones, in all builds. -/
theorem C79_dme_ok (env : Env) {a a' a'' : Option Addr} (h : LiveGen env a) (h' : LiveGen env a') (h'' : LiveGen env a'')
    {k : DmeDraws} (hk : DmeFine env a'' k) : testDme env a a' a'' k = .ok 0 := by
  obtain ⟨m, m1, mc, me, mr⟩ := messy_logs h k.ctor
  obtain ⟨d, d1, dc, dy, dr⟩ := dec_logs h' k.dctor
  have hm : LiveGen env m.curve := by rw [mc]; exact h
  have hd : LiveGen env d.curve := by rw [dc]; exact h'
  have er : RepLogs env (ctorCrs a'' m.crs).crs (messyLogs k.ctor) := updateCurve_logs mr h''.live
  have he : LiveGen env (ctorCrs a'' m.crs).curve := h''
  have hp : (k.number.2.1 + 1) * 1024 ≤ CC.prime := by
    have : (2 ^ 128 * 1024 : ℤ) ≤ CC.prime := by decide
    have := hk.range.2
    omega
  have f1 := findCase_b0 hm me mr k.find0
  have f2 := findCase_b1 hm me mr hk.find.1 hk.find.2
  have f3 := trapCase_ok hd dy dr hk.y hk.trap0 hk.trap1
  have f4 := evalCase_ok he er hk.eval
  have f5 := numberCase_ok he er (s0 := k.number.2.2.1.1) (t0 := k.number.2.2.1.2) hk.range.1 hp hk.window
    (hk.number _ rfl)
  have g1 := fourCases_ok hm mr hk.messy
  have g2 := fourCases_ok hd dr hk.dec []
  rw [List.append_nil] at g2
  have g3 := fourCases_ok he er hk.copy
  simp only [testDme, m1, d1, R.ok_bind, g1, g2, g3, allChecks, f1, f2, f3, f4, f5]
  rfl

/-! ### `test_ot` -/

theorem otCase_ok {r : Recv} {s : Sndr} (hr : LiveGen env r.dme.curve) (hs : LiveGen env s.dme.curve) {L : Logs}
    (rr : RepLogs env r.dme.crs L) (rs : RepLogs env s.dme.crs L) (b : Branch) {sk : ℤ} {k : OtDraws} (h : OtFine L b sk k) :
    ∃ r' s', otCase env r s b sk k = .ok (true, r', s') ∧ r'.dme = r.dme ∧ s'.dme = s.dme := by
  obtain ⟨pg, ph, e1, r1, r2⟩ := keyGen_logs hr.live rr b sk
  obtain ⟨m0, e2, rm0⟩ := randomPoint_rep (C := CC) hs k.m0
  obtain ⟨m1, e3, rm1⟩ := randomPoint_rep (C := CC) hs k.m1
  obtain ⟨c0, e4, u0, v0⟩ := enc_logs (pk := ⟨pg, ph⟩) hs.live rs r1 r2 rm0 .b0 k.k0.s k.k0.t
  obtain ⟨c1, e5, u1, v1⟩ := enc_logs (pk := ⟨pg, ph⟩) hs.live rs r1 r2 rm1 .b1 k.k1.s k.k1.t
  rcases b with _ | _
  · obtain ⟨x, e6, rx⟩ := dec_logs_eq u0 v0 sk h.1 (nz_add h.2)
    have f : x.beq env CC m0 = .ok true := by rw [rep_beq rx rm0]; congr 1; simp
    refine ⟨{ r with sk := Fld.ofZ (sk : F), b := some .b0 }, { s with c := [c0, c1] }, ?_, rfl, rfl⟩
    simp only [otCase, selectMsg, e1, e2, e3, encMsgs, e4, e5, decryptMsg, selected, index, List.getElem?_cons_zero, e6, f,
        R.ok_bind]
  · obtain ⟨x, e6, rx⟩ := dec_logs_eq u1 v1 sk h.1 (nz_add h.2)
    have f : x.beq env CC m1 = .ok true := by rw [rep_beq rx rm1]; congr 1; simp
    refine ⟨{ r with sk := Fld.ofZ (sk : F), b := some .b1 }, { s with c := [c0, c1] }, ?_, rfl, rfl⟩
    simp only [otCase, selectMsg, e1, e2, e3, encMsgs, e4, e5, decryptMsg, selected, index, List.getElem?_cons_succ,
        List.getElem?_cons_zero, e6, f, R.ok_bind]

/-- there is a point with abscissa in the window of 19123 -/
theorem encodable_19123 : Opprf.Encodable 19123 :=
  ⟨0, by decide, 16713541015331316074750542376285303479383050880030440593395975961586577475591,
    (Int.modEq_iff_dvd.2 (Int.dvd_of_emod_eq_zero (by decide +kernel))).symm⟩

theorem otNumberCase_ok {r : Recv} {s : Sndr} (hr : LiveGen env r.dme.curve) (hs : LiveGen env s.dme.curve) {L : Logs}
    (rr : RepLogs env r.dme.crs L) (rs : RepLogs env s.dme.crs L) {sk : ℤ} {k0 k1 : EncCoins}
    (h : NumberFine env s.dme L .b0 sk 19123 k0.s k0.t) :
    ∃ r' s', otNumberCase env r s sk k0 k1 = .ok (true, r', s') := by
  obtain ⟨pg, ph, e1, r1, r2⟩ := keyGen_logs hr.live rr .b0 sk
  obtain ⟨P, A, e2, rA, hf, hw⟩ := encode_window (m := 19123) hs.live (by decide) (by decide) encodable_19123
  obtain ⟨Q, e3, hQ, -⟩ := C30_encode_terminates env (d := s.dme) hs.live 73812
  obtain ⟨B, rB⟩ := valid_iff.1 (.inr hQ)
  obtain ⟨c0, e4, u0, v0⟩ := enc_logs (pk := ⟨pg, ph⟩) hs.live rs r1 r2 rA .b0 k0.s k0.t
  obtain ⟨c1, e5, u1, v1⟩ := enc_logs (pk := ⟨pg, ph⟩) hs.live rs r1 r2 rB .b1 k1.s k1.t
  have e6 := decDecode_ok hs u0 v0 rA hf e2 hw h
  refine ⟨{ r with sk := Fld.ofZ (sk : F), b := some .b0 }, { s with c := [c0, c1] }, ?_⟩
  simp only [otNumberCase, selectMsg, e1, encMsgsZ, encZ, e2, e3, e4, e5, decryptMsgDecode, selected, index,
    List.getElem?_cons_zero, e6, R.ok_bind, decide_true]

theorem sendRandom_ok {s : Sndr} (hs : LiveGen env s.dme.curve) {L : Logs} (rs : RepLogs env s.dme.crs L) {pk : PKey} {sk : ℤ}
    (r1 : Rep env pk.g ((sk : F) • (L.g .b0 : F) • (G : Grp CC))) (r2 : Rep env pk.h ((sk : F) • (L.h .b0 : F) • (G : Grp CC)))
    (k : OtDraws) :
    ∃ m c0 c1 v, sendRandom env s pk k = .ok (m, [c0, c1]) ∧ Rep env m ((k.m0 : F) • (G : Grp CC)) ∧
      Rep env c0.u ((L.u .b0 k.k0.s k.k0.t : F) • (G : Grp CC)) ∧
      Rep env c0.mv (((sk * L.u .b0 k.k0.s k.k0.t : ℤ) : F) • (G : Grp CC) + (k.m0 : F) • (G : Grp CC)) ∧
      Rep env c1.u ((L.u .b1 k.k1.s k.k1.t : F) • (G : Grp CC)) ∧ Rep env c1.mv (v : Grp CC) := by
  obtain ⟨m0, e2, rm0⟩ := randomPoint_rep (C := CC) hs k.m0
  obtain ⟨m1, e3, rm1⟩ := randomPoint_rep (C := CC) hs k.m1
  obtain ⟨c0, e4, u0, v0⟩ := enc_logs hs.live rs r1 r2 rm0 .b0 k.k0.s k.k0.t
  obtain ⟨c1, e5, u1, v1⟩ := enc_logs hs.live rs r1 r2 rm1 .b1 k.k1.s k.k1.t
  exact ⟨m0, c0, c1, _, by simp only [sendRandom, e2, e3, encMsgs, e4, e5, R.ok_bind], rm0, u0, v0, u1, v1⟩

theorem dotCase_ok {r : Recv} {sa sb sc : Sndr} (hr : LiveGen env r.dme.curve) (ha : LiveGen env sa.dme.curve)
    (hb : LiveGen env sb.dme.curve) (hc : LiveGen env sc.dme.curve) {L : Logs} (rr : RepLogs env r.dme.crs L)
    (ra : RepLogs env sa.dme.crs L) (rb : RepLogs env sb.dme.crs L) (rc : RepLogs env sc.dme.crs L) {sk : ℤ} {ka kb kc : OtDraws}
    (h : Same L .b0 sk (ka.m0 + kb.m0 + kc.m0) (ka.k0.s + kb.k0.s + kc.k0.s) (ka.k0.t + kb.k0.t + kc.k0.t)) :
    dotCase env r sa sb sc sk ka kb kc = .ok true := by
  obtain ⟨pg, ph, e1, r1, r2⟩ := keyGen_logs hr.live rr .b0 sk
  obtain ⟨ma, a0, a1, va, e2, rma, ua0, va0, ua1, va1⟩ := sendRandom_ok (pk := ⟨pg, ph⟩) ha ra r1 r2 ka
  obtain ⟨mb, b0, b1, vb, e3, rmb, ub0, vb0, ub1, vb1⟩ := sendRandom_ok (pk := ⟨pg, ph⟩) hb rb r1 r2 kb
  obtain ⟨mc, c0, c1, vc, e4, rmc, uc0, vc0, uc1, vc1⟩ := sendRandom_ok (pk := ⟨pg, ph⟩) hc rc r1 r2 kc
  obtain ⟨x0, f1, p1, p2⟩ := eval_rep ua0 va0 ub0 vb0
  obtain ⟨x1, f2, p3, p4⟩ := eval_rep ua1 va1 ub1 vb1
  obtain ⟨y0, f3, p5, p6⟩ := eval_rep p1 p2 uc0 vc0
  obtain ⟨y1, f4, p7, p8⟩ := eval_rep p3 p4 uc1 vc1
  have u' : Rep env y0.u ((L.u .b0 (ka.k0.s + kb.k0.s + kc.k0.s) (ka.k0.t + kb.k0.t + kc.k0.t) : F) • (G : Grp CC)) := by
    convert p5 using 1; simp only [Logs.u]; push_cast; module
  have v' : Rep env y0.mv (((sk * L.u .b0 (ka.k0.s + kb.k0.s + kc.k0.s) (ka.k0.t + kb.k0.t + kc.k0.t) : ℤ) : F) • (G : Grp CC) +
      ((ka.m0 + kb.m0 + kc.m0 : ℤ) : F) • (G : Grp CC)) := by
    convert p6 using 1; simp only [Logs.u]; push_cast; module
  obtain ⟨x, e7, rx⟩ := dec_logs_eq u' v' sk h.1 (nz_add h.2)
  obtain ⟨s1, g1, q1⟩ := add_rep rma rmb
  obtain ⟨s2, g2, q2⟩ := add_rep q1 rmc
  have f : x.beq env CC s2 = .ok true := by
    rw [rep_beq rx q2]; congr 1; rw [decide_eq_true_eq]; push_cast; module
  simp only [dotCase, selectMsg, e1, e2, e3, e4, R.ok_bind, aggregate, aggLoop, index, List.getElem?_cons_succ,
    List.getElem?_cons_zero, f1, f2, f3, f4, decryptMsg, selected, e7, g1, g2, f]

/-- C79: `test_ot` exits with status 0 for all draws other than degenerate ones, in all builds. -/
theorem C79_ot_ok (env : Env) {a : ℕ → Option Addr} (h : ∀ i < 7, LiveGen env (a i)) {k : OtTestDraws}
    (hk : OtTestFine env (a 2) k) : testOt env a k = .ok 0 := by
  obtain ⟨d, d1, -, -, dr⟩ := messy_logs (h 0 (by decide)) k.ctor
  have er : ∀ i < 7, RepLogs env (ctorCrs (a i) d.crs).crs (messyLogs k.ctor) := fun i hi => updateCurve_logs dr (h i hi).live
  have el : ∀ i < 7, LiveGen env (ctorCrs (a i) d.crs).curve := h
  obtain ⟨r1, s1, e1, hr1, hs1⟩ := otCase_ok (r := Recv.ctor (ctorCrs (a 1) d.crs)) (s := Sndr.ctor (ctorCrs (a 2) d.crs))
    (el 1 (by decide)) (el 2 (by decide)) (er 1 (by decide)) (er 2 (by decide)) .b0 hk.first
  obtain ⟨r2, s2, e2, hr2, hs2⟩ := otCase_ok (r := r1) (s := s1) (by rw [hr1]; exact el 1 (by decide))
    (by rw [hs1]; exact el 2 (by decide)) (by rw [hr1]; exact er 1 (by decide)) (by rw [hs1]; exact er 2 (by decide)) .b1 hk.second
  obtain ⟨r3, s3, e3⟩ := otNumberCase_ok (r := r2) (s := s2) (k1 := k.num1) (by rw [hr2, hr1]; exact el 1 (by decide))
    (by rw [hs2, hs1]; exact el 2 (by decide)) (by rw [hr2, hr1]; exact er 1 (by decide))
    (by rw [hs2, hs1]; exact er 2 (by decide)) (hk.number _ (by rw [hs2, hs1]; rfl))
  have e4 := dotCase_ok (r := Recv.ctor (ctorCrs (a 3) d.crs)) (sa := Sndr.ctor (ctorCrs (a 4) d.crs))
    (sb := Sndr.ctor (ctorCrs (a 5) d.crs)) (sc := Sndr.ctor (ctorCrs (a 6) d.crs)) (el 3 (by decide)) (el 4 (by decide))
    (el 5 (by decide)) (el 6 (by decide)) (er 3 (by decide)) (er 4 (by decide)) (er 5 (by decide)) (er 6 (by decide)) hk.dot
  simp only [testOt, d1, R.ok_bind, e1, e2, e3, e4]
  rfl

/-! ### Conditions that cannot be dropped -/

theorem _root_.Verif.Fld.beq_comm' (a b : Fld) : a.beq b = b.beq a := by
  simp only [Fld.beq, eq_comm (a := a.value), eq_comm (a := a.p)]

theorem smul_G_zero {x : F} (h : x = 0) : x • (G : Grp CC) = 0 := smul_eq_zero.2 (.inl h)

theorem curveEq_symm {C : CurveClass} {c d : Option Addr} {e : Bool} (h : Pt.curveEq env C c d = .ok e) :
    Pt.curveEq env C d c = .ok e := by
  unfold Pt.curveEq at h ⊢
  rcases hc : deref env c with x | x
  · rw [hc] at h; cases h
  · rcases hd : deref env d with y | y
    · rw [hc, hd] at h; cases h
    · rw [hc, hd] at h; exact h

theorem beq_true_symm {C : CurveClass} {P Q : Pt} (h : P.beq env C Q = .ok true) : Q.beq env C P = .ok true := by
  unfold Pt.beq at h ⊢
  rw [Bool.and_comm]
  split_ifs at h with h1 h2 h3
  · rw [if_pos h1]
  · rw [Fld.beq_comm'] at h2 h3
    rw [if_neg h1, if_pos h2, if_pos h3]
    obtain ⟨e, e1, e2⟩ := R.bind_eq_ok.1 h
    have e3 := Except.ok.inj e2
    have e5 : Q.inf = P.inf := by
      rw [Bool.and_eq_true, decide_eq_true_eq] at e3
      exact e3.2.symm
    rw [curveEq_symm e1, R.ok_bind, e5, ← e3, e5]
  · exact absurd (Except.ok.inj h) (by decide)
  · exact absurd (Except.ok.inj h) (by decide)

theorem allChecks_true {rs : List (R Bool)} {bs : List Bool} (h : allChecks rs = .ok bs) (hb : bs.all id = true) :
    ∀ r ∈ rs, r = .ok true := by
  induction rs generalizing bs with
  | nil => simp
  | cons r rs ih =>
    rw [allChecks] at h
    obtain ⟨b, e1, h⟩ := R.bind_eq_ok.1 h
    obtain ⟨bs', e2, h⟩ := R.bind_eq_ok.1 h
    obtain rfl := Except.ok.inj h
    simp only [List.all_cons, id_eq, Bool.and_eq_true] at hb
    rintro x (_ | ⟨_, hx⟩)
    · rw [e1, hb.1]
    · exact ih e2 hb.2 x hx

theorem verdict_zero {bs : List Bool} (h : verdict bs = 0) : bs.all id = true := by
  unfold verdict at h
  split_ifs at h with h'
  exact h'

theorem nz_of_inf {P : Pt} {z : ℤ} (h : Rep env P ((z : F) • (G : Grp CC))) (hf : P.inf = false) : NZ z := by
  rw [nz_iff]
  intro h0
  have := (rep_inf h).2 (smul_G_zero h0)
  rw [hf] at this
  cases this

/-- a ciphertext that decrypts was made with good draws -/
theorem same_of_eqP {L : Logs} {b : Branch} {sk msg s t : ℤ} {c : Ctxt} {v m : Pt}
    (hu : Rep env c.u ((L.u b s t : F) • (G : Grp CC))) (hv : Rep env v (((sk * L.u b s t : ℤ) : F) • (G : Grp CC)))
    (hm : Rep env m ((msg : F) • (G : Grp CC))) (hadd : v.add env CC m = .ok c.mv)
    (h : EqP env CC (dec env (Fld.ofZ (sk : F)) c) (.ok m)) : Same L b sk msg s t := by
  have hv' : Rep env v ((sk : F) • ((L.u b s t : F) • (G : Grp CC))) := by
    convert hv using 1; push_cast; rw [mul_smul]
  obtain ⟨h1, h2, h3⟩ := (dec_iff hu hv' hm hadd).1 h
  refine ⟨?_, ?_⟩
  · rw [nz_iff]; push_cast
    exact mul_ne_zero h2 (nz_iff.1 (nz_of_inf hu h1))
  · obtain ⟨mv, e1, r⟩ := add_rep hv hm
    obtain rfl := Except.ok.inj (hadd.symm.trans e1)
    refine nz_of_inf (env := env) (P := c.mv) ?_ h3
    convert r using 1; push_cast; module

theorem same_of_dmeCase {d : Inst} (hl : LiveGen env d.curve) {L : Logs} (hc : RepLogs env d.crs L) (b : Branch) (k : CaseCoins)
    (h : dmeCase env d b b k = .ok true) : Same L b k.sk k.msg (k.s b) (k.t b) := by
  obtain ⟨pg, ph, e1, r1, r2⟩ := keyGen_logs hl.live hc b k.sk
  obtain ⟨m, e2, rm⟩ := randomPoint_rep (C := CC) hl k.msg
  obtain ⟨c0, v0, e3, u0, w0, a0, -⟩ := enc_rep (pk := ⟨pg, ph⟩) hl.live hc r1 r2 rm .b0 k.s0 k.t0
  obtain ⟨c1, v1, e4, u1, w1, a1, -⟩ := enc_rep (pk := ⟨pg, ph⟩) hl.live hc r1 r2 rm .b1 k.s1 k.t1
  simp only [dmeCase, e1, e2, e3, e4, R.ok_bind] at h
  obtain ⟨x, e5, e6⟩ := R.bind_eq_ok.1 h
  rcases b with _ | _
  · refine same_of_eqP (c := c0) ?_ (v := v0) ?_ rm a0 ⟨x, m, e5, rfl, beq_true_symm e6⟩
    · convert u0 using 1; simp only [Logs.u, CaseCoins.s, CaseCoins.t]; push_cast; module
    · convert w0 using 1; simp only [Logs.u, CaseCoins.s, CaseCoins.t]; push_cast; module
  · refine same_of_eqP (c := c1) ?_ (v := v1) ?_ rm a1 ⟨x, m, e5, rfl, beq_true_symm e6⟩
    · convert u1 using 1; simp only [Logs.u, CaseCoins.s, CaseCoins.t]; push_cast; module
    · convert w1 using 1; simp only [Logs.u, CaseCoins.s, CaseCoins.t]; push_cast; module

theorem nz_of_findCase {d : Inst} (hl : LiveGen env d.curve) {k : MessyCoins} (he : d.e0 = Fld.ofZ (k.e0 : F))
    (hc : RepLogs env d.crs (messyLogs k)) {sk : ℤ} (h : findCase env d .b1 .b0 sk = .ok true) :
    NZ (sk * k.g1) ∧ NZ (k.e1 - k.e0) := by
  obtain ⟨pg, ph, e1, r1, r2⟩ := keyGen_logs hl.live hc .b1 sk
  rw [findCase, e1, R.ok_bind, findMessy_rep he (pk := ⟨pg, ph⟩) r1 r2, R.ok_bind] at h
  split_ifs at h with h'
  · exact absurd (Except.ok.inj h) (by decide)
  · simp only [nz_iff]
    push_cast
    rw [← mul_ne_zero_iff]
    intro h0
    refine h' ?_
    simp only [messyLogs]
    rw [← sub_eq_zero]
    have : (0 : Grp CC) = ((sk : F) * (k.g1 : F) * ((k.e1 : F) - (k.e0 : F))) • (G : Grp CC) := (smul_G_zero h0).symm
    rw [this]; push_cast; module

theorem nz_of_trapCase {d : Inst} (hl : LiveGen env d.curve) {k : DecCoins} (hy : d.y = Fld.ofZ (k.y : F))
    (hc : RepLogs env d.crs (decLogs k)) {q : CaseCoins} {bs : List Bool} (h : trapCase env d q = .ok bs)
    (hb : bs.all id = true) :
    NZ k.y ∧ Same (decLogs k) .b0 q.sk q.msg q.s0 q.t0 ∧ Same (decLogs k) .b0 q.sk q.msg q.s1 q.t1 := by
  obtain ⟨pg, a1, a2⟩ := smulF_rep (hc.g .b0) (q.sk : F)
  obtain ⟨ph, b1, b2⟩ := smulF_rep (hc.h .b0) (q.sk : F)
  have a1' : d.crs.g0.smul env CC (Fld.ofZ (q.sk : F)) = .ok pg := a1
  have b1' : d.crs.h0.smul env CC (Fld.ofZ (q.sk : F)) = .ok ph := b1
  rcases eq_or_ne (k.y : F) 0 with hy' | hy'
  · rw [hy'] at hy
    simp only [trapCase, trapKeyGen, getRandomScalar_ok hl.live, R.ok_bind, a1', b1', hy, Fld.div_ofZ_zero, R.error_bind] at h
    cases h
  have e1 : trapKeyGen env d q.sk = .ok (⟨pg, ph⟩, Fld.ofZ (q.sk : F), Fld.ofZ ((q.sk : F) / (k.y : F))) := by
    simp only [trapKeyGen, getRandomScalar_ok hl.live, R.ok_bind, a1', b1', hy, Fld.div_ofZ env _ hy']
  obtain ⟨m, e2, rm⟩ := randomPoint_rep (C := CC) hl q.msg
  obtain ⟨c0, v0, e3, u0, w0, d0, -⟩ := enc_rep (pk := ⟨pg, ph⟩) hl.live hc a2 b2 rm .b0 q.s0 q.t0
  obtain ⟨c1, v1, e4, u1, w1, d1, r1⟩ := enc_rep (pk := ⟨pg, ph⟩) hl.live hc a2 b2 rm .b1 q.s1 q.t1
  simp only [trapCase, e1, e2, e3, e4, R.ok_bind] at h
  obtain ⟨x, e5, h⟩ := R.bind_eq_ok.1 h
  obtain ⟨t0, e6, h⟩ := R.bind_eq_ok.1 h
  obtain ⟨y, e7, h⟩ := R.bind_eq_ok.1 h
  obtain ⟨t1, e8, h⟩ := R.bind_eq_ok.1 h
  obtain rfl := Except.ok.inj h
  simp only [List.all_cons, List.all_nil, id_eq, Bool.and_eq_true, Bool.and_true] at hb
  obtain ⟨rfl, rfl⟩ := hb
  refine ⟨nz_iff.2 hy', ?_, ?_⟩
  · refine same_of_eqP (c := c0) ?_ (v := v0) ?_ rm d0 ⟨x, m, e5, rfl, beq_true_symm e6⟩
    · convert u0 using 1; simp only [Logs.u]; push_cast; module
    · convert w0 using 1; simp only [Logs.u]; push_cast; module
  · have eu : ((q.sk : F) / (k.y : F)) • ((q.s1 : F) • ((decLogs k).g .b1 : F) • (G : Grp CC) +
        (q.t1 : F) • ((decLogs k).h .b1 : F) • (G : Grp CC)) =
        (q.s1 : F) • (q.sk : F) • ((decLogs k).g .b0 : F) • (G : Grp CC) +
          (q.t1 : F) • (q.sk : F) • ((decLogs k).h .b0 : F) • (G : Grp CC) := by
      simp only [smul_smul, ← add_smul]
      congr 1
      simp only [decLogs]
      push_cast
      field_simp
    rw [← eu] at w1
    obtain ⟨h1, h2, h3⟩ := (dec_iff u1 w1 rm d1).1 ⟨y, m, e7, rfl, beq_true_symm e8⟩
    have hw : ¬ ((q.sk : F) / (k.y : F)) • ((q.s1 : F) • ((decLogs k).g .b1 : F) • (G : Grp CC) +
        (q.t1 : F) • ((decLogs k).h .b1 : F) • (G : Grp CC)) = 0 := by
      intro h0
      rcases smul_eq_zero.1 h0 with h0 | h0
      · exact h2 h0
      · have := (rep_inf u1).2 h0
        rw [h1] at this; cases this
    refine ⟨nz_iff.2 fun h0 => hw ?_, nz_iff.2 fun h0 => ?_⟩
    · rw [eu]
      have : (0 : Grp CC) = ((q.sk * (decLogs k).u .b0 q.s1 q.t1 : ℤ) : F) • (G : Grp CC) := (smul_G_zero h0).symm
      rw [this]; simp only [Logs.u]; push_cast; module
    · have : (0 : Grp CC) = ((q.sk * (decLogs k).u .b0 q.s1 q.t1 + q.msg : ℤ) : F) • (G : Grp CC) := (smul_G_zero h0).symm
      have h4 := (rep_inf r1).2 (by rw [this]; simp only [Logs.u]; push_cast; module)
      rw [h3] at h4; cases h4

theorem same_of_fourCases {d : Inst} (hl : LiveGen env d.curve) {L : Logs} (hc : RepLogs env d.crs L) {k : ℕ → CaseCoins}
    {rs : List (R Bool)} (h : ∀ r ∈ fourCases env d k ++ rs, r = .ok true) :
    Same L .b0 (k 0).sk (k 0).msg (k 0).s0 (k 0).t0 ∧ Same L .b1 (k 3).sk (k 3).msg (k 3).s1 (k 3).t1 :=
  ⟨same_of_dmeCase hl hc .b0 (k 0) (h _ (by simp [fourCases])), same_of_dmeCase hl hc .b1 (k 3) (h _ (by simp [fourCases]))⟩

/-- C79: draws with which `test_dme` exits with status 0 meet the conditions about correct decryption, `FindMessy` and the
trapdoor. -/
theorem C79_dme_needs (env : Env) {a a' a'' : Option Addr} (h : LiveGen env a) (h' : LiveGen env a') (h'' : LiveGen env a'')
    {k : DmeDraws} (hk : testDme env a a' a'' k = .ok 0) : DmeNeeds k := by
  obtain ⟨m, m1, mc, me, mr⟩ := messy_logs h k.ctor
  obtain ⟨d, d1, dc, dy, dr⟩ := dec_logs h' k.dctor
  have hm : LiveGen env m.curve := by rw [mc]; exact h
  have hd : LiveGen env d.curve := by rw [dc]; exact h'
  have er : RepLogs env (ctorCrs a'' m.crs).crs (messyLogs k.ctor) := updateCurve_logs mr h''.live
  have he : LiveGen env (ctorCrs a'' m.crs).curve := h''
  simp only [testDme, m1, R.ok_bind] at hk
  obtain ⟨bs1, e1, hk⟩ := R.bind_eq_ok.1 hk
  simp only [d1, R.ok_bind] at hk
  obtain ⟨bs2, e2, hk⟩ := R.bind_eq_ok.1 hk
  obtain ⟨bs3, e3, hk⟩ := R.bind_eq_ok.1 hk
  obtain ⟨bs4, e4, hk⟩ := R.bind_eq_ok.1 hk
  have hv := verdict_zero (Except.ok.inj hk)
  simp only [List.all_append, Bool.and_eq_true] at hv
  obtain ⟨⟨⟨v1, v2⟩, v3⟩, v4⟩ := hv
  have a1 := allChecks_true e1 v1
  have a2 := allChecks_true e2 v2
  have a4 := allChecks_true e4 v4
  obtain ⟨t1, t2, t3⟩ := nz_of_trapCase hd dy dr e3 v3
  rw [← List.append_nil (fourCases env d k.dec)] at a2
  exact ⟨same_of_fourCases hm mr a1, nz_of_findCase hm me mr (a1 _ (by simp)), same_of_fourCases hd dr a2, t1, ⟨t2, t3⟩,
    same_of_fourCases he er a4⟩

theorem otFine_of {r : Recv} {s : Sndr} (hr : LiveGen env r.dme.curve) (hs : LiveGen env s.dme.curve) {L : Logs}
    (rr : RepLogs env r.dme.crs L) (rs : RepLogs env s.dme.crs L) (b : Branch) {sk : ℤ} {k : OtDraws} {r' : Recv} {s' : Sndr}
    {e : Bool} (h : otCase env r s b sk k = .ok (e, r', s')) : r'.dme = r.dme ∧ s'.dme = s.dme ∧ (e = true → OtFine L b sk k) := by
  obtain ⟨pg, ph, e1, r1, r2⟩ := keyGen_logs hr.live rr b sk
  obtain ⟨m0, e2, rm0⟩ := randomPoint_rep (C := CC) hs k.m0
  obtain ⟨m1, e3, rm1⟩ := randomPoint_rep (C := CC) hs k.m1
  obtain ⟨c0, v0, e4, u0, w0, a0, -⟩ := enc_rep (pk := ⟨pg, ph⟩) hs.live rs r1 r2 rm0 .b0 k.k0.s k.k0.t
  obtain ⟨c1, v1, e5, u1, w1, a1, -⟩ := enc_rep (pk := ⟨pg, ph⟩) hs.live rs r1 r2 rm1 .b1 k.k1.s k.k1.t
  simp only [otCase, selectMsg, e1, e2, e3, encMsgs, e4, e5, decryptMsg, selected, R.ok_bind] at h
  rcases b with _ | _
  · simp only [index, List.getElem?_cons_zero, R.ok_bind] at h
    obtain ⟨x, e6, h⟩ := R.bind_eq_ok.1 h
    obtain ⟨e', e7, h⟩ := R.bind_eq_ok.1 h
    obtain ⟨rfl, rfl, rfl⟩ : e' = e ∧ _ = r' ∧ _ = s' := by simpa using Except.ok.inj h
    refine ⟨rfl, rfl, ?_⟩
    rintro rfl
    refine same_of_eqP (c := c0) ?_ (v := v0) ?_ rm0 a0 ⟨x, m0, e6, rfl, e7⟩
    · convert u0 using 1; simp only [Logs.u]; push_cast; module
    · convert w0 using 1; simp only [Logs.u]; push_cast; module
  · simp only [index, List.getElem?_cons_succ, List.getElem?_cons_zero, R.ok_bind] at h
    obtain ⟨x, e6, h⟩ := R.bind_eq_ok.1 h
    obtain ⟨e', e7, h⟩ := R.bind_eq_ok.1 h
    obtain ⟨rfl, rfl, rfl⟩ : e' = e ∧ _ = r' ∧ _ = s' := by simpa using Except.ok.inj h
    refine ⟨rfl, rfl, ?_⟩
    rintro rfl
    refine same_of_eqP (c := c1) ?_ (v := v1) ?_ rm1 a1 ⟨x, m1, e6, rfl, e7⟩
    · convert u1 using 1; simp only [Logs.u]; push_cast; module
    · convert w1 using 1; simp only [Logs.u]; push_cast; module

/-- C79: draws with which `test_ot` exits with status 0 meet the conditions about its first two transfers. -/
theorem C79_ot_needs (env : Env) {a : ℕ → Option Addr} (h : ∀ i < 7, LiveGen env (a i)) {k : OtTestDraws}
    (hk : testOt env a k = .ok 0) :
    OtFine (messyLogs k.ctor) .b0 k.sk0 k.first ∧ OtFine (messyLogs k.ctor) .b1 k.sk1 k.second := by
  obtain ⟨d, d1, -, -, dr⟩ := messy_logs (h 0 (by decide)) k.ctor
  have er : ∀ i < 7, RepLogs env (ctorCrs (a i) d.crs).crs (messyLogs k.ctor) := fun i hi => updateCurve_logs dr (h i hi).live
  have el : ∀ i < 7, LiveGen env (ctorCrs (a i) d.crs).curve := h
  simp only [testOt, d1, R.ok_bind] at hk
  obtain ⟨⟨b1, r1, s1⟩, e1, hk⟩ := R.bind_eq_ok.1 hk
  obtain ⟨⟨b2, r2, s2⟩, e2, hk⟩ := R.bind_eq_ok.1 hk
  obtain ⟨⟨b3, r3, s3⟩, e3, hk⟩ := R.bind_eq_ok.1 hk
  obtain ⟨b4, e4, hk⟩ := R.bind_eq_ok.1 hk
  have hv := verdict_zero (Except.ok.inj hk)
  simp only [List.all_cons, List.all_nil, id_eq, Bool.and_eq_true] at hv
  obtain ⟨hr1, hs1, g1⟩ := otFine_of (r := Recv.ctor (ctorCrs (a 1) d.crs)) (s := Sndr.ctor (ctorCrs (a 2) d.crs))
    (el 1 (by decide)) (el 2 (by decide)) (er 1 (by decide)) (er 2 (by decide)) .b0 e1
  obtain ⟨hr2, hs2, g2⟩ := otFine_of (r := r1) (s := s1) (by rw [hr1]; exact el 1 (by decide))
    (by rw [hs1]; exact el 2 (by decide)) (by rw [hr1]; exact er 1 (by decide)) (by rw [hs1]; exact er 2 (by decide)) .b1 e2
  exact ⟨g1 hv.1, g2 hv.2.1⟩

/-- a draw of zero for the first secret key makes `test_dme` fail -/
example : testDme tenv (some 0) (some 0) (some 0) ⟨⟨3, 5, 7, 11⟩, fun _ => ⟨0, 2, 3, 4, 5, 6⟩, 1, 1, ⟨1, 2, 3⟩,
    fun _ => ⟨1, 2, 3, 4, 5, 6⟩, ⟨1, 2, 3, 4, 5, 6⟩, fun _ => ⟨1, 2, 3, 4, 5, 6⟩, (1, (1, 2), (3, 4), (5, 6)),
    (1, 2, (3, 4), (5, 6))⟩ ≠ .ok 0 := fun h =>
  absurd (C79_dme_needs tenv env0_liveGen env0_liveGen env0_liveGen h).messy.1 (by decide)

/-! ### Draws that meet the conditions -/

theorem numberFine_of {c : Option Addr} (hl : Live env c) {L : Logs} {b : Branch} {sk s t : ℤ} (h : NZ (sk * L.u b s t))
    (h' : (match Curve.getRandomPoint env CC c (-(sk * L.u b s t)) with
      | .ok P => decide (P.x.value / 1024 ≠ 19123)
      | .error _ => true) = true) (d : Inst) (hd : d.curve = c) : NumberFine env d L b sk 19123 s t := by
  subst hd
  refine ⟨h, fun P E hP hE hs => ?_⟩
  rw [hP] at h'
  obtain ⟨E', A, e2, rA, hf, hw⟩ := encode_window (m := 19123) hl (by decide) (by decide) encodable_19123
  obtain rfl : E = E' := Except.ok.inj (hE.symm.trans e2)
  rcases hs with ⟨-, h1⟩ | ⟨-, -, h1, -⟩
  · rw [hf] at h1; cases h1
  · have h2 : P.x.value / 1024 ≠ 19123 := of_decide_eq_true h'
    rw [h1] at h2
    exact h2 hw

/-- small draws for `test_dme` -/
def sampleDme : DmeDraws where
  ctor := ⟨3, 5, 7, 11⟩
  messy := fun i => ⟨2 + i, 13, 17, 19, 23, 29⟩
  find0 := 31
  find1 := 37
  dctor := ⟨3, 41, 43⟩
  dec := fun i => ⟨2 + i, 47, 53, 59, 61, 67⟩
  trap := ⟨71, 73, 79, 83, 89, 97⟩
  copy := fun i => ⟨5 + i, 47, 53, 59, 61, 67⟩
  eval := (101, (103, 107), (109, 113), (127, 131))
  number := (137, 19123, (139, 149), (151, 157))

example : testDme tenv (some 0) (some 0) (some 0) sampleDme = .ok 0 := by
  refine C79_dme_ok tenv env0_liveGen env0_liveGen env0_liveGen ⟨?_, by decide, ?_, by decide, ?_, ?_, ?_, ?_, by decide,
    encodable_19123, ?_⟩
  · exact ⟨by decide, by decide, by decide, by decide⟩
  · exact ⟨by decide, by decide, by decide, by decide⟩
  · decide
  · decide
  · exact ⟨by decide, by decide, by decide, by decide⟩
  · decide
  · exact numberFine_of env0_liveGen.live (by decide) (by decide +kernel)

/-- small draws for `test_ot` -/
def sampleOt : OtTestDraws where
  ctor := ⟨3, 5, 7, 11⟩
  sk0 := 2
  first := ⟨13, 17, ⟨19, 23⟩, ⟨29, 31⟩⟩
  sk1 := 3
  second := ⟨37, 41, ⟨43, 47⟩, ⟨53, 59⟩⟩
  sk2 := 5
  num0 := ⟨61, 67⟩
  num1 := ⟨71, 73⟩
  sk3 := 7
  da := ⟨13, 17, ⟨19, 23⟩, ⟨29, 31⟩⟩
  db := ⟨37, 41, ⟨43, 47⟩, ⟨53, 59⟩⟩
  dc := ⟨79, 83, ⟨89, 97⟩, ⟨101, 103⟩⟩

example : testOt tenv (fun _ => some 0) sampleOt = .ok 0 :=
  C79_ot_ok tenv (fun _ _ => env0_liveGen)
    ⟨by unfold OtFine; decide, by unfold OtFine; decide, numberFine_of env0_liveGen.live (by decide) (by decide +kernel), by decide⟩

end Tests
end Verif
