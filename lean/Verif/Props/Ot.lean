import Verif.Lemmas.Ot
import Verif.Model.Lifetime
import Verif.Props.Dme

/-!
# C33 – C36: oblivious transfer
-/

namespace Verif
namespace Ot

open EC Dme

/-! ## Histories of calls -/

/-- a receiver and a sender -/
structure Sys where
  recv : Recv
  sndr : Sndr

/-- calls on the two objects -/
inductive Call where
  | select (b : Branch) (coin : ℤ)
  | encrypt (pk : PKey) (m0 m1 : Pt) (k0 k1 : EncCoins)
  | encryptZ (pk : PKey) (m0 m1 : ℤ) (k0 k1 : EncCoins)
  | decrypt (c : List Ctxt)
  | decryptZ (c : List Ctxt)

/-- the state after a call -/
def call (env : Env) (s : Sys) : Call → R Sys
  | .select b coin => do
    let (_, r) ← selectMsg env s.recv b coin
    .ok { s with recv := r }
  | .encrypt pk m0 m1 k0 k1 => do
    let (_, t) ← encMsgs env s.sndr pk m0 m1 k0 k1
    .ok { s with sndr := t }
  | .encryptZ pk m0 m1 k0 k1 => do
    let (_, t) ← encMsgsZ env s.sndr pk m0 m1 k0 k1
    .ok { s with sndr := t }
  | .decrypt c => do
    let _ ← decryptMsg env s.recv c
    .ok s
  | .decryptZ c => do
    let _ ← decryptMsgDecode env s.recv c
    .ok s

/-- the state after a sequence of calls -/
def calls (env : Env) (s : Sys) : List Call → R Sys
  | [] => .ok s
  | c :: cs => do
    let s' ← call env s c
    calls env s' cs

/-- the call does not change the receiver's selection -/
def NoSelect : Call → Prop
  | .select _ _ => False
  | _ => True

theorem call_inv {env : Env} {s s' : Sys} {c : Call} (h : call env s c = .ok s') :
    s'.recv.dme = s.recv.dme ∧ s'.sndr.dme = s.sndr.dme ∧ (NoSelect c → s'.recv = s.recv) := by
  cases c with
  | select b coin =>
    simp only [call, selectMsg] at h
    rcases hk : keyGen env s.recv.dme b coin with e | kp
    · rw [hk] at h; simp at h
    · rw [hk] at h; simp only [R.ok_bind] at h
      obtain rfl := Except.ok.inj h
      exact ⟨rfl, rfl, fun h => h.elim⟩
  | encrypt pk m0 m1 k0 k1 =>
    simp only [call, encMsgs] at h
    rcases h0 : enc env s.sndr.dme pk .b0 m0 k0.s k0.t with e | c0
    · rw [h0] at h; simp at h
    rcases h1 : enc env s.sndr.dme pk .b1 m1 k1.s k1.t with e | c1
    · rw [h0, h1] at h; simp at h
    rw [h0, h1] at h; simp only [R.ok_bind] at h
    obtain rfl := Except.ok.inj h
    exact ⟨rfl, rfl, fun _ => rfl⟩
  | encryptZ pk m0 m1 k0 k1 =>
    simp only [call, encMsgsZ] at h
    rcases h0 : encZ env s.sndr.dme pk .b0 m0 k0.s k0.t with e | c0
    · rw [h0] at h; simp at h
    rcases h1 : encZ env s.sndr.dme pk .b1 m1 k1.s k1.t with e | c1
    · rw [h0, h1] at h; simp at h
    rw [h0, h1] at h; simp only [R.ok_bind] at h
    obtain rfl := Except.ok.inj h
    exact ⟨rfl, rfl, fun _ => rfl⟩
  | decrypt c =>
    simp only [call] at h
    rcases h0 : decryptMsg env s.recv c with e | x
    · rw [h0] at h; simp at h
    rw [h0, R.ok_bind] at h
    obtain rfl := Except.ok.inj h
    exact ⟨rfl, rfl, fun _ => rfl⟩
  | decryptZ c =>
    simp only [call] at h
    rcases h0 : decryptMsgDecode env s.recv c with e | x
    · rw [h0] at h; simp at h
    rw [h0, R.ok_bind] at h
    obtain rfl := Except.ok.inj h
    exact ⟨rfl, rfl, fun _ => rfl⟩

theorem calls_inv {env : Env} {cs : List Call} {s s' : Sys} (h : calls env s cs = .ok s') :
    s'.recv.dme = s.recv.dme ∧ s'.sndr.dme = s.sndr.dme ∧ ((∀ c ∈ cs, NoSelect c) → s'.recv = s.recv) := by
  induction cs generalizing s with
  | nil =>
    obtain rfl := Except.ok.inj h
    exact ⟨rfl, rfl, fun _ => rfl⟩
  | cons c cs ih =>
    rw [calls] at h
    rcases h1 : call env s c with e | s1
    · rw [h1] at h; simp at h
    rw [h1, R.ok_bind] at h
    obtain ⟨a1, a2, a3⟩ := call_inv h1
    obtain ⟨b1, b2, b3⟩ := ih h
    refine ⟨b1.trans a1, b2.trans a2, fun hn => ?_⟩
    rw [b3 fun c hc => hn c (by simp [hc]), a3 (hn c (by simp))]

/-- the message for the selected branch -/
def pick {α : Type} (b : Branch) (x0 x1 : α) : α := match b with | .b0 => x0 | .b1 => x1

/-- a ciphertext pair whose component on branch `b` avoids infinity, and a non-zero key -/
def NonDegenerate (r : Recv) (c : List Ctxt) (b : Branch) : Prop :=
  ∃ ct, index c b = .ok ct ∧ ct.u.inf = false ∧ r.sk.value ≠ 0 ∧ ct.mv.inf = false

/-- two objects sharing a CRS, with their curve objects alive -/
structure Ready (env : Env) (s : Sys) : Prop where
  recv : Live env s.recv.dme.curve
  sndr : Live env s.sndr.dme.curve
  crs : ValidCrs env s.recv.dme.crs
  crs' : ValidCrs env s.sndr.dme.crs
  same : SameCrs s.recv.dme.crs s.sndr.dme.crs

/-! ## C33 -/

/-- C33 (part): after any history of calls, a selection of `b`, any further calls other than selections, an encryption of
`(m0, m1)` under the returned key, and again any calls other than selections, decryption of that ciphertext yields
`m_b` **exactly** for non-degenerate coins.
Missing: degenerate coins (C24). -/
theorem C33_delivers_partial (env : Env) {s : Sys} (hs : Ready env s) (h1 h2 h3 : List Call)
    (hn2 : ∀ c ∈ h2, NoSelect c) (hn3 : ∀ c ∈ h3, NoSelect c) (b : Branch) (coin : ℤ) {m0 m1 : Pt}
    (hm0 : Valid env CC m0) (hm1 : Valid env CC m1) (k0 k1 : EncCoins) {s1 : Sys}
    (r1 : calls env s h1 = .ok s1) :
    Ends (selectMsg env s1.recv b coin) fun sel => ∀ s3, calls env { s1 with recv := sel.2 } h2 = .ok s3 →
      Ends (encMsgs env s3.sndr sel.1 m0 m1 k0 k1) fun e => ∀ s5, calls env { s3 with sndr := e.2 } h3 = .ok s5 →
        (EqP env CC (decryptMsg env s5.recv e.1) (.ok (pick b m0 m1)) ↔ NonDegenerate s5.recv e.1 b) := by
  obtain ⟨d1, d2, -⟩ := calls_inv r1
  obtain ⟨g, h, r⟩ := hs.crs.rep
  have hl1 : Live env s1.recv.dme.curve := by rw [d1]; exact hs.recv
  obtain ⟨pg, ph, e1, rg, rh⟩ := keyGen_rep (d := s1.recv.dme) hl1 (by rw [d1]; exact r) b coin
  refine ⟨(⟨pg, ph⟩, { s1.recv with sk := Fld.ofZ (coin : F), b := some b }),
    by simp only [selectMsg, e1, R.ok_bind], ?_⟩
  intro s3 r3
  obtain ⟨d3, d4, d5⟩ := calls_inv r3
  have d5 := d5 hn2
  obtain ⟨M0, hM0⟩ := valid_iff.1 hm0
  obtain ⟨M1, hM1⟩ := valid_iff.1 hm1
  have hd : s3.sndr.dme = s.sndr.dme := d4.trans d2
  have hl3 : Live env s3.sndr.dme.curve := by rw [hd]; exact hs.sndr
  have rs : RepCrs env s3.sndr.dme.crs g h := by rw [hd]; exact r.congr hs.same hs.crs'
  obtain ⟨c0, v0, f0, ru0, rv0, ha0, -⟩ := enc_rep (pk := ⟨pg, ph⟩) hl3 rs rg rh hM0 .b0 k0.s k0.t
  obtain ⟨c1, v1, f1, ru1, rv1, ha1, -⟩ := enc_rep (pk := ⟨pg, ph⟩) hl3 rs rg rh hM1 .b1 k1.s k1.t
  refine ⟨([c0, c1], { s3.sndr with c := [c0, c1] }), by simp only [encMsgs, f0, f1, R.ok_bind], ?_⟩
  intro s5 r5
  obtain ⟨-, -, d6⟩ := calls_inv r5
  have d6 := (d6 hn3).trans d5
  simp only at d6
  rw [d6]
  simp only [decryptMsg, selected, NonDegenerate, index_pair, R.ok_bind, Except.ok.injEq, exists_eq_left',
    ofZ_ne_zero_iff]
  rcases b with _ | _
  · refine dec_iff ru0 ?_ hM0 ha0
    convert rv0 using 1; module
  · refine dec_iff ru1 ?_ hM1 ha1
    convert rv1 using 1; module

/-- C33 (part), integer messages: `decryptMsgDecode` yields the integer `m_b`, provided it is in range and its encoding
window contains an abscissa (C30), for non-degenerate coins. -/
theorem C33_delivers_int_partial (env : Env) {s : Sys} (hs : Ready env s) (h1 h2 h3 : List Call)
    (hn2 : ∀ c ∈ h2, NoSelect c) (hn3 : ∀ c ∈ h3, NoSelect c) (b : Branch) (coin : ℤ) (m0 m1 : ℤ)
    (hpos : 0 ≤ pick b m0 m1) (hrange : (pick b m0 m1 + 1) * 1024 ≤ CC.prime)
    (hwin : ∃ i : ℕ, i < 1024 ∧ IsAbscissa (pick b m0 m1 * 1024 + i)) (k0 k1 : EncCoins) {s1 : Sys}
    (r1 : calls env s h1 = .ok s1) :
    Ends (selectMsg env s1.recv b coin) fun sel => ∀ s3, calls env { s1 with recv := sel.2 } h2 = .ok s3 →
      Ends (encMsgsZ env s3.sndr sel.1 m0 m1 k0 k1) fun e => ∀ s5, calls env { s3 with sndr := e.2 } h3 = .ok s5 →
        NonDegenerate s5.recv e.1 b → decryptMsgDecode env s5.recv e.1 = .ok (pick b m0 m1) := by
  obtain ⟨d1, d2, -⟩ := calls_inv r1
  obtain ⟨g, h, r⟩ := hs.crs.rep
  have hl1 : Live env s1.recv.dme.curve := by rw [d1]; exact hs.recv
  obtain ⟨pg, ph, e1, rg, rh⟩ := keyGen_rep (d := s1.recv.dme) hl1 (by rw [d1]; exact r) b coin
  refine ⟨(⟨pg, ph⟩, { s1.recv with sk := Fld.ofZ (coin : F), b := some b }),
    by simp only [selectMsg, e1, R.ok_bind], ?_⟩
  intro s3 r3
  obtain ⟨d3, d4, d5⟩ := calls_inv r3
  have d5 := d5 hn2
  have hd : s3.sndr.dme = s.sndr.dme := d4.trans d2
  have hl3 : Live env s3.sndr.dme.curve := by rw [hd]; exact hs.sndr
  obtain ⟨-, P0, -, -, -, p0, -, -, q0⟩ := encode_ok hl3 m0
  obtain ⟨-, P1, -, -, -, p1, -, -, q1⟩ := encode_ok hl3 m1
  obtain ⟨M0, hM0⟩ := valid_iff.1 (.inr q0)
  obtain ⟨M1, hM1⟩ := valid_iff.1 (.inr q1)
  have rs : RepCrs env s3.sndr.dme.crs g h := by rw [hd]; exact r.congr hs.same hs.crs'
  obtain ⟨c0, v0, f0, ru0, rv0, ha0, rm0⟩ := enc_rep (pk := ⟨pg, ph⟩) hl3 rs rg rh hM0 .b0 k0.s k0.t
  obtain ⟨c1, v1, f1, ru1, rv1, ha1, rm1⟩ := enc_rep (pk := ⟨pg, ph⟩) hl3 rs rg rh hM1 .b1 k1.s k1.t
  refine ⟨([c0, c1], { s3.sndr with c := [c0, c1] }),
    by simp only [encMsgsZ, encZ, p0, p1, f0, f1, R.ok_bind], ?_⟩
  intro s5 r5
  obtain ⟨-, -, d6⟩ := calls_inv r5
  have d6 := (d6 hn3).trans d5
  simp only at d6
  rw [d6]
  simp only [decryptMsgDecode, selected, NonDegenerate, index_pair, R.ok_bind, Except.ok.injEq, exists_eq_left',
    ofZ_ne_zero_iff]
  -- the decrypted point has the abscissa of the encoded one
  have key : ∀ {P m : Pt} {M : Grp CC}, Rep env P M → Rep env m M → decode m = decode P := by
    intro P m M hP hm
    have := (samePoint_iff hm hP).2 rfl
    rcases this with ⟨h1, h2⟩ | ⟨-, -, h, -⟩
    · rw [rep_inf hm] at h1
      subst h1
      rw [decode, decode, (rep_zero_iff.1 hm).2.1, (rep_zero_iff.1 hP).2.1]
    · rw [decode, decode, h]
  have hrt := C30_round_trip_partial env hl3 hpos hrange
  obtain ⟨P, hP, hdec⟩ := hrt
  have hdec : decode P = pick b m0 m1 := hdec.2 hwin
  rintro ⟨a1, a2, a3⟩
  rcases b with _ | _
  · simp only [pick] at hP hdec ⊢
    rw [p0] at hP
    obtain rfl := Except.ok.inj hP
    have hk : (coin : F) • ((k0.s : F) • g .b0 + (k0.t : F) • h .b0) ≠ 0 := by
      intro h0
      rcases smul_eq_zero.1 h0 with h' | h'
      · exact a2 h'
      · simp only [(rep_inf ru0).2 h'] at a1; simp at a1
    obtain ⟨m, hm, rm⟩ := dec_rep ru0 rm0 hk (fun h0 => by rw [(rep_inf rm0).2 h0] at a3; simp at a3)
    rw [decDecode, hm, R.ok_bind, key hM0 (m := m), hdec]
    convert rm using 1; module
  · simp only [pick] at hP hdec ⊢
    rw [p1] at hP
    obtain rfl := Except.ok.inj hP
    have hk : (coin : F) • ((k1.s : F) • g .b1 + (k1.t : F) • h .b1) ≠ 0 := by
      intro h0
      rcases smul_eq_zero.1 h0 with h' | h'
      · exact a2 h'
      · simp only [(rep_inf ru1).2 h'] at a1; simp at a1
    obtain ⟨m, hm, rm⟩ := dec_rep ru1 rm1 hk (fun h0 => by rw [(rep_inf rm1).2 h0] at a3; simp at a3)
    rw [decDecode, hm, R.ok_bind, key hM1 (m := m), hdec]
    convert rm using 1; module

/-- C33: decrypting before any selection is undefined. -/
theorem C33_before_selection (env : Env) (d : Inst) (c : List Ctxt) : Faults (decryptMsg env (Recv.ctor d) c) :=
  ⟨.uninitRead, rfl⟩

/-- C33 is false for zero coins (a possible draw): the message is not delivered. -/
theorem C33_zero_coins_counterexample (env : Env) {s : Sys} (hs : Ready env s) (b : Branch) (coin : ℤ) {m0 m1 : Pt}
    (hm0 : Valid env CC m0) (hm1 : Valid env CC m1) :
    Ends (selectMsg env s.recv b coin) fun sel => Ends (encMsgs env s.sndr sel.1 m0 m1 ⟨0, 0⟩ ⟨0, 0⟩) fun e =>
      ¬ EqP env CC (decryptMsg env sel.2 e.1) (.ok (pick b m0 m1)) := by
  obtain ⟨g, h, r⟩ := hs.crs.rep
  obtain ⟨pg, ph, e1, rg, rh⟩ := keyGen_rep (d := s.recv.dme) hs.recv r b coin
  refine ⟨(⟨pg, ph⟩, { s.recv with sk := Fld.ofZ (coin : F), b := some b }),
    by simp only [selectMsg, e1, R.ok_bind], ?_⟩
  obtain ⟨M0, hM0⟩ := valid_iff.1 hm0
  obtain ⟨M1, hM1⟩ := valid_iff.1 hm1
  have rs : RepCrs env s.sndr.dme.crs g h := r.congr hs.same hs.crs'
  obtain ⟨c0, v0, f0, ru0, rv0, ha0, rm0⟩ := enc_rep (pk := ⟨pg, ph⟩) hs.sndr rs rg rh hM0 .b0 0 0
  obtain ⟨c1, v1, f1, ru1, rv1, ha1, rm1⟩ := enc_rep (pk := ⟨pg, ph⟩) hs.sndr rs rg rh hM1 .b1 0 0
  refine ⟨([c0, c1], { s.sndr with c := [c0, c1] }), by simp only [encMsgs, f0, f1, R.ok_bind], ?_⟩
  simp only [Int.cast_zero, zero_smulG, add_zero, zero_add] at ru0 rm0 ru1 rm1
  simp only [decryptMsg, selected, index_pair, R.ok_bind]
  rcases b with _ | _
  · exact dec_zero_ne ru0 rm0 (by simp) hM0
  · exact dec_zero_ne ru1 rm1 (by simp) hM1

/-- an environment with two curve objects, one for each party -/
abbrev tenv2 : Env := env2

/-- a run with two parties on different curve objects -/
example : (do
    let d ← ctorMessy tenv2 (some 0) ⟨5, 7, 2, 3⟩
    let s := Sndr.ctor (ctorCrs (some 1) d.crs)
    let (_, r) ← selectMsg tenv2 (Recv.ctor d) .b0 8
    let (pk, r) ← selectMsg tenv2 r .b1 11
    let m0 ← Curve.getRandomPoint tenv2 CC (some 1) 13
    let m1 ← Curve.getRandomPoint tenv2 CC (some 1) 14
    let (_, s) ← encMsgs tenv2 s pk m1 m1 ⟨3, 4⟩ ⟨5, 6⟩
    let (c, _) ← encMsgs tenv2 s pk m0 m1 ⟨17, 18⟩ ⟨19, 20⟩
    let m' ← decryptMsg tenv2 r c
    m'.beq tenv2 CC m1) = .ok true := by decide +kernel

example : (do
    let d ← ctorMessy tenv2 (some 0) ⟨5, 7, 2, 3⟩
    let s := Sndr.ctor (ctorCrs (some 1) d.crs)
    let (pk, r) ← selectMsg tenv2 (Recv.ctor d) .b1 11
    let (c, _) ← encMsgsZ tenv2 s pk 100 200 ⟨17, 18⟩ ⟨19, 20⟩
    decryptMsgDecode tenv2 r c) = .ok 200 := by decide +kernel

/-! ## C34 -/

/-- C34 (part): with a messy-mode receiver (different trapdoors, finite bases) and a sender sharing its CRS, after a
selection with a non-zero key the component of `encMsgs` on the branch that was **not** selected takes every value,
for every message on that branch, for exactly one choice of the sender's coins for it (whatever is sent on the
selected branch).
Missing: degenerate draws of the CRS and of the key, where it fails (C26). -/
theorem C34_other_hidden_partial (env : Env) {c : Option Addr} (hl : LiveGen env c) {k : MessyCoins}
    (h0 : Coin k.e0) (h1 : Coin k.e1) (h2 : Coin k.g0) (h3 : Coin k.g1) (he : k.e0 ≠ k.e1) (hg0 : k.g0 ≠ 0)
    (hg1 : k.g1 ≠ 0) (b : Branch) {sk : ℤ} (hsk : Coin sk) (hsk0 : sk ≠ 0) :
    Ends (ctorMessy env c k) fun d => Ends (selectMsg env (Recv.ctor d) b sk) fun sel =>
      ∀ s : Sndr, LiveGen env s.dme.curve → ValidCrs env s.dme.crs → SameCrs d.crs s.dme.crs →
      ∀ mb : Pt, Valid env CC mb → ∀ kb : EncCoins,
      ∀ u mv mo : Pt, Valid env CC u → Valid env CC mv → Valid env CC mo →
        ∃! st : ℤ × ℤ, (Coin st.1 ∧ Coin st.2) ∧ ∃ res ct,
          encMsgs env s sel.1 (pick b mb mo) (pick b mo mb) (pick b kb ⟨st.1, st.2⟩) (pick b ⟨st.1, st.2⟩ kb) =
            .ok res ∧ index res.1 b.other = .ok ct ∧ SamePoint ct.u u ∧ SamePoint ct.mv mv := by
  obtain ⟨d, e1, hd, -, -, r⟩ := ctorMessy_rep (env := env) hl k
  refine ⟨d, e1, ?_⟩
  have hlive : Live env d.curve := by rw [hd]; exact hl.live
  obtain ⟨pg, ph, f1, rg, rh⟩ := keyGen_rep hlive r b sk
  refine ⟨(⟨pg, ph⟩, { Recv.ctor d with sk := Fld.ofZ (sk : F), b := some b }),
    by simp only [selectMsg, Recv.ctor, f1, R.ok_bind], ?_⟩
  intro s hsl hsc hsame mb hmb kb u mv mo hu hmv hmo
  have rs := r.congr hsame hsc
  have hsk' : (sk : F) ≠ 0 := by rw [Ne, coin_zero_iff hsk]; exact hsk0
  have hne0 : (k.g0 : F) • (G : Grp CC) ≠ 0 := by
    rw [Ne, smul_eq_zero, coin_zero_iff h2]; exact fun h => h.elim hg0 G_ne_zero
  have hne1 : (k.g1 : F) • (G : Grp CC) ≠ 0 := by
    rw [Ne, smul_eq_zero, coin_zero_iff h3]; exact fun h => h.elim hg1 G_ne_zero
  have hhide : Hides env s.dme ⟨pg, ph⟩ b.other := by
    rw [hides_iff_det (pk := ⟨pg, ph⟩) hsl rs rg rh, dhPair_iff (pk := ⟨pg, ph⟩) rs rg rh]
    rcases b with _ | _
    · refine ⟨?_, fun h => hne1 h.1⟩
      rintro ⟨x, hx1, hx2⟩
      simp only [Branch.other] at hx1 hx2
      have e2 : (sk : F) • (k.e0 : F) • ((k.g0 : F) • (G : Grp CC)) =
          (k.e1 : F) • ((sk : F) • (k.g0 : F) • (G : Grp CC)) := by
        rw [hx2, hx1]; module
      have e3 : ((sk : F) * k.e0) • ((k.g0 : F) • (G : Grp CC)) = ((sk : F) * k.e1) • ((k.g0 : F) • (G : Grp CC)) := by
        rw [mul_smul, e2]; module
      rw [smul_inj hne0] at e3
      exact he (coin_cast_inj h0 h1 (mul_left_cancel₀ hsk' e3))
    · refine ⟨?_, fun h => hne0 h.1⟩
      rintro ⟨x, hx1, hx2⟩
      simp only [Branch.other] at hx1 hx2
      have e2 : (sk : F) • (k.e1 : F) • ((k.g1 : F) • (G : Grp CC)) =
          (k.e0 : F) • ((sk : F) • (k.g1 : F) • (G : Grp CC)) := by
        rw [hx2, hx1]; module
      have e3 : ((sk : F) * k.e1) • ((k.g1 : F) • (G : Grp CC)) = ((sk : F) * k.e0) • ((k.g1 : F) • (G : Grp CC)) := by
        rw [mul_smul, e2]; module
      rw [smul_inj hne1] at e3
      exact he (coin_cast_inj h0 h1 (mul_left_cancel₀ hsk' e3.symm))
  obtain ⟨MB, hMB⟩ := valid_iff.1 hmb
  obtain ⟨MO, hMO⟩ := valid_iff.1 hmo
  have hiff : ∀ st : ℤ × ℤ, (∃ res ct,
      encMsgs env s ⟨pg, ph⟩ (pick b mb mo) (pick b mo mb) (pick b kb ⟨st.1, st.2⟩) (pick b ⟨st.1, st.2⟩ kb) =
        .ok res ∧ index res.1 b.other = .ok ct ∧ SamePoint ct.u u ∧ SamePoint ct.mv mv) ↔
      ∃ ct, enc env s.dme ⟨pg, ph⟩ b.other mo st.1 st.2 = .ok ct ∧ SamePoint ct.u u ∧ SamePoint ct.mv mv := by
    intro st
    obtain ⟨cb, -, fb, -⟩ := enc_rep (pk := ⟨pg, ph⟩) hsl.live rs rg rh hMB b kb.s kb.t
    obtain ⟨co, -, fo, -⟩ := enc_rep (pk := ⟨pg, ph⟩) hsl.live rs rg rh hMO b.other st.1 st.2
    rcases b with _ | _
    · simp only [pick, Branch.other] at fo ⊢
      simp only [encMsgs, fb, fo, R.ok_bind, Except.ok.injEq, exists_eq_left']
      constructor
      · rintro ⟨_, ct, rfl, h, h'⟩
        rw [index_pair] at h
        obtain rfl := Except.ok.inj h
        exact h'
      · intro h
        exact ⟨_, co, rfl, index_pair _ _ _, h⟩
    · simp only [pick, Branch.other] at fo ⊢
      simp only [encMsgs, fb, fo, R.ok_bind, Except.ok.injEq, exists_eq_left']
      constructor
      · rintro ⟨_, ct, rfl, h, h'⟩
        rw [index_pair] at h
        obtain rfl := Except.ok.inj h
        exact h'
      · intro h
        exact ⟨_, co, rfl, index_pair _ _ _, h⟩
  simp only [hiff]
  exact hhide u mv mo hu hmv hmo

/-- the draws of the example above satisfy the hypotheses -/
example : Coin 5 ∧ Coin 7 ∧ Coin 2 ∧ Coin 3 ∧ Coin 11 := by unfold Coin; decide

/-! ## C35 -/

/-- one sender's answer -/
structure Answer where
  sndr : Sndr
  m0 : Pt
  m1 : Pt
  k0 : EncCoins
  k1 : EncCoins

/-- the vectors all senders return for one public key -/
def answers (env : Env) (pk : PKey) : List Answer → R (List (List Ctxt))
  | [] => .ok []
  | a :: as => do
    let (c, _) ← encMsgs env a.sndr pk a.m0 a.m1 a.k0 a.k1
    let cs ← answers env pk as
    .ok (c :: cs)

/-- `m + m' + …` -/
def sumPts (env : Env) (m : Pt) : List Pt → R Pt
  | [] => .ok m
  | m' :: ms => do
    let x ← m.add env CC m'
    sumPts env x ms

/-- a sender with a live curve object, the CRS `crs` and valid messages -/
structure ReadyAns (env : Env) (crs : Crs) (a : Answer) : Prop where
  live : Live env a.sndr.dme.curve
  vcrs : ValidCrs env a.sndr.dme.crs
  same : SameCrs crs a.sndr.dme.crs
  m0 : Valid env CC a.m0
  m1 : Valid env CC a.m1

/-- a pair of valid ciphertexts whose component on branch `b` has the form `(U, k U + M)` -/
def GoodPair (env : Env) (b : Branch) (k : F) (x : List Ctxt) (U M : Grp CC) : Prop :=
  ∃ c0 c1, x = [c0, c1] ∧ ValidCtxt env c0 ∧ ValidCtxt env c1 ∧
    Rep env (pick b c0 c1).u U ∧ Rep env (pick b c0 c1).mv (k • U + M)

theorem goodPair_enc {env : Env} {crs : Crs} {g h : Branch → Grp CC} (r : RepCrs env crs g h) {b : Branch} {k : F}
    {pk : PKey} (rg : Rep env pk.g (k • g b)) (rh : Rep env pk.h (k • h b)) {a : Answer}
    (ha : ReadyAns env crs a) :
    ∃ x s U M, encMsgs env a.sndr pk a.m0 a.m1 a.k0 a.k1 = .ok (x, s) ∧ Rep env (pick b a.m0 a.m1) M ∧
      GoodPair env b k x U M := by
  obtain ⟨M0, hM0⟩ := valid_iff.1 ha.m0
  obtain ⟨M1, hM1⟩ := valid_iff.1 ha.m1
  have rs := r.congr ha.same ha.vcrs
  obtain ⟨c0, v0, f0, ru0, -, -, rm0⟩ := enc_rep ha.live rs rg rh hM0 .b0 a.k0.s a.k0.t
  obtain ⟨c1, v1, f1, ru1, -, -, rm1⟩ := enc_rep ha.live rs rg rh hM1 .b1 a.k1.s a.k1.t
  rcases b with _ | _
  · refine ⟨_, _, _, M0, by simp only [encMsgs, f0, f1, R.ok_bind]; rfl, hM0, c0, c1, rfl, ⟨ru0.valid, rm0.valid⟩,
      ⟨ru1.valid, rm1.valid⟩, ru0, ?_⟩
    change Rep env c0.mv _
    convert rm0 using 1; module
  · refine ⟨_, _, _, M1, by simp only [encMsgs, f0, f1, R.ok_bind]; rfl, hM1, c0, c1, rfl, ⟨ru0.valid, rm0.valid⟩,
      ⟨ru1.valid, rm1.valid⟩, ru1, ?_⟩
    change Rep env c1.mv _
    convert rm1 using 1; module

theorem goodPair_eval {env : Env} {b : Branch} {k : F} {x y : List Ctxt} {U M U' M' : Grp CC}
    (hx : GoodPair env b k x U M) (hy : GoodPair env b k y U' M') :
    ∃ c0 c1 y0 y1 d0 d1, x = [c0, c1] ∧ y = [y0, y1] ∧ eval env c0 y0 = .ok d0 ∧ eval env c1 y1 = .ok d1 ∧
      GoodPair env b k [d0, d1] (U + U') (M + M') := by
  obtain ⟨c0, c1, rfl, v0, v1, a1, a2⟩ := hx
  obtain ⟨y0, y1, rfl, w0, w1, b1, b2⟩ := hy
  obtain ⟨U0, hU0⟩ := valid_iff.1 v0.u
  obtain ⟨V0, hV0⟩ := valid_iff.1 v0.mv
  obtain ⟨U1, hU1⟩ := valid_iff.1 v1.u
  obtain ⟨V1, hV1⟩ := valid_iff.1 v1.mv
  obtain ⟨U0', hU0'⟩ := valid_iff.1 w0.u
  obtain ⟨V0', hV0'⟩ := valid_iff.1 w0.mv
  obtain ⟨U1', hU1'⟩ := valid_iff.1 w1.u
  obtain ⟨V1', hV1'⟩ := valid_iff.1 w1.mv
  obtain ⟨d0, e0, f0, g0⟩ := eval_rep hU0 hV0 hU0' hV0'
  obtain ⟨d1, e1, f1, g1⟩ := eval_rep hU1 hV1 hU1' hV1'
  refine ⟨c0, c1, y0, y1, d0, d1, rfl, rfl, e0, e1, d0, d1, rfl, ⟨f0.valid, g0.valid⟩, ⟨f1.valid, g1.valid⟩, ?_, ?_⟩
  · rcases b with _ | _
    · simp only [pick] at a1 b1 ⊢
      rwa [rep_unique a1 hU0, rep_unique b1 hU0']
    · simp only [pick] at a1 b1 ⊢
      rwa [rep_unique a1 hU1, rep_unique b1 hU1']
  · have e : k • (U + U') + (M + M') = (k • U + M) + (k • U' + M') := by module
    rw [e]
    rcases b with _ | _
    · simp only [pick] at a2 b2 ⊢
      rwa [rep_unique a2 hV0, rep_unique b2 hV0']
    · simp only [pick] at a2 b2 ⊢
      rwa [rep_unique a2 hV1, rep_unique b2 hV1']

theorem aggLoop_good {env : Env} {crs : Crs} {g h : Branch → Grp CC} (r : RepCrs env crs g h) {b : Branch} {k : F}
    {pk : PKey} (rg : Rep env pk.g (k • g b)) (rh : Rep env pk.h (k • h b)) (as : List Answer)
    (has : ∀ a ∈ as, ReadyAns env crs a) (c0 c1 : Ctxt) (U M : Grp CC) (hc : GoodPair env b k [c0, c1] U M)
    (m : Pt) (hm : Rep env m M) :
    ∃ cs c U' M' m', answers env pk as = .ok cs ∧ aggLoop env c0 c1 cs = .ok c ∧ GoodPair env b k c U' M' ∧
      sumPts env m (as.map fun a => pick b a.m0 a.m1) = .ok m' ∧ Rep env m' M' := by
  induction as generalizing c0 c1 U M m with
  | nil => exact ⟨[], [c0, c1], U, M, m, rfl, rfl, hc, rfl, hm⟩
  | cons a as ih =>
    obtain ⟨x, s, Ua, Ma, e1, hMa, hx⟩ := goodPair_enc r rg rh (has a (by simp))
    obtain ⟨c0', c1', y0, y1, d0, d1, p1, p2, p3, p4, p5⟩ := goodPair_eval hc hx
    obtain ⟨rfl, rfl⟩ : c0 = c0' ∧ c1 = c1' := by simpa using p1
    subst p2
    obtain ⟨m1, q1, q2⟩ := add_rep hm hMa
    obtain ⟨cs, c, U', M', m', h1, h2, h3, h4, h5⟩ := ih (fun a ha => has a (by simp [ha])) d0 d1 _ _ p5 m1 q2
    refine ⟨[y0, y1] :: cs, c, U', M', m', by simp only [answers, e1, h1, R.ok_bind], ?_, h3, ?_, h5⟩
    · simp only [aggLoop, index_pair, R.ok_bind, p3, p4, h2]
    · simp only [List.map_cons, sumPts, q1, R.ok_bind, h4]

/-- C35 (part): for any number `≥ 1` of senders the aggregate of their answers to one key, whatever the proxy held
before, decrypts to the sum of the selected messages, if its selected component avoids infinity.
Missing: degenerate coins (as for a single sender, C33). -/
theorem C35_sum_partial (env : Env) {rc : Recv} (hl : Live env rc.dme.curve) (hc : ValidCrs env rc.dme.crs)
    (b : Branch) (coin : ℤ) (a : Answer) (as : List Answer) (has : ∀ x ∈ a :: as, ReadyAns env rc.dme.crs x)
    (old : List Ctxt) :
    Ends (selectMsg env rc b coin) fun sel => Ends (answers env sel.1 (a :: as)) fun cs =>
      Ends (aggregate env old cs) fun c => NonDegenerate sel.2 c b →
        EqP env CC (decryptMsg env sel.2 c)
          (sumPts env (pick b a.m0 a.m1) (as.map fun x => pick b x.m0 x.m1)) := by
  obtain ⟨g, h, r⟩ := hc.rep
  obtain ⟨pg, ph, e1, rg, rh⟩ := keyGen_rep hl r b coin
  refine ⟨(⟨pg, ph⟩, { rc with sk := Fld.ofZ (coin : F), b := some b }),
    by simp only [selectMsg, e1, R.ok_bind], ?_⟩
  obtain ⟨x, s, Ua, Ma, f1, hMa, hx⟩ := goodPair_enc (pk := ⟨pg, ph⟩) r rg rh (has a (by simp))
  obtain ⟨c0, c1, rfl, hrest⟩ := hx
  obtain ⟨cs, c, U', M', m', h1, h2, h3, h4, h5⟩ := aggLoop_good (pk := ⟨pg, ph⟩) r rg rh as
    (fun a ha => has a (by simp [ha])) c0 c1 Ua Ma ⟨c0, c1, rfl, hrest⟩ _ hMa
  refine ⟨[c0, c1] :: cs, by simp only [answers, f1, h1, R.ok_bind],
    c, by simp only [aggregate, index_pair, R.ok_bind, h2], ?_⟩
  rw [h4]
  obtain ⟨d0, d1, rfl, v0, v1, ru, rmv⟩ := h3
  simp only [NonDegenerate, decryptMsg, selected, index_pair, R.ok_bind, Except.ok.injEq, exists_eq_left',
    ofZ_ne_zero_iff]
  have key : ∀ ct : Ctxt, Rep env ct.u U' → Rep env ct.mv ((coin : F) • U' + M') → ct.u.inf = false ∧ (coin : F) ≠ 0 ∧
      ct.mv.inf = false → EqP env CC (dec env (Fld.ofZ (coin : F)) ct) (.ok m') := by
    rintro ct ru rmv ⟨a1, a2, a3⟩
    obtain ⟨m, f4, rm⟩ := dec_rep ru rmv (k := (coin : F)) (fun h0 => by
      rcases smul_eq_zero.1 h0 with h | h
      · exact a2 h
      · rw [(rep_inf ru).2 h] at a1; simp at a1) (fun h0 => by rw [(rep_inf rmv).2 h0] at a3; simp at a3)
    exact eqP_of_rep ⟨m, f4, rm⟩ ⟨m', rfl, h5⟩ (by abel)
  rcases b with _ | _
  · exact key _ ru rmv
  · exact key _ ru rmv

/-- C35: aggregating no answers is undefined. -/
theorem C35_empty (env : Env) (old : List Ctxt) : Faults (aggregate env old []) := ⟨.oobRead, rfl⟩

/-- three senders -/
example : (do
    let d ← ctorMessy tenv2 (some 0) ⟨5, 7, 2, 3⟩
    let s := Sndr.ctor (ctorCrs (some 1) d.crs)
    let (pk, r) ← selectMsg tenv2 (Recv.ctor d) .b1 11
    let m0 ← Curve.getRandomPoint tenv2 CC (some 1) 13
    let m1 ← Curve.getRandomPoint tenv2 CC (some 1) 14
    let cs ← answers tenv2 pk [⟨s, m0, m1, ⟨3, 4⟩, ⟨5, 6⟩⟩, ⟨s, m1, m0, ⟨7, 8⟩, ⟨9, 10⟩⟩, ⟨s, m1, m0, ⟨1, 8⟩, ⟨2, 10⟩⟩]
    let c ← aggregate tenv2 [] cs
    let m' ← decryptMsg tenv2 r c
    m'.beq tenv2 CC (← Curve.getRandomPoint tenv2 CC (some 1) 40)) = .ok true := by decide +kernel

/-! ## C36 -/

theorem free_dead (env : Env) (a : Addr) : ¬ Live (env.free a) (some a) := by
  rintro ⟨x, o, h1, h2⟩
  obtain rfl := Option.some.inj h1
  simp [Env.free] at h2

theorem enc_u_curve {env : Env} {d : Inst} {pk : PKey} {b : Branch} {m : Pt} {s t : ℤ} {c : Ctxt} {a : Addr}
    (hg : (d.crs.g b).curve = some a) (hh : (d.crs.h b).curve = some a)
    (h : enc env d pk b m s t = .ok c) : c.u.inf = true ∨ c.u.curve = some a := by
  unfold enc at h
  simp only [bind, Except.bind] at h
  repeat' split at h
  all_goals try (simp at h; done)
  obtain rfl := Except.ok.inj h
  rename_i gs hgs _ ht hht _ u hu _ mv hmv
  rcases add_curve hu with h1 | h1 | ⟨h1, h2⟩
  · exact .inl h1
  · rcases smul_curve hgs with h3 | h3
    · rw [Pt.add, if_pos h3] at hu
      obtain rfl := Except.ok.inj hu
      rcases smul_curve hht with h4 | h4
      · exact .inl h4
      · exact .inr (h4.trans hh)
    · exact .inr (h1.trans (h3.trans hg))
  · subst h2
    rcases smul_curve hht with h4 | h4
    · exact .inl h4
    · exact .inr (h4.trans hh)

/-- C36 is false: the first component of every ciphertext refers to the sender's curve object, so after the sender
(constructed from a CRS, its curve object at `a`) has been destroyed, decryption of a ciphertext it produced, with
finite first component and a secret key of at least 2, is undefined. -/
theorem C36_use_after_free_counterexample (env : Env) (a : Addr) (crs : Crs) (old : List Ctxt) {pk : PKey}
    {m0 m1 : Pt} {k0 k1 : EncCoins} {c : List Ctxt} {s' : Sndr}
    (he : encMsgs env ⟨ctorCrs (some a) crs, old⟩ pk m0 m1 k0 k1 = .ok (c, s')) {r : Recv} {b : Branch}
    (hb : r.b = some b) (hsk : 2 ≤ r.sk.value) {ct : Ctxt} (hct : index c b = .ok ct) (hfin : ct.u.inf = false) :
    Faults (decryptMsg (env.free a) r c) := by
  have hcur : ct.u.curve = some a := by
    simp only [encMsgs] at he
    rcases h0 : enc env (ctorCrs (some a) crs) pk .b0 m0 k0.s k0.t with e | c0
    · rw [h0] at he; simp at he
    rcases h1 : enc env (ctorCrs (some a) crs) pk .b1 m1 k1.s k1.t with e | c1
    · rw [h0, h1] at he; simp at he
    rw [h0, h1] at he; simp only [R.ok_bind] at he
    obtain ⟨rfl, -⟩ := Prod.mk.inj (Except.ok.inj he)
    rw [index_pair] at hct
    rcases b with _ | _
    · obtain rfl := Except.ok.inj hct
      rcases enc_u_curve rfl rfl h0 with h | h
      · simp only at hfin; rw [h] at hfin; simp at hfin
      · exact h
    · obtain rfl := Except.ok.inj hct
      rcases enc_u_curve rfl rfl h1 with h | h
      · simp only at hfin; rw [h] at hfin; simp at hfin
      · exact h
  obtain ⟨e, hf⟩ := smul_dead (env := env.free a) (C := CC) (k := r.sk) hfin (by rw [hcur]; exact free_dead env a) hsk
  refine ⟨e, ?_⟩
  simp only [decryptMsg, selected, hb, hct, R.ok_bind, dec, hf, R.error_bind]

/-- the hypotheses are met: a run in which the ciphertext is decrypted before but not after the sender is gone -/
example : (do
    let d ← ctorMessy tenv2 (some 0) ⟨5, 7, 2, 3⟩
    let s := Sndr.ctor (ctorCrs (some 1) d.crs)
    let (pk, r) ← selectMsg tenv2 (Recv.ctor d) .b1 11
    let m ← Curve.getRandomPoint tenv2 CC (some 0) 13
    let (c, _) ← encMsgs tenv2 s pk m m ⟨17, 18⟩ ⟨19, 20⟩
    let m' ← decryptMsg tenv2 r c
    let b ← m'.beq tenv2 CC m
    .ok (b, decryptMsg (tenv2.free 1) r c)) = .ok (true, .error .useAfterFree) := by decide +kernel

/-- C36 (part): the result of decryption only depends on the key and the ciphertext value as long as the curve
objects the ciphertext refers to are alive; everything else may be destroyed.
Missing: ciphertexts of destroyed senders (see above). -/
theorem C36_alive_partial (env env' : Env) {r : Recv} (hsk : IsElem CC.fn r.sk) {b : Branch} {c : List Ctxt}
    {ct : Ctxt} (hct : index c b = .ok ct) (hb : r.b = some b) (hv : ValidCtxt env ct) (hv' : ValidCtxt env' ct)
    (hnd : NonDegenerate r c b) :
    ∃ m m', decryptMsg env r c = .ok m ∧ decryptMsg env' r c = .ok m' ∧ SamePoint m m' := by
  obtain ⟨k, hk⟩ := isElem_iff.1 hsk
  obtain ⟨ct', h1, h2, h3, h4⟩ := hnd
  rw [hct] at h1
  obtain rfl := Except.ok.inj h1
  rw [hk, ofZ_ne_zero_iff] at h3
  obtain ⟨U, hU⟩ := valid_iff.1 hv.u
  obtain ⟨V, hV⟩ := valid_iff.1 hv.mv
  obtain ⟨U', hU'⟩ := valid_iff.1 hv'.u
  obtain ⟨V', hV'⟩ := valid_iff.1 hv'.mv
  -- the same object denotes the same group element in both environments
  have same : ∀ {P : Pt} {A B : Grp CC}, Rep env P A → Rep env' P B → A = B := by
    intro P A B hA hB
    rcases cases_pt A with rfl | ⟨x, y, hon, rfl⟩ <;> rcases cases_pt B with rfl | ⟨x', y', hon', rfl⟩
    · rfl
    · have := (rep_zero_iff.1 hA).1; rw [((rep_pt_iff hon').1 hB).1] at this; simp at this
    · have := (rep_zero_iff.1 hB).1; rw [((rep_pt_iff hon).1 hA).1] at this; simp at this
    · have a1 := (rep_pt_iff hon).1 hA
      have b1 := (rep_pt_iff hon').1 hB
      rw [pt_inj]
      exact ⟨Fld.ofZ_injective (a1.2.1.symm.trans b1.2.1), Fld.ofZ_injective (a1.2.2.1.symm.trans b1.2.2.1)⟩
  obtain rfl := same hU hU'
  obtain rfl := same hV hV'
  have hkU : k • U ≠ 0 := by
    intro h0
    rcases smul_eq_zero.1 h0 with h | h
    · exact h3 h
    · rw [(rep_inf hU).2 h] at h2; simp at h2
  have hV0 : V ≠ 0 := by
    intro h0; rw [(rep_inf hV).2 h0] at h4; simp at h4
  obtain ⟨m, e1, r1⟩ := dec_rep hU hV hkU hV0
  obtain ⟨m', e2, r2⟩ := dec_rep hU' hV' hkU hV0
  refine ⟨m, m', ?_, ?_, ?_⟩
  · simp only [decryptMsg, selected, hb, hct, R.ok_bind, hk, e1]
  · simp only [decryptMsg, selected, hb, hct, R.ok_bind, hk, e2]
  · rcases cases_pt (V - k • U) with h0 | ⟨x, y, hon, h0⟩
    · rw [h0] at r1 r2
      exact .inl ⟨(rep_zero_iff.1 r1).1, (rep_zero_iff.1 r2).1⟩
    · rw [h0] at r1 r2
      have a1 := (rep_pt_iff hon).1 r1
      have b1 := (rep_pt_iff hon).1 r2
      exact .inr ⟨a1.1, b1.1, a1.2.1.trans b1.2.1.symm, a1.2.2.1.trans b1.2.2.1.symm⟩

end Ot
end Verif
