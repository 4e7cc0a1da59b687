import Verif.Props.OpprfSample

/-!
# C113: two transfers of one receiver
-/

namespace Verif
namespace Ot

open EC Dme

attribute [local irreducible] Rep

/-- C113 is false, and exactly when the answer to an earlier key still opens: after any history, a selection of `b` with the
draw `coin`, an answer to the returned key, any calls, and a second selection of the same branch with the draw `coin'`,
decryption of that answer returns a point of the curve without complaint, for draws that are not degenerate.  It is `m_b`
exactly if the two draws are the same modulo the order. -/
theorem C113_exact (env : Env) {s : Sys} (hs : Ready env s) (h1 h2 h3 : List Call) (b : Branch) (coin coin' : ℤ) {m0 m1 : Pt}
    (hm0 : Valid env CC m0) (hm1 : Valid env CC m1) (k0 k1 : EncCoins) {s1 : Sys} (r1 : calls env s h1 = .ok s1) :
    Ends (selectMsg env s1.recv b coin) fun sel => ∀ s3, calls env { s1 with recv := sel.2 } h2 = .ok s3 →
      Ends (encMsgs env s3.sndr sel.1 m0 m1 k0 k1) fun e => ∀ s5, calls env { s3 with sndr := e.2 } h3 = .ok s5 →
        Ends (selectMsg env s5.recv b coin') fun sel' => NonDegenerate sel'.2 e.1 b →
          Ends (decryptMsg env sel'.2 e.1) fun P => Valid env CC P ∧
            (SamePoint P (pick b m0 m1) ↔ CC.order ∣ coin - coin') := by
  obtain ⟨d1, d2, -⟩ := calls_inv r1
  obtain ⟨g, h, r⟩ := hs.crs.rep
  have hl1 : Live env s1.recv.dme.curve := by rw [d1]; exact hs.recv
  obtain ⟨pg, ph, e1, rg, rh⟩ := keyGen_rep (d := s1.recv.dme) hl1 (by rw [d1]; exact r) b coin
  refine ⟨(⟨pg, ph⟩, { s1.recv with sk := Fld.ofZ (coin : F), b := some b }),
    by simp only [selectMsg, e1, R.ok_bind], ?_⟩
  intro s3 r3
  obtain ⟨d3, d4, -⟩ := calls_inv r3
  obtain ⟨M0, hM0⟩ := valid_iff.1 hm0
  obtain ⟨M1, hM1⟩ := valid_iff.1 hm1
  have hd : s3.sndr.dme = s.sndr.dme := d4.trans d2
  have hl3 : Live env s3.sndr.dme.curve := by rw [hd]; exact hs.sndr
  have rs : RepCrs env s3.sndr.dme.crs g h := by rw [hd]; exact r.congr hs.same hs.crs'
  obtain ⟨c0, -, f0, ru0, -, -, rm0⟩ := enc_rep (pk := ⟨pg, ph⟩) hl3 rs rg rh hM0 .b0 k0.s k0.t
  obtain ⟨c1, -, f1, ru1, -, -, rm1⟩ := enc_rep (pk := ⟨pg, ph⟩) hl3 rs rg rh hM1 .b1 k1.s k1.t
  refine ⟨([c0, c1], { s3.sndr with c := [c0, c1] }), by simp only [encMsgs, f0, f1, R.ok_bind], ?_⟩
  intro s5 r5
  obtain ⟨d5, -, -⟩ := calls_inv r5
  have hd5 : s5.recv.dme = s.recv.dme := d5.trans (d3.trans d1)
  have hl5 : Live env s5.recv.dme.curve := by rw [hd5]; exact hs.recv
  obtain ⟨pg', ph', e2, -, -⟩ := keyGen_rep (d := s5.recv.dme) hl5 (by rw [hd5]; exact r) b coin'
  refine ⟨(⟨pg', ph'⟩, { s5.recv with sk := Fld.ofZ (coin' : F), b := some b }),
    by simp only [selectMsg, e2, R.ok_bind], ?_⟩
  simp only [decryptMsg, selected, NonDegenerate, index_pair, R.ok_bind, Except.ok.injEq, exists_eq_left', ofZ_ne_zero_iff]
  have ho : CC.order = (CC.fn : ℤ) := by decide
  have key : ∀ {ct : Ctxt} {U V M : Grp CC} {m : Pt}, Rep env ct.u U → Rep env ct.mv V → Rep env m M → V = (coin : F) • U + M →
      ct.u.inf = false ∧ (coin' : F) ≠ 0 ∧ ct.mv.inf = false → Ends (dec env (Fld.ofZ (coin' : F)) ct) fun P => Valid env CC P ∧
        (SamePoint P m ↔ CC.order ∣ coin - coin') := by
    rintro ct U V M m hU hV hM hVe ⟨a1, a2, a3⟩
    have hU0 : U ≠ 0 := fun h0 => by rw [(rep_inf hU).2 h0] at a1; cases a1
    obtain ⟨P, p1, p2⟩ := dec_rep hU hV (k := (coin' : F)) (smul_ne_zero a2 hU0)
      (fun h0 => by rw [(rep_inf hV).2 h0] at a3; cases a3)
    refine ⟨P, p1, valid_iff.2 ⟨_, p2⟩, ?_⟩
    rw [samePoint_iff p2 hM, hVe, ho, ← ZMod.intCast_zmod_eq_zero_iff_dvd]
    have e : (coin : F) • U + M - (coin' : F) • U = (((coin - coin' : ℤ)) : F) • U + M := by
      push_cast
      module
    rw [e, add_eq_right, smul_eq_zero]
    exact or_iff_left hU0
  rcases b with _ | _
  · exact key ru0 rm0 hM0 (by module)
  · exact key ru1 rm1 hM1 (by module)

/-- a run: the answer to the key with the draw 8 is opened after a second selection with the draw 11, and after one with the
draw 8 -/
example : (do
    let d ← ctorMessy tenv2 (some 0) ⟨5, 7, 2, 3⟩
    let s := Sndr.ctor (ctorCrs (some 1) d.crs)
    let (pk, r) ← selectMsg tenv2 (Recv.ctor d) .b1 8
    let m0 ← Curve.getRandomPoint tenv2 CC (some 1) 13
    let m1 ← Curve.getRandomPoint tenv2 CC (some 1) 14
    let (c, _) ← encMsgs tenv2 s pk m0 m1 ⟨17, 18⟩ ⟨19, 20⟩
    let (_, r1) ← selectMsg tenv2 r .b1 11
    let (_, r2) ← selectMsg tenv2 r1 .b1 8
    let ct ← index c .b1
    let p1 ← decryptMsg tenv2 r1 c
    let p2 ← decryptMsg tenv2 r2 c
    let e1 ← p1.beq tenv2 CC m1
    let e2 ← p2.beq tenv2 CC m1
    .ok (ct.u.inf, ct.mv.inf, decide (r1.sk.value = 0), e1, e2)) = .ok (false, false, false, false, true) := by decide +kernel

open Opprf Opprf.Sample in
/-- the two parties of the OPPRF sample meet the hypotheses, with draws that are not degenerate -/
example : Ready env2 ⟨(Client.ctor (some 1) crs).otr, srv0.ots⟩ ∧ Valid env2 CC ga ∧ ¬ CC.order ∣ (3 : ℤ) - 4 ∧ (do
    let (pk, r) ← selectMsg env2 (Client.ctor (some 1) crs).otr .b1 3
    let (c, _) ← encMsgs env2 srv0.ots pk ga ga ⟨2, 3⟩ ⟨3, 1⟩
    let (_, r) ← selectMsg env2 r .b1 4
    let ct ← index c .b1
    .ok (ct.u.inf, ct.mv.inf, decide (r.sk.value = 0))) = .ok (false, false, false) :=
  ⟨parties.ready, parties.ga, by decide, by decide +kernel⟩

end Ot
end Verif
