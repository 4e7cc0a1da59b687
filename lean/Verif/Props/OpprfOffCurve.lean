import Verif.Props.OtOffCurve
import Verif.Props.OpprfServer

/-!
# C71: an OPPRF answer to a key that is not on the curve
-/

namespace Verif
namespace Opprf

open Dme Ot EC

/-- the three points a client with the key ((3, 4), (3, 4)) computes from the second component of a ciphertext -/
def candidates (env : Env) (c : Option Addr) (mv : Pt) : List (R Pt) :=
  [.ok mv, mv.sub env CC (Pt.ofZ CC 3 4 c), mv.sub env CC (Pt.ofZ CC 3 (-4) c)]

theorem candidates_of {env : Env} {c : Option Addr} {mv m : Pt} {A : Grp CC} (hm : Rep env m A) {r : ℤ} (hr : r = 0 ∨ r = 1 ∨ r = 2)
    (h : Ot.Opens env c mv m r) (hx : mv.x.value ≠ 3) : ∃ Q, .ok Q ∈ candidates env c mv ∧ Rep env Q A := by
  have key : ∀ {Q}, Valid env CC Q → SamePoint Q m → Rep env Q A := fun {Q} hv hs => by
    obtain ⟨B, hB⟩ := valid_iff.1 hv
    rwa [← (samePoint_iff hB hm).1 hs]
  rcases hr with e | e | e
  · obtain ⟨h1, h2⟩ := h.1 e
    exact ⟨mv, by simp [candidates], key h1 h2⟩
  · obtain ⟨Q, q, h1, h2⟩ := h.2.1 e hx
    exact ⟨Q, by simp [candidates, q], key h1 h2⟩
  · obtain ⟨Q, q, h1, h2⟩ := h.2.2 e hx
    exact ⟨Q, by simp [candidates, q], key h1 h2⟩

/-- C71 is false for the key ((3, 4), (3, 4)), which is finite but not on the curve and not rejected either: among the nine pairs of
candidates for the two points of the answer there is one that differs by the secret times 2^i.  This holds in both modes, for all draws
and after any history of completed calls, unless one of the two second components has the abscissa 3. -/
theorem C71_off_curve_counterexample {W : World} {a c : Option Addr} (ha : LiveGen W.env a) (hc : Live W.env c) {crs : Crs}
    (hcrs : OnCurve CC crs.g0 ∧ OnCurve CC crs.g1 ∧ OnCurve CC crs.h0 ∧ OnCurve CC crs.h1) {theta : Msg} {g : ℤ} {s0 s : Server}
    (h0 : Server.ctor W.env a theta crs g = .ok s0) (ops : List SCall) (hop : ∀ ga, SCall.secret ga ∈ ops → OnCurve CC ga)
    (hs : runAll (SCall.run W) s0 ops = .ok s) {k : PrepCoins} {s' : Server} (hp : s.prepare W k = .ok s') {i : ℕ} (hi : i < 15)
    (q : RoundCoins) :
    Ends (s'.runOTRound W (i + 1 : ℕ) ⟨Pt.ofZ CC 3 4 c, Pt.ofZ CC 3 4 c⟩ q) fun r => ∃ c0 c1, r.1.cprf = [c0, c1] ∧
      (c0.mv.x.value ≠ 3 → c1.mv.x.value ≠ 3 → ∃ P0 P1, .ok P0 ∈ candidates W.env c c0.mv ∧ .ok P1 ∈ candidates W.env c c1.mv ∧
        EqP W.env CC (do let x ← s.ga.smulZ W.env CC (2 ^ i); x.add W.env CC P0) (.ok P1)) := by
  have hsnd := calls_sound ops (ctor_sound ha hcrs h0) hop hs
  have hsnd' : Sound W.env s' := call_sound (op := .prepare k) hsnd (by simp) hp
  obtain ⟨e0, e1, t0, t1, gg, hg1, hg2⟩ : ∃ e0 e1, s'.Si0[i + 1]? = some e0 ∧ s'.Si1[i + 1]? = some e1 ∧
      ∃ g, s.ga.smulZ W.env CC (2 ^ i) = .ok g ∧ g.add W.env CC e0.prf = .ok e1.prf := by
    unfold Server.prepare at hp
    obtain ⟨Q, -, hp⟩ := R.bind_eq_ok.1 hp
    obtain ⟨B, -, hp⟩ := R.bind_eq_ok.1 hp
    obtain ⟨s1, h1, hp⟩ := R.bind_eq_ok.1 hp
    obtain ⟨s2, h2, h3⟩ := R.bind_eq_ok.1 hp
    have ht1 : s1.ga = s.ga := by
      obtain ⟨os, -, rfl⟩ := pushKeys_inv _ h1
      rfl
    have ht2 : s2.ga = s.ga := by
      obtain ⟨⟨a, b, rfl⟩, -⟩ := prepareTop_inv h2
      exact ht1
    obtain ⟨-, u2, -⟩ := tableLoop_inv 15 h3
    obtain ⟨x0, x1, v1, v2, v3⟩ := u2 i hi
    have := entries_prf v1
    rw [ht2] at this
    exact ⟨x0, x1, v2, v3, this⟩
  have hv0 : Valid W.env CC e0.prf := hsnd'.tab _ (List.mem_append_left _ (List.mem_of_getElem? t0))
  have hv1 : Valid W.env CC e1.prf := hsnd'.tab _ (List.mem_append_right _ (List.mem_of_getElem? t1))
  obtain ⟨E0, hE0⟩ := valid_iff.1 hv0
  obtain ⟨E1, hE1⟩ := valid_iff.1 hv1
  have hk : (⟨Pt.ofZ CC 3 4 c, Pt.ofZ CC 3 4 c⟩ : PKey) = oddKey c := rfl
  rw [hk]
  have hZ : ∀ (sd : Sndr), sd.dme = s'.ots.dme → ∀ (x y : ℤ) (k0 k1 : EncCoins), ∃ ct,
      encMsgsZ W.env sd (oddKey c) x y k0 k1 = .ok (ct, { sd with c := ct }) := by
    intro sd hd x y k0 k1
    have hl : Live W.env sd.dme.curve := by rw [hd]; exact hsnd'.live
    have hv : ValidCrs W.env sd.dme.crs := by rw [hd]; exact hsnd'.crs
    obtain ⟨-, P0, -, -, -, p0, -, -, q0⟩ := encode_ok hl x
    obtain ⟨-, P1, -, -, -, p1, -, -, q1⟩ := encode_ok hl y
    obtain ⟨c0, f0, -⟩ := enc_odd hl hv hc .b0 (.inr q0) k0.s k0.t
    obtain ⟨c1, f1, -⟩ := enc_odd hl hv hc .b1 (.inr q1) k1.s k1.t
    exact ⟨[c0, c1], by simp only [encMsgsZ, encZ, p0, p1, f0, f1, R.ok_bind]⟩
  obtain ⟨c0, f0⟩ := hZ s'.ots rfl e0.k_lt e1.k_lt q.lt0 q.lt1
  obtain ⟨c1, f1⟩ := hZ { s'.ots with c := c0 } rfl e0.k_eq e1.k_eq q.eq0 q.eq1
  obtain ⟨c2, f2⟩ := hZ { s'.ots with c := c1 } rfl e0.k_gt e1.k_gt q.gt0 q.gt1
  obtain ⟨p0, f3, o0⟩ := enc_odd (d := s'.ots.dme) hsnd'.live hsnd'.crs hc .b0 hv0 q.prf0.s q.prf0.t
  obtain ⟨p1, f4, o1⟩ := enc_odd (d := s'.ots.dme) hsnd'.live hsnd'.crs hc .b1 hv1 q.prf1.s q.prf1.t
  refine ⟨(⟨Arr3.shuffle ⟨c0, c1, c2⟩ q.sh1 q.sh2, [p0, p1]⟩, { s' with ots := { s'.ots with c := [p0, p1] } }), ?_, p0, p1, rfl, ?_⟩
  · unfold Server.runOTRound
    rw [if_neg (by omega)]
    have a0 : atShort s'.Si0 ((i + 1 : ℕ) : ℤ) = .ok e0 := by
      rw [atShort, if_neg (by omega), Int.toNat_natCast, at'_ok]; exact t0
    have a1 : atShort s'.Si1 ((i + 1 : ℕ) : ℤ) = .ok e1 := by
      rw [atShort, if_neg (by omega), Int.toNat_natCast, at'_ok]; exact t1
    simp only [a0, a1, R.ok_bind, f0, f1, f2, encMsgs, f3, f4]
  · intro x0 x1
    have three : ∀ z : ℤ, z % 3 = 0 ∨ z % 3 = 1 ∨ z % 3 = 2 := fun z => by omega
    obtain ⟨P0, i0, r0⟩ := candidates_of hE0 (three _) o0 x0
    obtain ⟨P1, i1, r1⟩ := candidates_of hE1 (three _) o1 x1
    refine ⟨P0, P1, i0, i1, ?_⟩
    obtain ⟨A, hA⟩ := valid_iff.1 hsnd.ga
    obtain ⟨g', b1, b2⟩ := smulI_rep hA (2 ^ i)
    rw [hg1] at b1
    obtain rfl := Except.ok.inj b1
    obtain ⟨y, d1, d2⟩ := add_rep b2 hE0
    rw [hg2] at d1
    obtain rfl := Except.ok.inj d1
    obtain ⟨z, w1, w2⟩ := add_rep b2 r0
    rw [hg1, R.ok_bind]
    refine ⟨z, P1, w1, rfl, ?_⟩
    rw [rep_beq w2 r1, rep_unique hE1 d2]
    simp

namespace Sample

/-- the difference of two candidates is the secret -/
def differ (x y : R Pt) : Bool :=
  match (do let p ← x; let q ← y; let d ← q.sub W.env CC p; d.beq W.env CC ga : R Bool) with
  | .ok b => b
  | .error _ => false

/-- the secret is one of the nine differences of candidates from one answer -/
example : Live W.env (some 0) ∧ (do
    let s ← srv0.prepare W draws.prep
    let r ← s.runOTRound W 1 ⟨Pt.ofZ CC 3 4 (some 0), Pt.ofZ CC 3 4 (some 0)⟩ rc
    match r.1.cprf with
    | [c0, c1] => .ok (decide (c0.mv.x.value ≠ 3 ∧ c1.mv.x.value ≠ 3) &&
        (candidates W.env (some 0) c0.mv).any fun x => (candidates W.env (some 0) c1.mv).any fun y => differ x y)
    | _ => .ok false) = .ok true := ⟨liveGen0.live, by decide +kernel⟩

end Sample

end Opprf
end Verif
