import Verif.Props.EncodeTiming
import Verif.Props.OffCurve
import Verif.Props.OtAgg

/-!
# C124: an oblivious transfer with a key that is not on the curve
-/

namespace Verif
namespace Ot

open EC OffCurve Dme

/-- the sum of two points with different abscissas, on whatever curves -/
theorem add_chord {env : Env} {c c' : Option Addr} (hc : Live env c) (hc' : Live env c') {x y x' y' : ZMod CC.fp} (hx : x ≠ x') :
    (⟨Fld.ofZ x, Fld.ofZ y, false, c⟩ : Pt).add env CC ⟨Fld.ofZ x', Fld.ofZ y', false, c'⟩ =
      .ok ⟨Fld.ofZ ((y - y') / (x - x') * ((y - y') / (x - x')) - x - x'),
        Fld.ofZ ((y - y') / (x - x') * (x - ((y - y') / (x - x') * ((y - y') / (x - x')) - x - x')) - y), false, c⟩ := by
  have hcs := cassert_of_eq_true env (curveEq_live (C := CC) hc hc')
  simp only [Pt.add, hcs, Fld.beq_ofZ, hx, R.ok_bind, Fld.sub_ofZ, Fld.mul_ofZ,
    Fld.div_ofZ env _ (sub_ne_zero.2 hx), Bool.false_eq_true, if_false, decide_false]
  rfl

/-- Subtracting the first summand gives the second one back, on whatever curves. -/
theorem chord_back {env : Env} {c c' : Option Addr} (hc : Live env c) (hc' : Live env c') {x y x' y' : ZMod CC.fp} (hx : x ≠ x') :
    ∃ X Y : ZMod CC.fp, (⟨Fld.ofZ x, Fld.ofZ y, false, c⟩ : Pt).add env CC ⟨Fld.ofZ x', Fld.ofZ y', false, c'⟩ =
      .ok ⟨Fld.ofZ X, Fld.ofZ Y, false, c⟩ ∧ (X ≠ x → (⟨Fld.ofZ X, Fld.ofZ Y, false, c⟩ : Pt).sub env CC
        ⟨Fld.ofZ x, Fld.ofZ y, false, c⟩ = .ok ⟨Fld.ofZ x', Fld.ofZ y', false, c⟩) := by
  have hd : x - x' ≠ 0 := sub_ne_zero.2 hx
  generalize hm : (y - y') / (x - x') = m
  have hm' : m * (x - x') = y - y' := by rw [← hm, div_mul_cancel₀ _ hd]
  refine ⟨m * m - x - x', m * (x - (m * m - x - x')) - y, by rw [add_chord hc hc' hx, hm], fun hX => ?_⟩
  have hcs := cassert_of_eq_true env (curveEq_live (C := CC) hc hc)
  have hX' : m * m - x - x' - x ≠ 0 := sub_ne_zero.2 hX
  have e : Pt.ofFld (Fld.ofZ x) (Fld.ofZ (0 - y)) c = ⟨Fld.ofZ x, Fld.ofZ (0 - y), false, c⟩ := rfl
  have i0 : ((0 : ℤ) : ZMod CC.fp) = 0 := by norm_cast
  simp only [Pt.sub, hcs, R.ok_bind, Fld.mk'_eq, Fld.sub_ofZ, i0, e]
  rw [add_chord hc hc hX]
  have hs : (m * (x - (m * m - x - x')) - y - (0 - y)) / (m * m - x - x' - x) = -m := by
    rw [div_eq_iff hX']; ring
  rw [hs]
  congr 3
  · ring
  · linear_combination -hm'

/-- the key: both components are (3, 4), which is not on the curve -/
def oddKey (c : Option Addr) : PKey := ⟨Pt.ofZ CC 3 4 c, Pt.ofZ CC 3 4 c⟩

theorem three_not : ¬ IsAbscissa 3 := by
  rw [found_iff]
  decide +kernel

/-- what the receiver can tell from the second component `mv`: it is the message itself, or the message comes out after subtraction
of (3, 4) or of (3, -4), according to `r` -/
def Opens (env : Env) (c : Option Addr) (mv m : Pt) (r : ℤ) : Prop :=
  (r = 0 → Valid env CC mv ∧ SamePoint mv m) ∧
  (r = 1 → mv.x.value ≠ 3 → Ends (mv.sub env CC (Pt.ofZ CC 3 4 c)) fun Q => Valid env CC Q ∧ SamePoint Q m) ∧
  (r = 2 → mv.x.value ≠ 3 → Ends (mv.sub env CC (Pt.ofZ CC 3 (-4) c)) fun Q => Valid env CC Q ∧ SamePoint Q m)

theorem x3 : ((3 : ℤ) : ZMod secp256r1.fp) = node.X tW := by rw [tW_lit.1]; norm_cast
theorem y4 : ((4 : ℤ) : ZMod secp256r1.fp) = node.Y tW := by rw [tW_lit.2]; norm_cast

theorem tW_two (i : ℕ) : 2 ^ i • tW ≠ 0 := odd_order tW_order (by decide) (by decide) i

theorem tW_ne : tW ≠ 0 := by simpa using tW_two 0

theorem pt_W (c : Option Addr) : Pt.ofZ CC 3 4 c = node.pt c tW := pt_ofZ tW_ne c x3 y4

theorem pt_negW (c : Option Addr) : Pt.ofZ CC 3 (-4) c = node.pt c (-tW) := by
  refine pt_ofZ (neg_ne_zero.2 tW_ne) c ?_ ?_
  · rw [node.negX _ tW_ne]; exact x3
  · rw [node.negY _ tW_ne, ← y4]; norm_cast

theorem same_refl (P : Pt) : SamePoint P P := by
  cases h : P.inf
  · exact .inr ⟨h, h, rfl, rfl⟩
  · exact .inl ⟨h, h⟩

/-- what `v + m` gives for a multiple `v` of (3, 4) -/
theorem mask_opens {env : Env} {c : Option Addr} (hc : Live env c) (z : ℤ) {m : Pt} (hm : Valid env CC m) :
    ∃ mv, (node.pt c (z • tW)).add env CC m = .ok mv ∧ Opens env c mv m (z % 3) := by
  have hmod : ∀ j : ℤ, z % 3 = j % 3 → z • tW = j • tW := fun j h => by
    rw [zsmul_eq_zsmul_iff_modEq, tW_order]; exact h
  have hv3 : (((3 : ℤ) : ZMod secp256r1.fp)).val = 3 := by decide +kernel
  -- a finite summand `A` with abscissa 3
  have fin : ∀ A : U, A ≠ 0 → node.X A = ((3 : ℤ) : ZMod secp256r1.fp) → ∃ mv, (node.pt c A).add env CC m = .ok mv ∧
      (mv.x.value ≠ 3 → Ends (mv.sub env CC (node.pt c A)) fun Q => Valid env CC Q ∧ SamePoint Q m) := by
    intro A hA hX
    rw [node.pt_ne c hA, hX]
    obtain ⟨B, hB⟩ := valid_iff.1 hm
    rcases cases_pt B with rfl | ⟨x, y, hon, rfl⟩
    · refine ⟨⟨Fld.ofZ ((3 : ℤ) : ZMod secp256r1.fp), Fld.ofZ (node.Y A), false, c⟩, by simp [Pt.add, (rep_zero_iff.1 hB).1], fun h => absurd ?_ h⟩
      simp only [Fld.ofZ_value]
      rw [hv3]
      rfl
    · obtain ⟨p1, p2, p3, p4⟩ := (rep_pt_iff hon).1 hB
      have hme : m = ⟨Fld.ofZ x, Fld.ofZ y, false, m.curve⟩ := by
        rcases m with ⟨mx, my, mi, mc⟩
        simp only at p1 p2 p3
        rw [p1, p2, p3]
      have hne : ((3 : ℤ) : ZMod secp256r1.fp) ≠ x := by
        rintro rfl
        apply three_not
        refine ⟨((y.val : ℕ) : ℤ), ?_⟩
        rw [CurveEq, GoodCurve0.prime_eq, ← ZMod.intCast_eq_intCast_iff]
        have := hon
        unfold On at this
        push_cast
        rw [ZMod.natCast_zmod_val]
        push_cast at this
        linear_combination this
      obtain ⟨X, Y, e1, e2⟩ := chord_back hc p4 (y := node.Y A) (y' := y) hne
      rw [hme]
      refine ⟨_, e1, fun h => ⟨_, e2 ?_, valid_iff.2 ⟨_, (rep_pt_iff hon).2 ⟨rfl, rfl, rfl, hc⟩⟩, .inr ⟨rfl, rfl, rfl, rfl⟩⟩⟩
      rintro rfl
      apply h
      simp only [Fld.ofZ_value]
      rw [hv3]
      rfl
  have h3 : z % 3 = 0 ∨ z % 3 = 1 ∨ z % 3 = 2 := by omega
  rcases h3 with h | h | h
  · rw [hmod 0 (by rw [h]; rfl), zero_zsmul, node.pt_zero, h]
    exact ⟨m, by simp [Pt.add, Pt.infty], fun _ => ⟨hm, same_refl m⟩, fun h => absurd h (by decide), fun h => absurd h (by decide)⟩
  · rw [hmod 1 (by rw [h]; rfl), one_zsmul, h]
    obtain ⟨mv, e1, e2⟩ := fin tW tW_ne x3.symm
    exact ⟨mv, e1, fun h => absurd h (by decide), fun _ h => by rw [pt_W]; exact e2 h, fun h => absurd h (by decide)⟩
  · rw [hmod (-1) (by rw [h]; rfl), neg_one_zsmul, h]
    obtain ⟨mv, e1, e2⟩ := fin (-tW) (neg_ne_zero.2 tW_ne) (by rw [node.negX _ tW_ne]; exact x3.symm)
    exact ⟨mv, e1, fun h => absurd h (by decide), fun h => absurd h (by decide), fun _ h => by rw [pt_negW]; exact e2 h⟩

theorem enc_odd {env : Env} {d : Inst} (hl : Live env d.curve) (hv : ValidCrs env d.crs) {c : Option Addr} (hc : Live env c)
    (b : Branch) {m : Pt} (hm : Valid env CC m) (s t : ℤ) :
    ∃ ct, enc env d (oddKey c) b m s t = .ok ct ∧ Opens env c ct.mv m ((s % CC.order + t % CC.order) % 3) := by
  obtain ⟨g, h, r⟩ := hv.rep
  obtain ⟨gs, a1, a2⟩ := smulF_rep (r.g b) (s : F)
  obtain ⟨hh, b1, b2⟩ := smulF_rep (r.h b) (t : F)
  obtain ⟨u, d1, -⟩ := add_rep a2 b2
  have hval : ∀ k : ℤ, (Fld.ofZ (k : F)).value = k % CC.order := fun k => by
    rw [Fld.ofZ_value, ZMod.val_intCast]
    rfl
  have hpos : ∀ k : ℤ, 0 ≤ k % CC.order := fun k => Int.emod_nonneg _ (by decide)
  have e1 := node.smul_pt two_ne hc tW_two (Fld.ofZ (s : F)) (by rw [hval]; exact hpos s)
  have e2 := node.smul_pt two_ne hc tW_two (Fld.ofZ (t : F)) (by rw [hval]; exact hpos t)
  rw [hval] at e1 e2
  generalize s % CC.order = s' at e1 ⊢
  generalize t % CC.order = t' at e2 ⊢
  have hdbl : ∀ A : U, A = s' • tW → A ≠ 0 → A + A ≠ 0 := by
    rintro A rfl h0 h2
    have o : addOrderOf tW = 3 := tW_order
    have h3 : (3 : ℤ) • (s' • tW) = 0 := by
      have hw : (3 : ℤ) • tW = 0 := by
        have := addOrderOf_nsmul_eq_zero tW
        rw [o] at this
        exact_mod_cast this
      rw [← mul_zsmul, mul_comm, mul_zsmul, hw, zsmul_zero]
    apply h0
    have : (3 : ℤ) • (s' • tW) = s' • tW + (s' • tW + s' • tW) := by
      rw [show (3 : ℤ) = 1 + (1 + 1) by norm_num, add_zsmul, add_zsmul, one_zsmul]
    rw [h2, add_zero, h3] at this
    exact this.symm
  have e3 := node.add_pt two_ne hc (A := s' • tW) (B := t' • tW) fun _ => hdbl _ rfl
  rw [← add_zsmul] at e3
  obtain ⟨mv, f1, f2⟩ := mask_opens hc (s' + t') hm
  refine ⟨⟨u, mv⟩, ?_, f2⟩
  simp only [enc, oddKey, pt_W, getRandomScalar_ok hl, R.ok_bind]
  rw [e1, R.ok_bind, e2, R.ok_bind, e3, R.ok_bind, a1, R.ok_bind, b1, R.ok_bind, d1, R.ok_bind, f1, R.ok_bind]

/-- C124 is false: the sender takes the key whose two components are (3, 4), though no point of the curve has this abscissa.  For every
CRS, sender and draw the message of each branch is then the second component of its ciphertext or the difference of this component and
(3, 4) or (3, -4); which one is decided by the sum of the draws modulo 3.  (Excepted are second components with the abscissa 3.) -/
theorem C124_counterexample {env : Env} {s : Sndr} (hl : Live env s.dme.curve) (hv : ValidCrs env s.dme.crs) {c : Option Addr}
    (hc : Live env c) {m0 m1 : Pt} (h0 : Valid env CC m0) (h1 : Valid env CC m1) (k0 k1 : EncCoins) :
    (∀ y : ℤ, ¬ CurveEq CC 3 y) ∧
      Ends (encMsgs env s ⟨Pt.ofZ CC 3 4 c, Pt.ofZ CC 3 4 c⟩ m0 m1 k0 k1) fun res => ∀ b,
        Ends (index res.1 b) fun ct => Opens env c ct.mv (pick b m0 m1)
          (pick b ((k0.s % CC.order + k0.t % CC.order) % 3) ((k1.s % CC.order + k1.t % CC.order) % 3)) := by
  refine ⟨fun y hy => three_not ⟨y, hy⟩, ?_⟩
  obtain ⟨c0, e0, o0⟩ := enc_odd hl hv hc .b0 h0 k0.s k0.t
  obtain ⟨c1, e1, o1⟩ := enc_odd hl hv hc .b1 h1 k1.s k1.t
  refine ⟨([c0, c1], { s with c := [c0, c1] }), ?_, ?_⟩
  · have : (⟨Pt.ofZ CC 3 4 c, Pt.ofZ CC 3 4 c⟩ : PKey) = oddKey c := rfl
    simp only [encMsgs, this, e0, e1, R.ok_bind]
  · rintro (_ | _)
    · exact ⟨c0, rfl, o0⟩
    · exact ⟨c1, rfl, o1⟩

/-- `Opens` for integers: which `decode` gives the message -/
def OpensZ (env : Env) (c : Option Addr) (mv : Pt) (m r : ℤ) : Prop :=
  (r = 0 → decode mv = m) ∧
  (r = 1 → mv.x.value ≠ 3 → Ends (mv.sub env CC (Pt.ofZ CC 3 4 c)) fun Q => decode Q = m) ∧
  (r = 2 → mv.x.value ≠ 3 → Ends (mv.sub env CC (Pt.ofZ CC 3 (-4) c)) fun Q => decode Q = m)

theorem decode_same {P Q : Pt} (h : SamePoint P Q) (hQ : Q.inf = false) : decode P = decode Q := by
  rcases h with ⟨-, h⟩ | ⟨-, -, h, -⟩
  · rw [hQ] at h; cases h
  · rw [decode, decode, h]

theorem Opens.int {env : Env} {c : Option Addr} {mv P : Pt} {r : ℤ} (h : Opens env c mv P r) (hP : P.inf = false) :
    OpensZ env c mv (decode P) r := by
  refine ⟨fun e => decode_same (h.1 e).2 hP, fun e hx => ?_, fun e hx => ?_⟩
  · obtain ⟨Q, q1, q2⟩ := h.2.1 e hx
    exact ⟨Q, q1, decode_same q2.2 hP⟩
  · obtain ⟨Q, q1, q2⟩ := h.2.2 e hx
    exact ⟨Q, q1, decode_same q2.2 hP⟩

/-- C124 is false for integers as well: for all that `decode` gives back at all, both messages are among the three numbers. -/
theorem C124_int_counterexample {env : Env} {s : Sndr} (hl : Live env s.dme.curve) (hv : ValidCrs env s.dme.crs) {c : Option Addr}
    (hc : Live env c) {m0 m1 : ℤ} (h0 : Ends (encode env s.dme m0) fun P => decode P = m0)
    (h1 : Ends (encode env s.dme m1) fun P => decode P = m1) (k0 k1 : EncCoins) :
    Ends (encMsgsZ env s ⟨Pt.ofZ CC 3 4 c, Pt.ofZ CC 3 4 c⟩ m0 m1 k0 k1) fun res => ∀ b,
      Ends (index res.1 b) fun ct => OpensZ env c ct.mv (pick b m0 m1)
          (pick b ((k0.s % CC.order + k0.t % CC.order) % 3) ((k1.s % CC.order + k1.t % CC.order) % 3)) := by
  have key : ∀ m : ℤ, (Ends (encode env s.dme m) fun P => decode P = m) → ∃ P, encode env s.dme m = .ok P ∧ decode P = m ∧
      P.inf = false ∧ Valid env CC P := by
    rintro m ⟨P, p1, p2⟩
    obtain ⟨_, P', -, -, -, e, -, -, hf⟩ := encode_ok hl m
    obtain rfl := Except.ok.inj (p1.symm.trans e)
    exact ⟨P, p1, p2, hf.flag, .inr hf⟩
  obtain ⟨P0, p1, p2, p3, p4⟩ := key m0 h0
  obtain ⟨P1, q1, q2, q3, q4⟩ := key m1 h1
  obtain ⟨-, res, e, ho⟩ := C124_counterexample hl hv hc p4 q4 k0 k1
  refine ⟨res, ?_, fun b => ?_⟩
  · rw [← e]
    simp only [encMsgsZ, encZ, encMsgs, p1, q1, R.ok_bind]
  · obtain ⟨ct, i1, i2⟩ := ho b
    refine ⟨ct, i1, ?_⟩
    rcases b with _ | _
    · have := Opens.int i2 p3
      rwa [show pick Branch.b0 P0 P1 = P0 from rfl, p2] at this
    · have := Opens.int i2 q3
      rwa [show pick Branch.b1 P0 P1 = P1 from rfl, q2] at this

/-- a CRS of `tinst` and two messages: the draws 6 and 8 make the sum 2 modulo 3, the draws 5 and 7 make it 0 -/
example : Live tenv tinst.curve ∧ ValidCrs tenv tinst.crs ∧ (do
    let m0 ← encode tenv tinst 1
    let m1 ← encode tenv tinst 2
    let res ← encMsgs tenv ⟨tinst, []⟩ ⟨Pt.ofZ CC 3 4 (some 0), Pt.ofZ CC 3 4 (some 0)⟩ m0 m1 ⟨6, 8⟩ ⟨5, 7⟩
    let ct0 ← index res.1 .b0
    let ct1 ← index res.1 .b1
    let r0 ← ct0.mv.sub tenv CC (Pt.ofZ CC 3 (-4) (some 0))
    .ok (decode r0, decode ct1.mv)) = .ok (1, 2) := by
  exact ⟨env0_liveGen.live, tinst_valid, by decide +kernel⟩

end Ot
end Verif
