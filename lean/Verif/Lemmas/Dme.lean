import Verif.Spec.Dme
import Verif.Lemmas.GrpModule

/-!
# Lemmas on dual-mode encryption
-/

namespace Verif

open EC

section generic
variable {env : Env} {C : CurveClass} [GoodCurve C]

/-- subtracting an infinite point never returns the first operand -/
theorem sub_inf_ne {P W m : Pt} {A : Grp C} (hP : Rep env P A) (hW : Rep env W (0 : Grp C))
    (hm : Rep env m A) : ¬ EqP env C (P.sub env C W) (.ok m) := by
  rintro ⟨x, y, h1, h2, h3⟩
  obtain rfl := Except.ok.inj h2
  rw [Pt.sub] at h1
  rcases hc : cassert env (Pt.curveEq env C P.curve W.curve) with e | u
  · rw [hc] at h1; simp at h1
  rw [hc, R.ok_bind] at h1
  obtain ⟨-, hx, hy⟩ := rep_zero_iff.1 hW
  rw [Fld.mk'_eq, hy, hx, Fld.sub_ofZ, R.ok_bind] at h1
  simp only [Int.cast_zero, sub_zero] at h1
  rcases cases_pt A with rfl | ⟨a, b, hon, rfl⟩
  · have hi := (rep_zero_iff.1 hP).1
    have hmi := rep_zero_iff.1 hm
    rw [Pt.add, if_pos hi] at h1
    obtain rfl := Except.ok.inj h1
    rw [Pt.beq] at h3
    simp only [Pt.ofFld, Bool.false_and, Bool.false_eq_true, if_false, hmi.2.1, hmi.2.2, Fld.beq_ofZ,
      decide_true, if_true, hmi.1] at h3
    rcases hq : Pt.curveEq env C P.curve m.curve with e | v
    · rw [hq] at h3; simp at h3
    · rw [hq, R.ok_bind] at h3; simp at h3
  · obtain ⟨hi, hPx, hPy, hl⟩ := (rep_pt_iff hon).1 hP
    obtain ⟨hmi, hmx, hmy, hml⟩ := (rep_pt_iff hon).1 hm
    have hb := y_ne_zero hon
    rw [Pt.add, if_neg (by simp [hi]), if_neg (by simp [Pt.ofFld])] at h1
    rw [show (Pt.ofFld (Fld.ofZ (0 : ZMod C.fp)) (Fld.ofZ (0 : ZMod C.fp)) P.curve).curve = P.curve from rfl,
      cassert_of_eq_true env (curveEq_live (C := C) hl hl), R.ok_bind] at h1
    simp only [Pt.ofFld, hPx, hPy, Fld.beq_ofZ, decide_eq_true_eq, if_neg hb] at h1
    split_ifs at h1 with hz
    · obtain rfl := Except.ok.inj h1
      subst hz
      rw [Pt.beq] at h3
      simp [Pt.infty, Fld.zero_eq, hmi, hmx, hmy, Fld.beq_ofZ, hb.symm] at h3
    · simp only [Fld.sub_ofZ, R.ok_bind, sub_zero, Fld.div_ofZ env b hz, Fld.mul_ofZ] at h1
      obtain rfl := Except.ok.inj h1
      rw [Pt.beq] at h3
      simp only [Bool.false_and, Bool.false_eq_true, if_false, hmx, hmy, Fld.beq_ofZ, decide_eq_true_eq] at h3
      split_ifs at h3 with h4 h5
      · rw [h4] at h5
        apply hb
        have : 2 * b = 0 := by linear_combination -h5
        rcases mul_eq_zero.1 this with h6 | h6
        · exact absurd h6 (two_ne C)
        · exact h6
      · simp at h3
      · simp at h3

/-- subtracting from an infinite point without curve object never gives a comparable result -/
theorem sub_null_ne {P W m : Pt} (hP : P.inf = true) (hc : P.curve = none) {B : Grp C}
    (hW : Rep env W B) : ¬ EqP env C (P.sub env C W) (.ok m) := by
  rintro ⟨x, y, h1, h2, h3⟩
  obtain rfl := Except.ok.inj h2
  rw [Pt.sub] at h1
  rcases hs : cassert env (Pt.curveEq env C P.curve W.curve) with e | u
  · rw [hs] at h1; simp at h1
  rw [hs, R.ok_bind] at h1
  rcases hn : (Fld.mk' C.fp 0).sub env C.fp W.y with e | ny
  · rw [hn] at h1; simp at h1
  rw [hn, R.ok_bind, Pt.add, if_pos hP] at h1
  obtain rfl := Except.ok.inj h1
  rw [Pt.beq] at h3
  simp only [Pt.ofFld, Bool.false_and, Bool.false_eq_true, if_false, hc, Pt.curveEq, deref, R.error_bind] at h3
  split_ifs at h3 <;> simp at h3

/-- cancelling operands give the default infinity -/
theorem add_cancel {P Q : Pt} {A : Grp C} (hP : Rep env P A) (hA : A ≠ 0) (hQ : Rep env Q (-A)) :
    P.add env C Q = .ok (Pt.infty C) := by
  rcases cases_pt A with rfl | ⟨a, b, hon, rfl⟩
  · exact absurd rfl hA
  rw [neg_pt] at hQ
  obtain ⟨hi, hPx, hPy, hl⟩ := (rep_pt_iff hon).1 hP
  obtain ⟨hi', hx', hy', hl'⟩ := (rep_pt_iff _).1 hQ
  have hb := y_ne_zero hon
  have hbb : b ≠ -b := by
    intro h
    have : 2 * b = 0 := by linear_combination h
    rcases mul_eq_zero.1 this with h6 | h6
    · exact absurd h6 (two_ne C)
    · exact hb h6
  rw [Pt.add, if_neg (by simp [hi]), if_neg (by simp [hi']),
    cassert_of_eq_true env (curveEq_live (C := C) hl hl'), R.ok_bind]
  simp [hPx, hPy, hx', hy', Fld.beq_ofZ, hbb]

end generic

namespace Dme

variable {env : Env}

abbrev F := ZMod CC.fn

theorem coin_cast_inj {j k : ℤ} (hj : Coin j) (hk : Coin k) (h : (j : F) = k) : j = k := by
  rw [ZMod.intCast_eq_intCast_iff_dvd_sub] at h
  have ho : CC.order = (CC.fn : ℤ) := by decide
  obtain ⟨h1, h2⟩ := hj
  obtain ⟨h3, h4⟩ := hk
  rw [ho] at h2 h4
  obtain ⟨q, hq⟩ := h
  have : q = 0 := by
    by_contra h0
    rcases lt_or_gt_of_ne h0 with h | h
    · have : (CC.fn : ℤ) * q ≤ (CC.fn : ℤ) * (-1) := by
        apply mul_le_mul_of_nonneg_left (by omega); positivity
      omega
    · have : (CC.fn : ℤ) * 1 ≤ (CC.fn : ℤ) * q := by
        apply mul_le_mul_of_nonneg_left (by omega); positivity
      omega
  rw [this] at hq
  omega

theorem coin_val (k : F) : Coin (k.val : ℤ) := by
  refine ⟨by positivity, ?_⟩
  have ho : CC.order = (CC.fn : ℤ) := by decide
  rw [ho]
  exact_mod_cast ZMod.val_lt k

theorem coin_val_cast (k : F) : (((k.val : ℕ) : ℤ) : F) = k := by simp

/-- group elements denoted by a CRS -/
structure RepCrs (env : Env) (c : Crs) (g h : Branch → Grp CC) : Prop where
  g : ∀ b, Rep env (c.g b) (g b)
  h : ∀ b, Rep env (c.h b) (h b)

theorem ValidCrs.rep {c : Crs} (h : ValidCrs env c) : ∃ g k, RepCrs env c g k := by
  obtain ⟨A, hA⟩ := valid_iff.1 h.g0
  obtain ⟨B, hB⟩ := valid_iff.1 h.g1
  obtain ⟨A', hA'⟩ := valid_iff.1 h.h0
  obtain ⟨B', hB'⟩ := valid_iff.1 h.h1
  refine ⟨fun b => match b with | .b0 => A | .b1 => B, fun b => match b with | .b0 => A' | .b1 => B', ?_, ?_⟩
  · rintro (_ | _)
    · exact hA
    · exact hB
  · rintro (_ | _)
    · exact hA'
    · exact hB'

theorem RepCrs.valid {c : Crs} {g h : Branch → Grp CC} (r : RepCrs env c g h) : ValidCrs env c :=
  ⟨(r.g .b0).valid, (r.g .b1).valid, (r.h .b0).valid, (r.h .b1).valid⟩

theorem RepCrs.congr {c d : Crs} {g h : Branch → Grp CC} (r : RepCrs env c g h) (hs : SameCrs c d)
    (hv : ValidCrs env d) : RepCrs env d g h := by
  constructor
  · rintro (_ | _)
    · exact (r.g .b0).congr hs.g0 hv.g0
    · exact (r.g .b1).congr hs.g1 hv.g1
  · rintro (_ | _)
    · exact (r.h .b0).congr hs.h0 hv.h0
    · exact (r.h .b1).congr hs.h1 hv.h1

theorem keyGen_rep {d : Inst} (hl : Live env d.curve) {g h : Branch → Grp CC} (hc : RepCrs env d.crs g h)
    (b : Branch) (k : ℤ) :
    ∃ pg ph, keyGen env d b k = .ok ⟨⟨pg, ph⟩, Fld.ofZ (k : F)⟩ ∧ Rep env pg ((k : F) • g b) ∧
      Rep env ph ((k : F) • h b) := by
  obtain ⟨P, h1, h2⟩ := smulF_rep (hc.g b) (k : F)
  obtain ⟨Q, h3, h4⟩ := smulF_rep (hc.h b) (k : F)
  exact ⟨P, Q, by simp only [keyGen, getRandomScalar_ok hl, R.ok_bind, h1, h3], h2, h4⟩

theorem enc_rep {d : Inst} (hl : Live env d.curve) {g h : Branch → Grp CC} (hc : RepCrs env d.crs g h)
    {pk : PKey} {A B M : Grp CC} (hA : Rep env pk.g A) (hB : Rep env pk.h B) {m : Pt} (hm : Rep env m M)
    (b : Branch) (s t : ℤ) :
    ∃ c v, enc env d pk b m s t = .ok c ∧ Rep env c.u ((s : F) • g b + (t : F) • h b) ∧
      Rep env v ((s : F) • A + (t : F) • B) ∧ v.add env CC m = .ok c.mv ∧
      Rep env c.mv ((s : F) • A + (t : F) • B + M) := by
  obtain ⟨P1, h1, r1⟩ := smulF_rep hA (s : F)
  obtain ⟨P2, h2, r2⟩ := smulF_rep hB (t : F)
  obtain ⟨v, h3, r3⟩ := add_rep r1 r2
  obtain ⟨P4, h4, r4⟩ := smulF_rep (hc.g b) (s : F)
  obtain ⟨P5, h5, r5⟩ := smulF_rep (hc.h b) (t : F)
  obtain ⟨u, h6, r6⟩ := add_rep r4 r5
  obtain ⟨mv, h7, r7⟩ := add_rep r3 hm
  exact ⟨⟨u, mv⟩, v, by simp only [enc, getRandomScalar_ok hl, R.ok_bind, h1, h2, h3, h4, h5, h6, h7], r6, r3, h7, r7⟩

theorem dec_rep {c : Ctxt} {U V : Grp CC} (hU : Rep env c.u U) (hV : Rep env c.mv V) {k : F}
    (h1 : k • U ≠ 0) (h2 : V ≠ 0) : ∃ m, dec env (Fld.ofZ k) c = .ok m ∧ Rep env m (V - k • U) := by
  obtain ⟨w, h3, r3⟩ := smulF_rep hU k
  obtain ⟨m, h4, r4⟩ := sub_rep hV r3 h2 h1
  exact ⟨m, by simp only [dec, h3, R.ok_bind, h4], r4⟩

/-- when the mask is infinity the message never comes back -/
theorem dec_zero_ne {c : Ctxt} {U V : Grp CC} (hU : Rep env c.u U) (hV : Rep env c.mv V) {k : F}
    (h1 : k • U = 0) {m : Pt} (hm : Rep env m V) : ¬ EqP env CC (dec env (Fld.ofZ k) c) (.ok m) := by
  obtain ⟨w, h3, r3⟩ := smulF_rep hU k
  rw [h1] at r3
  simp only [dec, h3, R.ok_bind]
  exact sub_inf_ne hV r3 hm

/-- the exact condition under which a ciphertext of the form `(U, v + M)` with `v = k U` decrypts -/
theorem dec_iff {c : Ctxt} {U M : Grp CC} {k : F} (hU : Rep env c.u U) {v m : Pt} (hv : Rep env v (k • U))
    (hm : Rep env m M) (hadd : v.add env CC m = .ok c.mv) :
    EqP env CC (dec env (Fld.ofZ k) c) (.ok m) ↔ c.u.inf = false ∧ k ≠ 0 ∧ c.mv.inf = false := by
  obtain ⟨mv, h7, r7⟩ := add_rep hv hm
  rw [hadd] at h7
  obtain rfl := Except.ok.inj h7
  by_cases hkU : k • U = 0
  · refine iff_of_false ?_ ?_
    · rw [hkU, zero_add] at r7
      exact dec_zero_ne hU r7 hkU hm
    · rintro ⟨h1, h2, -⟩
      rcases smul_eq_zero.1 hkU with h | h
      · exact h2 h
      · have := (rep_inf hU).2 h
        rw [h1] at this
        simp at this
  · by_cases hV : k • U + M = 0
    · refine iff_of_false ?_ ?_
      · have hm' : Rep env m (-(k • U)) := by
          rwa [← (eq_neg_of_add_eq_zero_right hV)]
        have hinf := add_cancel hv hkU hm'
        rw [hadd] at hinf
        have hmv := Except.ok.inj hinf
        obtain ⟨w, h3, r3⟩ := smulF_rep hU k
        simp only [dec, h3, R.ok_bind]
        exact sub_null_ne (by rw [hmv]; rfl) (by rw [hmv]; rfl) r3
      · rintro ⟨-, -, h⟩
        have := (rep_inf r7).2 hV
        rw [h] at this
        simp at this
    · refine iff_of_true ?_ ?_
      · obtain ⟨x, h1, h2⟩ := dec_rep hU r7 hkU hV
        exact eqP_of_rep ⟨x, h1, h2⟩ ⟨m, rfl, hm⟩ (by abel)
      · refine ⟨rep_inf_false hU ?_, ?_, rep_inf_false r7 hV⟩
        · rintro rfl; simp at hkU
        · rintro rfl; simp at hkU

theorem eqP_ok_iff {P Q : Pt} {A B : Grp CC} (hP : Rep env P A) (hQ : Rep env Q B) :
    EqP env CC (.ok P) (.ok Q) ↔ A = B := by
  constructor
  · rintro ⟨x, y, h1, h2, h3⟩
    obtain rfl := Except.ok.inj h1
    obtain rfl := Except.ok.inj h2
    rw [rep_beq hP hQ] at h3
    simpa using h3
  · intro h
    exact eqP_of_rep ⟨P, rfl, hP⟩ ⟨Q, rfl, hQ⟩ h

theorem eqP_res_iff {r : R Pt} {Q : Pt} {A B : Grp CC} (hr : ∃ P, r = .ok P ∧ Rep env P A) (hQ : Rep env Q B) :
    EqP env CC r (.ok Q) ↔ A = B := by
  obtain ⟨P, rfl, hP⟩ := hr
  exact eqP_ok_iff hP hQ

theorem dhPair_iff {crs : Crs} {g h : Branch → Grp CC} (hc : RepCrs env crs g h)
    {pk : PKey} {A B : Grp CC} (hA : Rep env pk.g A) (hB : Rep env pk.h B) (b : Branch) :
    DhPair env crs pk b ↔ ∃ k : F, A = k • g b ∧ B = k • h b := by
  constructor
  · rintro ⟨k, h1, h2⟩
    rw [eqP_res_iff (smulI_rep (hc.g b) k) hA] at h1
    rw [eqP_res_iff (smulI_rep (hc.h b) k) hB] at h2
    exact ⟨k, h1.symm, h2.symm⟩
  · rintro ⟨k, h1, h2⟩
    refine ⟨k.val, ?_, ?_⟩
    · rw [eqP_res_iff (smulI_rep (hc.g b) _) hA, h1, coin_val_cast]
    · rw [eqP_res_iff (smulI_rep (hc.h b) _) hB, h2, coin_val_cast]

/-- every pair of points is hit by exactly one pair of scalars iff the four elements are independent -/
theorem hides_iff_det {d : Inst} (hl : LiveGen env d.curve) {g h : Branch → Grp CC} (hc : RepCrs env d.crs g h)
    {pk : PKey} {A B : Grp CC} (hA : Rep env pk.g A) (hB : Rep env pk.h B) (b : Branch) :
    Hides env d pk b ↔ ¬ DhPair env d.crs pk b ∧ ¬ (g b = 0 ∧ h b = 0) := by
  have hkey : ∀ {m u mv : Pt} {M U V : Grp CC}, Rep env m M → Rep env u U → Rep env mv V → ∀ s t : ℤ,
      ((∃ c, enc env d pk b m s t = .ok c ∧ SamePoint c.u u ∧ SamePoint c.mv mv) ↔
        (s : F) • g b + (t : F) • h b = U ∧ (s : F) • A + (t : F) • B + M = V) := by
    intro m u mv M U V hm hu hmv s t
    obtain ⟨c, v, h1, h2, -, -, h3⟩ := enc_rep hl.live hc hA hB hm b s t
    constructor
    · rintro ⟨c', h1', h4, h5⟩
      rw [h1] at h1'
      obtain rfl := Except.ok.inj h1'
      exact ⟨(samePoint_iff h2 hu).1 h4, (samePoint_iff h3 hmv).1 h5⟩
    · rintro ⟨h4, h5⟩
      exact ⟨c, h1, (samePoint_iff h2 hu).2 h4, (samePoint_iff h3 hmv).2 h5⟩
  obtain ⟨gen, -, hgen⟩ := getDefaultGen_rep (C := CC) hl
  have hinf := rep_infty (env := env) (C := CC)
  have hG : (G : Grp CC) ≠ 0 := G_ne_zero
  constructor
  · intro hh
    constructor
    · intro hdh
      obtain ⟨k, rfl, rfl⟩ := (dhPair_iff hc hA hB b).1 hdh
      obtain ⟨⟨s, t⟩, ⟨-, h1⟩, -⟩ := hh (Pt.infty CC) gen (Pt.infty CC) hinf.valid hgen.valid hinf.valid
      obtain ⟨h2, h3⟩ := (hkey hinf hinf hgen s t).1 h1
      apply hG
      rw [← h3, add_zero, smul_comm (s : F) k, smul_comm (t : F) k, ← smul_add, h2, smul_zero]
    · rintro ⟨h0, h0'⟩
      obtain ⟨⟨s, t⟩, ⟨-, h1⟩, -⟩ := hh gen (Pt.infty CC) (Pt.infty CC) hgen.valid hinf.valid hinf.valid
      obtain ⟨h2, -⟩ := (hkey hinf hgen hinf s t).1 h1
      rw [h0, h0'] at h2
      apply hG
      rw [← h2]; simp
  · rintro ⟨hdh, hnz⟩ u mv m hu hmv hm
    rw [dhPair_iff hc hA hB] at hdh
    obtain ⟨U, hU⟩ := valid_iff.1 hu
    obtain ⟨V, hV⟩ := valid_iff.1 hmv
    obtain ⟨M, hM⟩ := valid_iff.1 hm
    obtain ⟨a, ha⟩ := exists_smul hG (g b)
    obtain ⟨c, hc'⟩ := exists_smul hG (h b)
    obtain ⟨p, hp⟩ := exists_smul hG A
    obtain ⟨q, hq⟩ := exists_smul hG B
    obtain ⟨x, hx⟩ := exists_smul hG U
    obtain ⟨w, hw⟩ := exists_smul hG (V - M)
    have hdet : a * q - c * p ≠ 0 := by
      intro h0
      apply hdh
      by_cases ha0 : a = 0
      · have hc0 : c ≠ 0 := by
          rintro rfl; apply hnz; rw [ha, hc', ha0]; simp
        refine ⟨q / c, ?_, ?_⟩
        · rw [hp, ha, smul_smul, smul_inj hG]
          rw [ha0] at h0 ⊢
          have : c * p = 0 := by linear_combination -h0
          rcases mul_eq_zero.1 this with h | h
          · exact absurd h hc0
          · simp [h]
        · rw [hq, hc', smul_smul, smul_inj hG]
          field_simp
      · refine ⟨p / a, ?_, ?_⟩
        · rw [hp, ha, smul_smul, smul_inj hG]
          field_simp
        · rw [hq, hc', smul_smul, smul_inj hG]
          field_simp
          linear_combination h0
    have hlin : ∀ s t : F, (s • g b + t • h b = U ∧ s • A + t • B + M = V) ↔
        (s * a + t * c = x ∧ s * p + t * q = w) := by
      intro s t
      have e1 : s • g b + t • h b = (s * a + t * c) • (G : Grp CC) := by rw [ha, hc']; module
      have e2 : s • A + t • B = (s * p + t * q) • (G : Grp CC) := by rw [hp, hq]; module
      rw [e1, e2, ← eq_sub_iff_add_eq, hx, hw, smul_inj hG, smul_inj hG]
    have hsol : ∀ s t : F, (s * a + t * c = x ∧ s * p + t * q = w) ↔
        (s = (x * q - c * w) / (a * q - c * p) ∧ t = (a * w - p * x) / (a * q - c * p)) := by
      intro s t
      rw [eq_div_iff hdet, eq_div_iff hdet]
      constructor
      · rintro ⟨rfl, rfl⟩
        constructor <;> ring
      · rintro ⟨h1, h2⟩
        constructor
        · apply mul_right_cancel₀ hdet
          linear_combination a * h1 + c * h2
        · apply mul_right_cancel₀ hdet
          linear_combination p * h1 + q * h2
    refine ⟨(((x * q - c * w) / (a * q - c * p)).val, ((a * w - p * x) / (a * q - c * p)).val),
      ⟨⟨coin_val _, coin_val _⟩, ?_⟩, ?_⟩
    · rw [hkey hM hU hV, hlin, hsol]
      exact ⟨coin_val_cast _, coin_val_cast _⟩
    · rintro ⟨s, t⟩ ⟨⟨h1, h2⟩, h3⟩
      simp only at h1 h2 h3
      rw [hkey hM hU hV, hlin, hsol] at h3
      ext
      · exact coin_cast_inj h1 (coin_val _) (by rw [coin_val_cast]; exact h3.1)
      · exact coin_cast_inj h2 (coin_val _) (by rw [coin_val_cast]; exact h3.2)

theorem eval_rep {c d : Ctxt} {U V U' V' : Grp CC} (h1 : Rep env c.u U) (h2 : Rep env c.mv V)
    (h3 : Rep env d.u U') (h4 : Rep env d.mv V') :
    ∃ e, eval env c d = .ok e ∧ Rep env e.u (U + U') ∧ Rep env e.mv (V + V') := by
  obtain ⟨P, a1, a2⟩ := add_rep h1 h3
  obtain ⟨Q, b1, b2⟩ := add_rep h2 h4
  exact ⟨⟨P, Q⟩, by simp only [eval, a1, b1, R.ok_bind], a2, b2⟩

theorem ctorMessy_rep {c : Option Addr} (hl : LiveGen env c) (k : MessyCoins) :
    ∃ d, ctorMessy env c k = .ok d ∧ d.curve = c ∧ d.e0 = Fld.ofZ (k.e0 : F) ∧ d.e1 = Fld.ofZ (k.e1 : F) ∧
      RepCrs env d.crs
        (fun b => match b with | .b0 => (k.g0 : F) • (G : Grp CC) | .b1 => (k.g1 : F) • (G : Grp CC))
        (fun b => match b with
          | .b0 => (k.e0 : F) • (k.g0 : F) • (G : Grp CC)
          | .b1 => (k.e1 : F) • (k.g1 : F) • (G : Grp CC)) := by
  obtain ⟨P, a1, a2⟩ := randomPoint_rep (C := CC) hl k.g0
  obtain ⟨Q, b1, b2⟩ := randomPoint_rep (C := CC) hl k.g1
  obtain ⟨S, c1, c2⟩ := smulF_rep a2 (k.e0 : F)
  obtain ⟨T, d1, d2⟩ := smulF_rep b2 (k.e1 : F)
  refine ⟨_, by simp only [ctorMessy, getRandomScalar_ok hl.live, R.ok_bind, a1, b1, c1, d1]; rfl, rfl, rfl, rfl,
    ?_, ?_⟩
  · rintro (_ | _)
    · exact a2
    · exact b2
  · rintro (_ | _)
    · exact c2
    · exact d2

theorem ctorDec_rep {c : Option Addr} (hl : LiveGen env c) (k : DecCoins) :
    ∃ d, ctorDec env c k = .ok d ∧ d.curve = c ∧ d.y = Fld.ofZ (k.y : F) ∧
      RepCrs env d.crs
        (fun b => match b with
          | .b0 => (k.g0 : F) • (G : Grp CC)
          | .b1 => (k.y : F) • (k.g0 : F) • (G : Grp CC))
        (fun b => match b with
          | .b0 => (k.e : F) • (k.g0 : F) • (G : Grp CC)
          | .b1 => (k.e : F) • (k.y : F) • (k.g0 : F) • (G : Grp CC)) := by
  obtain ⟨P, a1, a2⟩ := randomPoint_rep (C := CC) hl k.g0
  obtain ⟨Q, b1, b2⟩ := smulF_rep a2 (k.y : F)
  obtain ⟨S, c1, c2⟩ := smulF_rep a2 (k.e : F)
  obtain ⟨T, d1, d2⟩ := smulF_rep b2 (k.e : F)
  refine ⟨_, by simp only [ctorDec, getRandomScalar_ok hl.live, R.ok_bind, a1, b1, c1, d1]; rfl, rfl, rfl,
    ?_, ?_⟩
  · rintro (_ | _)
    · exact a2
    · exact b2
  · rintro (_ | _)
    · exact c2
    · exact d2

/-- a fresh pointer makes the points of a CRS usable again -/
theorem rep_setCurve {P : Pt} (h : OnCurve CC P) {c : Option Addr} (hl : Live env c) :
    Valid env CC { P with curve := c } ∧ SamePoint P { P with curve := c } := by
  rcases h with h | ⟨h1, h2, h3, h4⟩
  · exact ⟨.inl ⟨h.flag, h.x, h.y⟩, .inl ⟨h.flag, h.flag⟩⟩
  · exact ⟨.inr ⟨h1, h2, h3, h4, hl⟩, .inr ⟨h1, h1, rfl, rfl⟩⟩

/-! ### Encoding -/

theorem isAbscissa_iff (x : ℤ) : IsAbscissa x ↔ root CC (x : ZMod CC.fp) * root CC x = rhs CC x := by
  rw [root_sq_iff]
  constructor
  · rintro ⟨y, hy⟩
    refine ⟨(y : ZMod CC.fp), ?_⟩
    unfold CurveEq at hy
    rw [GoodCurve0.prime_eq, ← ZMod.intCast_eq_intCast_iff] at hy
    unfold On
    push_cast at hy
    rw [sq, hy]; ring
  · rintro ⟨y, hy⟩
    refine ⟨y.val, ?_⟩
    unfold CurveEq
    rw [GoodCurve0.prime_eq, ← ZMod.intCast_eq_intCast_iff]
    unfold On at hy
    push_cast
    rw [ZMod.natCast_zmod_val, ← sq, hy]; ring

theorem encodeLoop_ok {c : Option Addr} (hc : Live env c) (k : ℕ) : ∀ (fuel : ℕ) (res : ℤ) (msg : Pt),
    k < fuel → msg.inf = true → (∀ i < k, ¬ IsAbscissa (res + i)) → IsAbscissa (res + k) →
    ∃ P, encodeLoop env c fuel res msg = .ok P ∧ P.inf = false ∧ P.curve = c ∧
      P.x = Fld.mk' CC.fp (res + k) ∧ IsFinite env CC P := by
  induction k with
  | zero =>
    intro fuel res msg hf hm _ ha
    obtain ⟨f, rfl⟩ : ∃ f, fuel = f + 1 := ⟨fuel - 1, by omega⟩
    simp only [Nat.cast_zero, add_zero] at ha ⊢
    have ha' := (isAbscissa_iff res).1 ha
    rw [encodeLoop, if_pos hm, Fld.mk'_eq, evaluateP_ok hc, if_pos ha', R.ok_bind]
    have hr := rep_ofFld (on_root ha') hc
    refine ⟨_, ?_, rfl, rfl, rfl, hr.finite (pt_ne_zero _)⟩
    cases f <;> simp [encodeLoop, Pt.ofFld]
  | succ k ih =>
    intro fuel res msg hf hm hno ha
    obtain ⟨f, rfl⟩ : ∃ f, fuel = f + 1 := ⟨fuel - 1, by omega⟩
    have h0 := hno 0 (by omega)
    simp only [Nat.cast_zero, add_zero] at h0
    rw [isAbscissa_iff] at h0
    rw [encodeLoop, if_pos hm, Fld.mk'_eq, evaluateP_ok hc, if_neg h0, R.ok_bind]
    have e : res + ((k + 1 : ℕ) : ℤ) = res + 1 + k := by push_cast; ring
    rw [e] at ha ⊢
    exact ih f (res + 1) _ (by omega) rfl (fun i hi => by
      have := hno (i + 1) (by omega)
      have e : res + ((i + 1 : ℕ) : ℤ) = res + 1 + i := by push_cast; ring
      rwa [e] at this) ha

theorem exists_abscissa (res : ℤ) : ∃ k : ℕ, k < CC.fp ∧ IsAbscissa (res + k) := by
  have hp : (0 : ℤ) < CC.fp := by decide
  refine ⟨((CC.gx - res) % (CC.fp : ℤ)).toNat, ?_, ?_⟩
  · have h1 := Int.emod_nonneg (CC.gx - res) hp.ne'
    have h2 := Int.emod_lt_of_pos (CC.gx - res) hp
    omega
  · have h1 := Int.emod_nonneg (CC.gx - res) hp.ne'
    rw [Int.toNat_of_nonneg h1, isAbscissa_iff]
    have : ((res + (CC.gx - res) % (CC.fp : ℤ) : ℤ) : ZMod CC.fp) = (CC.gx : ZMod CC.fp) := by
      push_cast
      simp
    rw [this, ← isAbscissa_iff]
    exact ⟨CC.gy, by unfold CurveEq Int.ModEq; decide +kernel⟩

/-- `encode` finds the first abscissa at or after `1024 m` -/
theorem encode_ok {d : Inst} (hl : Live env d.curve) (m : ℤ) :
    ∃ (k : ℕ) (P : Pt), k < CC.fp ∧ IsAbscissa (m * 2 ^ 10 + k) ∧ (∀ i < k, ¬ IsAbscissa (m * 2 ^ 10 + i)) ∧
      encode env d m = .ok P ∧ P.curve = d.curve ∧ P.x = Fld.mk' CC.fp (m * 2 ^ 10 + k) ∧ IsFinite env CC P := by
  classical
  obtain ⟨k0, hk0, ha0⟩ := exists_abscissa (m * 2 ^ 10)
  have hex : ∃ k : ℕ, IsAbscissa (m * 2 ^ 10 + k) := ⟨k0, ha0⟩
  have hle : Nat.find hex ≤ k0 := Nat.find_min' hex ha0
  obtain ⟨P, h1, h2, h3, h4, h5⟩ := encodeLoop_ok hl (Nat.find hex) CC.fp (m * 2 ^ 10) (Pt.infty CC)
    (lt_of_le_of_lt hle hk0) rfl (fun i hi => Nat.find_min hex hi) (Nat.find_spec hex)
  exact ⟨Nat.find hex, P, lt_of_le_of_lt hle hk0, Nat.find_spec hex, fun i hi => Nat.find_min hex hi, h1, h3, h4, h5⟩

end Dme
end Verif
