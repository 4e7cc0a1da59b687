import Mathlib.Algebra.BigOperators.Group.List.Basic
import Verif.Spec.Puda
import Verif.Lemmas.GrpModule

/-!
# PUDA in terms of the group
-/

namespace Verif
namespace Puda

open EC

variable {env : Env}

abbrev F := ZMod CC.fn

/-- the group elements of the public parameters -/
structure RepParam (env : Env) (pp : Param) (H : Grp CC) : Prop where
  g1 : Rep env pp.g1 (G : Grp CC)
  g2 : Rep env pp.g2 (G : Grp CC)
  hash : Rep env pp.hash H

theorem setupLoop_ok {pp : Param} (hl : Live env pp.curve1) (a : ℤ) (us : List (ℤ × ℤ)) (ekv : List Fld)
    (skv : List SignKey) (x y : F) :
    setupLoop env pp a us ekv skv (Fld.ofZ x) (Fld.ofZ y) =
      .ok (ekv ++ us.map (fun u : ℤ × ℤ => Fld.ofZ (u.1 : F)), skv ++ us.map (fun u : ℤ × ℤ => ⟨a, Fld.ofZ (u.2 : F)⟩),
        Fld.ofZ (x - (us.map fun u : ℤ × ℤ => (u.1 : F)).sum), Fld.ofZ (y + (us.map fun u : ℤ × ℤ => (u.2 : F)).sum)) := by
  induction us generalizing ekv skv x y with
  | nil => simp [setupLoop]
  | cons u us ih =>
    obtain ⟨ke, kt⟩ := u
    simp only [setupLoop, getRandomScalar_ok hl, R.ok_bind, Fld.subAssign_ofZ, Fld.addAssign_ofZ, ih]
    simp [sub_sub, add_assoc]

theorem setup_rep {pp : Param} (hl1 : LiveGen env pp.curve1) (hl2 : LiveGen env pp.curve2) (k : Coins) :
    ∃ pp' v1 v2, setup env pp k = .ok (pp', ⟨k.users.map (fun u : ℤ × ℤ => Fld.ofZ (u.1 : F)),
        k.users.map (fun u : ℤ × ℤ => ⟨(((k.a : F)).val : ℤ), Fld.ofZ (u.2 : F)⟩),
        Fld.ofZ (-(k.users.map fun u : ℤ × ℤ => (u.1 : F)).sum), ⟨v1, v2⟩⟩) ∧
      RepParam env pp' ((k.hash : F) • G) ∧
      Rep env v1 ((k.users.map fun u : ℤ × ℤ => (u.2 : F)).sum • (G : Grp CC)) ∧
      Rep env v2 ((k.a : F) • (G : Grp CC)) := by
  obtain ⟨g1, a1, a2⟩ := getDefaultGen_rep (C := CC) hl1
  obtain ⟨g2, b1, b2⟩ := getDefaultGen_rep (C := CC) hl2
  obtain ⟨h, c1, c2⟩ := randomPoint_rep (C := CC) hl1 k.hash
  obtain ⟨v1, d1, d2⟩ := smulF_rep b2 ((k.users.map fun u : ℤ × ℤ => (u.2 : F)).sum)
  obtain ⟨v2, f1, f2⟩ := smulI_rep b2 (((k.a : F)).val : ℤ)
  refine ⟨⟨pp.curve1, pp.curve2, g1, g2, h⟩, v1, v2, ?_, ⟨a2, b2, c2⟩, d2, ?_⟩
  · simp only [setup, a1, b1, c1, R.ok_bind, getRandomScalar_ok hl1.live, Fld.getRawValue, Fld.ofZ_value]
    rw [Fld.mk'_eq, Fld.zero_eq, setupLoop_ok (pp := ⟨pp.curve1, pp.curve2, g1, g2, h⟩) hl1.live]
    simp only [R.ok_bind, Int.cast_zero, zero_sub, zero_add, List.nil_append, d1, f1]
  · simpa using f2

theorem enc_rep {pp : Param} {H : Grp CC} (r : RepParam env pp H) (ek : F) (m : Msg) (t : ℤ) :
    ∃ c, enc env pp (Fld.ofZ ek) m t = .ok c ∧ Rep env c (ek • (t : F) • H + ((m.val : ℕ) : F) • (G : Grp CC)) := by
  obtain ⟨x, a1, a2⟩ := smulI_rep r.hash t
  obtain ⟨y, b1, b2⟩ := smulF_rep a2 ek
  obtain ⟨z, c1, c2⟩ := smulI_rep r.g1 (m.val : ℤ)
  obtain ⟨c, d1, d2⟩ := add_rep b2 c2
  refine ⟨c, by simp only [enc, a1, b1, c1, d1, R.ok_bind], by simpa using d2⟩

theorem tag_rep {pp : Param} {H : Grp CC} (r : RepParam env pp H) (a : ℤ) (tk : F) (m : Msg) (t : ℤ) :
    ∃ c, tag env pp ⟨a, Fld.ofZ tk⟩ m t = .ok c ∧
      Rep env c (tk • (t : F) • H + ((m.val : ℕ) : F) • (a : F) • (G : Grp CC)) := by
  obtain ⟨x, a1, a2⟩ := smulI_rep r.hash t
  obtain ⟨y, b1, b2⟩ := smulF_rep a2 tk
  obtain ⟨z, c1, c2⟩ := smulI_rep r.g1 a
  obtain ⟨w, e1, e2⟩ := smulI_rep c2 (m.val : ℤ)
  obtain ⟨c, d1, d2⟩ := add_rep b2 e2
  refine ⟨c, by simp only [tag, a1, b1, c1, e1, d1, R.ok_bind], by simpa using d2⟩

theorem encAll_rep {pp : Param} {H : Grp CC} (r : RepParam env pp H) (t : ℤ) (us : List (ℤ × ℤ)) (ms : List Msg)
    (hlen : us.length = ms.length) :
    ∃ cs As, encAll env pp t ((us.map fun u : ℤ × ℤ => Fld.ofZ (u.1 : F)).zip ms) = .ok cs ∧
      List.Forall₂ (Rep env) cs As ∧
      As.sum = (us.map fun u : ℤ × ℤ => (u.1 : F)).sum • (t : F) • H + ((total ms : ℕ) : F) • (G : Grp CC) := by
  induction us generalizing ms with
  | nil =>
    obtain rfl : ms = [] := by simpa using hlen.symm
    exact ⟨[], [], rfl, .nil, by simp [total, zero_smulG]⟩
  | cons u us ih =>
    obtain ⟨m, ms, rfl⟩ : ∃ m ms', ms = m :: ms' := by cases ms <;> simp at hlen ⊢
    obtain ⟨cs, As, h1, h2, h3⟩ := ih ms (by simpa using hlen)
    obtain ⟨c, f1, f2⟩ := enc_rep r (u.1 : F) m t
    refine ⟨c :: cs, _ :: As, ?_, .cons f2 h2, ?_⟩
    · simp only [List.map_cons, List.zip_cons_cons, encAll, f1, h1, R.ok_bind]
    · rw [List.sum_cons, h3]
      simp only [total, List.map_cons, List.sum_cons, Nat.cast_add]
      module

theorem tagAll_rep {pp : Param} {H : Grp CC} (r : RepParam env pp H) (a : ℤ) (t : ℤ) (us : List (ℤ × ℤ))
    (ms : List Msg) (hlen : us.length = ms.length) :
    ∃ cs As, tagAll env pp t ((us.map fun u : ℤ × ℤ => (⟨a, Fld.ofZ (u.2 : F)⟩ : SignKey)).zip ms) = .ok cs ∧
      List.Forall₂ (Rep env) cs As ∧
      As.sum = (us.map fun u : ℤ × ℤ => (u.2 : F)).sum • (t : F) • H + ((total ms : ℕ) : F) • (a : F) • (G : Grp CC) := by
  induction us generalizing ms with
  | nil =>
    obtain rfl : ms = [] := by simpa using hlen.symm
    exact ⟨[], [], rfl, .nil, by simp [total, zero_smulG]⟩
  | cons u us ih =>
    obtain ⟨m, ms, rfl⟩ : ∃ m ms', ms = m :: ms' := by cases ms <;> simp at hlen ⊢
    obtain ⟨cs, As, h1, h2, h3⟩ := ih ms (by simpa using hlen)
    obtain ⟨c, f1, f2⟩ := tag_rep r a (u.2 : F) m t
    refine ⟨c :: cs, _ :: As, ?_, .cons f2 h2, ?_⟩
    · simp only [List.map_cons, List.zip_cons_cons, tagAll, f1, h1, R.ok_bind]
    · rw [List.sum_cons, h3]
      simp only [total, List.map_cons, List.sum_cons, Nat.cast_add]
      module

theorem sumLoop_rep {c : Pt} {A : Grp CC} (hc : Rep env c A) {cs : List Pt} {As : List (Grp CC)}
    (h : List.Forall₂ (Rep env) cs As) : ∃ s, sumLoop env c cs = .ok s ∧ Rep env s (A + As.sum) := by
  induction h generalizing c A with
  | nil => exact ⟨c, rfl, by simpa using hc⟩
  | cons h _ ih =>
    obtain ⟨c', e1, e2⟩ := add_rep hc h
    obtain ⟨s, e3, e4⟩ := ih e2
    exact ⟨s, by simp only [sumLoop, e1, R.ok_bind, e3], by rw [List.sum_cons, ← add_assoc]; exact e4⟩

/-- the loop finds the discrete logarithm if it is in reach -/
theorem dlogLoop_ok {pp : Param} {H : Grp CC} (r : RepParam env pp H) {c : Pt} {x : F}
    (hc : Rep env c (x • (G : Grp CC))) (left i : ℕ) (hi : i + left ≤ 65535) (hx : i ≤ x.val) :
    dlogLoop env pp c left i = .ok (if x.val < i + left then Fin.ofNat 65536 x.val else 0) := by
  induction left generalizing i with
  | zero => simp [dlogLoop, Nat.not_lt.2 hx]
  | succ left ih =>
    obtain ⟨z, e1, e2⟩ := smulI_rep r.g1 (i : ℤ)
    have hfn : 65536 < CC.fn := by decide
    have hiff : ((i : ℤ) : F) • (G : Grp CC) = x • (G : Grp CC) ↔ x.val = i := by
      rw [smul_inj G_ne_zero, Int.cast_natCast]
      constructor
      · rintro h
        rw [← h, ZMod.val_natCast, Nat.mod_eq_of_lt (by omega)]
      · intro h
        rw [← h, ZMod.natCast_zmod_val]
    simp only [dlogLoop, e1, R.ok_bind, rep_beq e2 hc, hiff, decide_eq_true_eq]
    by_cases h : x.val = i
    · rw [if_pos h, if_pos (by omega), h]
    · rw [if_neg h, ih (i + 1) (by omega) (by omega)]
      congr 1
      rw [show i + 1 + left = i + (left + 1) by omega]

theorem computeDlog_ok {pp : Param} {H : Grp CC} (r : RepParam env pp H) {c : Pt} {x : F}
    (hc : Rep env c (x • (G : Grp CC))) :
    computeDlog env pp c = .ok (if x.val < 65535 then Fin.ofNat 65536 x.val else 0) := by
  rw [computeDlog, dlogLoop_ok r hc 65535 0 (by omega) (by omega)]

theorem agg_rep {pp : Param} {H : Grp CC} (r : RepParam env pp H) (ak : F) {cs tags : List Pt}
    {As Ts : List (Grp CC)} (hcs : List.Forall₂ (Rep env) cs As) (hts : List.Forall₂ (Rep env) tags Ts) (t : ℤ) {x : F}
    (hx : As.sum + ak • (t : F) • H = x • (G : Grp CC)) :
    ∃ tg, agg env pp (Fld.ofZ ak) cs tags t = .ok ((if x.val < 65535 then Fin.ofNat 65536 x.val else 0), tg) ∧
      Rep env tg Ts.sum := by
  obtain ⟨c, a1, a2⟩ := sumLoop_rep (rep_infty (env := env) (C := CC)) hcs
  obtain ⟨tg, b1, b2⟩ := sumLoop_rep (rep_infty (env := env) (C := CC)) hts
  obtain ⟨ht, c1, c2⟩ := smulI_rep r.hash t
  obtain ⟨y, d1, d2⟩ := smulF_rep c2 ak
  obtain ⟨z, e1, e2⟩ := add_rep a2 d2
  rw [zero_add] at b2 e2
  rw [hx] at e2
  exact ⟨tg, by simp only [agg, a1, b1, c1, d1, e1, computeDlog_ok r e2, R.ok_bind], b2⟩

/-- a pairing seen on the group -/
theorem Pairing.hom {A : Type} [AddCommGroup A] {e : Pt → Pt → A} (he : Pairing env e) {c : Option Addr}
    (hl : LiveGen env c) :
    ∃ E : Grp CC →+ Grp CC →+ A, ∀ P Q (X Y : Grp CC), Rep env P X → Rep env Q Y → e P Q = E X Y := by
  have hex : ∀ X : Grp CC, ∃ P, Rep env P X := by
    intro X
    obtain ⟨k, hk⟩ := exists_smul (C := CC) G_ne_zero X
    obtain ⟨g, -, hg⟩ := getDefaultGen_rep (C := CC) hl
    obtain ⟨P, -, hP⟩ := smulF_rep hg k
    exact ⟨P, by rwa [← hk] at hP⟩
  choose f hf using hex
  have hc : ∀ P Q (X Y : Grp CC), Rep env P X → Rep env Q Y → e P Q = e (f X) (f Y) := by
    intro P Q X Y hP hQ
    exact he.congr _ _ _ _ hP.valid (hf X).valid hQ.valid (hf Y).valid ((samePoint_iff hP (hf X)).2 rfl)
      ((samePoint_iff hQ (hf Y)).2 rfl)
  have hleft : ∀ X X' Y : Grp CC, e (f (X + X')) (f Y) = e (f X) (f Y) + e (f X') (f Y) := by
    intro X X' Y
    obtain ⟨S, s1, s2⟩ := add_rep (hf X) (hf X')
    rw [← he.left _ _ _ _ (hf X).valid (hf X').valid (hf Y).valid s1]
    exact (hc _ _ _ _ s2 (hf Y)).symm
  have hright : ∀ X Y Y' : Grp CC, e (f X) (f (Y + Y')) = e (f X) (f Y) + e (f X) (f Y') := by
    intro X Y Y'
    obtain ⟨S, s1, s2⟩ := add_rep (hf Y) (hf Y')
    rw [← he.right _ _ _ _ (hf X).valid (hf Y).valid (hf Y').valid s1]
    exact (hc _ _ _ _ (hf X) s2).symm
  refine ⟨AddMonoidHom.mk' (fun X => AddMonoidHom.mk' (fun Y => e (f X) (f Y)) (hright X)) ?_, hc⟩
  intro X X'
  ext Y
  exact hleft X X' Y

theorem hom_smul {A : Type} [AddCommGroup A] (E : Grp CC →+ A) (k : F) (X : Grp CC) : E (k • X) = k.val • E X := by
  rw [← val_nsmul, map_nsmul]

theorem hom_smul₂ {A : Type} [AddCommGroup A] (E : Grp CC →+ Grp CC →+ A) (k : F) (X Y : Grp CC) :
    E (k • X) Y = E X (k • Y) := by
  rw [hom_smul (E X), hom_smul E]
  rfl

end Puda
end Verif
