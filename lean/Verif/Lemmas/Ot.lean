import Verif.Model.Ot
import Verif.Lemmas.Dme

/-!
# Lemmas on oblivious transfer: pointers carried by results, aggregation
-/

namespace Verif

open EC

/-! ## Which curve pointer a result carries -/

theorem double_curve {env : Env} {C : CurveClass} {P S : Pt} (h : P.double env C = .ok S) :
    S.curve = P.curve := by
  unfold Pt.double at h
  simp only [bind, Except.bind] at h
  repeat' split at h
  all_goals first | (simp at h; done) | (obtain rfl := Except.ok.inj h; rfl)

theorem add_curve {env : Env} {C : CurveClass} {P Q S : Pt} (h : P.add env C Q = .ok S) :
    S.inf = true ∨ S.curve = P.curve ∨ (P.inf = true ∧ S = Q) := by
  rw [Pt.add] at h
  split_ifs at h with h1 h2
  · exact .inr (.inr ⟨h1, (Except.ok.inj h).symm⟩)
  · exact .inr (.inl (by rw [← Except.ok.inj h]))
  all_goals
    rcases hc : cassert env (Pt.curveEq env C P.curve Q.curve) with e | u
    · rw [hc] at h; simp at h
    rw [hc, R.ok_bind] at h
  · right; left; exact double_curve h
  · left; rw [← Except.ok.inj h]; rfl
  · right; left
    simp only [bind, Except.bind] at h
    repeat' split at h
    all_goals first | (simp at h; done) | (obtain rfl := Except.ok.inj h; rfl)

theorem double_dead {env : Env} {C : CurveClass} {P : Pt} (h : ¬ Live env P.curve) :
    Faults (P.double env C) := by
  obtain ⟨e, he⟩ := deref_not_live h
  unfold Pt.double
  rcases h1 : P.x.square C.fp with e1 | sq
  · exact ⟨_, R.error_bind _ _⟩
  rw [R.ok_bind]
  rcases h2 : sq.mulZ C.fp 3 with e1 | sq3
  · exact ⟨_, R.error_bind _ _⟩
  rw [R.ok_bind, he]
  exact ⟨_, R.error_bind _ _⟩

theorem smulLoop_curve {env : Env} {C : CurveClass} {c : Option Addr} (cs : List Char) {P Q S : Pt}
    (hP : P.curve = c) (hQ : Q.inf = true ∨ Q.curve = c) (h : Pt.smulLoop env C cs P Q = .ok S) :
    S.inf = true ∨ S.curve = c := by
  induction cs generalizing P Q with
  | nil => rw [Pt.smulLoop] at h; rwa [← Except.ok.inj h]
  | cons a cs ih =>
    rw [Pt.smulLoop] at h
    rcases h1 : (if a = '1' then Q.add env C P else .ok Q) with e | Q'
    · rw [h1] at h; simp at h
    rw [h1, R.ok_bind] at h
    rcases h2 : (if cs.isEmpty then .ok P else P.double env C) with e | P'
    · rw [h2] at h; simp at h
    rw [h2, R.ok_bind] at h
    have hQ' : Q'.inf = true ∨ Q'.curve = c := by
      split_ifs at h1 with ha
      · rcases add_curve h1 with h3 | h3 | ⟨h3, rfl⟩
        · exact .inl h3
        · rcases hQ with h4 | h4
          · rw [Pt.add, if_pos h4] at h1
            rw [← Except.ok.inj h1]; exact .inr hP
          · exact .inr (h3.trans h4)
        · exact .inr hP
      · rwa [← Except.ok.inj h1]
    have hP' : P'.curve = c := by
      split_ifs at h2
      · rwa [← Except.ok.inj h2]
      · rw [double_curve h2, hP]
    exact ih hP' hQ' h

/-- a finite multiple of `P` refers to the curve object of `P` -/
theorem smul_curve {env : Env} {C : CurveClass} {P S : Pt} {k : Fld} (h : P.smul env C k = .ok S) :
    S.inf = true ∨ S.curve = P.curve := by
  rw [Pt.smul] at h
  split_ifs at h with hi
  · rw [← Except.ok.inj h]; exact .inl hi
  · exact smulLoop_curve _ rfl (.inl rfl) h

/-- binary digits of a number that is at least two -/
theorem binDigitsAux_length (f n : ℕ) (acc : List Char) : acc.length ≤ (binDigitsAux f n acc).length := by
  induction f generalizing n acc with
  | zero => simp [binDigitsAux]
  | succ f ih =>
    rw [binDigitsAux]
    split_ifs
    · simp
    · simp
    all_goals exact le_trans (by simp) (ih _ _)

theorem getStr2_length {k : ℤ} (hk : 2 ≤ k) : ∃ a b cs, (getStr2 k).reverse = a :: b :: cs := by
  have h : 2 ≤ (getStr2 k).reverse.length := by
    rw [List.length_reverse, getStr2, if_neg (by omega)]
    obtain ⟨f, hf⟩ : ∃ f, k.natAbs = f + 2 := ⟨k.natAbs - 2, by omega⟩
    rw [hf, binDigitsAux, if_neg (by omega), binDigitsAux]
    have hl : ∀ (n : ℕ) (acc : List Char), acc.length + 1 ≤ (binDigitsAux (f + 2) n acc).length := by
      intro n acc
      rw [binDigitsAux]
      split_ifs
      · simp
      · simp
      all_goals exact le_trans (by simp) (binDigitsAux_length _ _ _)
    split_ifs <;> first | (simp; done) | skip
    all_goals
      refine le_trans ?_ (binDigitsAux_length _ _ _)
      simp
  rcases hr : (getStr2 k).reverse with _ | ⟨a, _ | ⟨b, cs⟩⟩
  · rw [hr] at h; simp at h
  · rw [hr] at h; simp at h
  · exact ⟨a, b, cs, rfl⟩

/-- multiplying a finite point whose curve object is gone by a scalar `≥ 2` is undefined -/
theorem smul_dead {env : Env} {C : CurveClass} {P : Pt} (hi : P.inf = false) (hd : ¬ Live env P.curve)
    {k : Fld} (hk : 2 ≤ k.value) : Faults (P.smul env C k) := by
  rw [Pt.smul, if_neg (by simp [hi]), Fld.getRawValue]
  obtain ⟨a, b, cs, h⟩ := getStr2_length hk
  rw [h, Pt.smulLoop]
  obtain ⟨e, he⟩ := double_dead (C := C) hd
  rcases h1 : (if a = '1' then (Pt.infty C).add env C P else .ok (Pt.infty C)) with e' | r
  · exact ⟨_, R.error_bind _ _⟩
  · rw [R.ok_bind, List.isEmpty_cons, if_neg (by simp), he]
    exact ⟨_, R.error_bind _ _⟩

namespace Ot

open Dme

variable {env : Env}

theorem index_pair (c0 c1 : Ctxt) (b : Branch) :
    index [c0, c1] b = .ok (match b with | .b0 => c0 | .b1 => c1) := by cases b <;> rfl

theorem encMsgs_rep {s : Sndr} (hl : Live env s.dme.curve) {g h : Branch → Grp CC}
    (hc : RepCrs env s.dme.crs g h) {pk : PKey} {A B : Grp CC} (hA : Rep env pk.g A) (hB : Rep env pk.h B)
    {m : Branch → Pt} {M : Branch → Grp CC} (hm : ∀ b, Rep env (m b) (M b)) (k : Branch → EncCoins) :
    ∃ c : Branch → Ctxt, (∀ b, enc env s.dme pk b (m b) (k b).s (k b).t = .ok (c b)) ∧
      encMsgs env s pk (m .b0) (m .b1) (k .b0) (k .b1) =
        .ok ([c .b0, c .b1], { s with c := [c .b0, c .b1] }) := by
  obtain ⟨c0, -, e0, -⟩ := enc_rep hl hc hA hB (hm .b0) .b0 (k .b0).s (k .b0).t
  obtain ⟨c1, -, e1, -⟩ := enc_rep hl hc hA hB (hm .b1) .b1 (k .b1).s (k .b1).t
  refine ⟨fun b => match b with | .b0 => c0 | .b1 => c1, ?_, by simp only [encMsgs, e0, e1, R.ok_bind]⟩
  rintro (_ | _)
  · exact e0
  · exact e1

end Ot
end Verif
