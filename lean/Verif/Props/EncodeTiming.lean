import Verif.Model.TimingEncode
import Verif.Props.Dme
import Verif.Props.Elgamal

/-!
# C123: what the time of an encryption of an integer tells
-/

namespace Verif

namespace Dme

open EC

theorem encodeLoopT_same (env : Env) (c : Option Addr) (fuel : ℕ) (res : ℤ) (msg : Pt) :
    (do let r ← encodeLoopT env c fuel res msg; .ok r.1) = encodeLoop env c fuel res msg := by
  induction fuel generalizing res msg with
  | zero => rw [encodeLoopT, encodeLoop]; split_ifs <;> rfl
  | succ fuel ih =>
    rw [encodeLoopT, encodeLoop]
    split_ifs
    · rcases Curve.evaluateP env CC c (Fld.mk' CC.fp res) with e | m
      · rfl
      simp only [R.ok_bind]
      rw [← ih]
      rcases encodeLoopT env c fuel (res + 1) m with e | r <;> rfl
    · rfl

/-- C123: counting does not change the encryption. -/
theorem C123_same (env : Env) (d : Inst) (pk : PKey) (b : Branch) (m ks kt : ℤ) :
    (do let r ← encZT env d pk b m ks kt; .ok r.1) = encZ env d pk b m ks kt := by
  rw [encZT, encZ, encodeT, encode, ← encodeLoopT_same]
  rcases encodeLoopT env d.curve CC.fp (m * 2 ^ 10) (Pt.infty CC) with e | r
  · rfl
  simp only [R.ok_bind]
  rcases enc env d pk b r.1 ks kt with e | c <;> rfl

theorem encodeLoopT_count {env : Env} {c : Option Addr} (hc : Live env c) (k : ℕ) : ∀ (fuel : ℕ) (res : ℤ) (msg : Pt),
    k < fuel → msg.inf = true → (∀ i < k, ¬ IsAbscissa (res + i)) → IsAbscissa (res + k) →
    ∃ P, encodeLoopT env c fuel res msg = .ok (P, k + 1) := by
  induction k with
  | zero =>
    intro fuel res msg hf hm _ ha
    obtain ⟨f, rfl⟩ : ∃ f, fuel = f + 1 := ⟨fuel - 1, by omega⟩
    simp only [Nat.cast_zero, add_zero] at ha ⊢
    have ha' := (isAbscissa_iff res).1 ha
    rw [encodeLoopT, if_pos hm, Fld.mk'_eq, evaluateP_ok hc, if_pos ha', R.ok_bind]
    cases f
    · rw [encodeLoopT, if_neg (by simp [Pt.ofFld])]; exact ⟨_, rfl⟩
    · rw [encodeLoopT, if_neg (by simp [Pt.ofFld])]; exact ⟨_, rfl⟩
  | succ k ih =>
    intro fuel res msg hf hm hno ha
    obtain ⟨f, rfl⟩ : ∃ f, fuel = f + 1 := ⟨fuel - 1, by omega⟩
    have h0 := hno 0 (by omega)
    simp only [Nat.cast_zero, add_zero] at h0
    rw [isAbscissa_iff] at h0
    rw [encodeLoopT, if_pos hm, Fld.mk'_eq, evaluateP_ok hc, if_neg h0, R.ok_bind]
    have e : res + ((k + 1 : ℕ) : ℤ) = res + 1 + k := by push_cast; ring
    rw [e] at ha
    obtain ⟨P, h⟩ := ih f (res + 1) (Pt.infty CC) (by omega) rfl (fun i hi => by
      have := hno (i + 1) (by omega)
      have e : res + ((i + 1 : ℕ) : ℤ) = res + 1 + i := by push_cast; ring
      rwa [e] at this) ha
    exact ⟨P, by rw [h]; rfl⟩

/-- the number of the first field element from `x` upwards that is an abscissa, counting from 1 -/
def FirstAbscissa (x : ℤ) (n : ℕ) : Prop := 0 < n ∧ IsAbscissa (x + (n - 1 : ℕ)) ∧ ∀ i < n - 1, ¬ IsAbscissa (x + i)

theorem first_exists (x : ℤ) : ∃ n, FirstAbscissa x n ∧ n - 1 < CC.fp := by
  classical
  obtain ⟨k0, hk0, ha0⟩ := exists_abscissa x
  have hex : ∃ k : ℕ, IsAbscissa (x + k) := ⟨k0, ha0⟩
  exact ⟨Nat.find hex + 1, ⟨by omega, Nat.find_spec hex, fun i hi => Nat.find_min hex hi⟩,
    lt_of_le_of_lt (Nat.find_min' hex ha0) hk0⟩

theorem first_unique {x : ℤ} {n n' : ℕ} (h : FirstAbscissa x n) (h' : FirstAbscissa x n') : n = n' := by
  obtain ⟨p, a, b⟩ := h
  obtain ⟨p', a', b'⟩ := h'
  by_contra hne
  rcases Nat.lt_or_gt_of_ne hne with hlt | hlt
  · exact b' _ (by omega) a
  · exact b _ (by omega) a'

theorem encodeLoopT_first {env : Env} {c : Option Addr} (hc : Live env c) {x : ℤ} {n : ℕ} (h : FirstAbscissa x n) :
    ∃ P, encodeLoopT env c CC.fp x (Pt.infty CC) = .ok (P, n) := by
  obtain ⟨n', h', hlt⟩ := first_exists x
  obtain rfl := first_unique h h'
  obtain ⟨P, hP⟩ := encodeLoopT_count hc (n - 1) CC.fp x (Pt.infty CC) hlt rfl h.2.2 h.2.1
  exact ⟨P, by rw [hP, Nat.sub_add_cancel h.1]⟩

/-- C123, the exact time: whatever the instance, the key, the branch and the draws, an encryption that ends computes as many square
roots as there are field elements from `1024 m` to the first abscissa. -/
theorem C123_exact {env : Env} {d : Inst} (hl : Live env d.curve) {pk : PKey} {b : Branch} {m ks kt : ℤ} {r : Ctxt × ℕ}
    (h : encZT env d pk b m ks kt = .ok r) : FirstAbscissa (m * 1024) r.2 := by
  obtain ⟨n, hn, -⟩ := first_exists (m * 1024)
  obtain ⟨P, hP⟩ := encodeLoopT_first hl hn
  rw [encZT, encodeT, show m * 2 ^ 10 = m * 1024 by norm_num, hP, R.ok_bind] at h
  obtain ⟨_, -, h⟩ := R.bind_eq_ok.1 h
  rw [← Except.ok.inj h]
  exact hn

/-- a heap with one curve object -/
def oneCurve : Env := ⟨false, fun a => if a = 0 then some ⟨0⟩ else none⟩

/-- does `evaluateP` find a point? -/
def found (x : ℤ) : Bool :=
  match Curve.evaluateP oneCurve CC (some 0) (Fld.mk' CC.fp x) with
  | .ok P => !P.inf
  | .error _ => false

theorem found_iff (x : ℤ) : IsAbscissa x ↔ found x = true := by
  have hl : Live oneCurve (some 0) := ⟨0, _, rfl, rfl⟩
  rw [isAbscissa_iff, found, Fld.mk'_eq, evaluateP_ok hl]
  split_ifs with h
  · simp [h, Pt.ofFld]
  · simp [h, Pt.infty]

/-- C123 is false: for all instances, keys, branches and draws, the encryption of 1 computes one square root, that of 2 five. -/
theorem C123_counterexample {env : Env} {d : Inst} (hl : Live env d.curve) {pk pk' : PKey} {b b' : Branch} {ks kt ks' kt' : ℤ}
    {r r' : Ctxt × ℕ} (h : encZT env d pk b 1 ks kt = .ok r) (h' : encZT env d pk' b' 2 ks' kt' = .ok r') : r.2 = 1 ∧ r'.2 = 5 := by
  refine ⟨first_unique (C123_exact hl h) ⟨by norm_num, (found_iff _).2 (by decide +kernel), fun i hi => absurd hi (by omega)⟩,
    first_unique (C123_exact hl h') ⟨by norm_num, (found_iff _).2 (by decide +kernel), fun i hi => ?_⟩⟩
  rw [found_iff]
  interval_cases i <;> decide +kernel

example : (do
    let r ← encZT tenv tinst ⟨tpt 5, tpt 6⟩ .b0 1 7 8
    let r' ← encZT tenv tinst ⟨tpt 5, tpt 6⟩ .b1 2 7 8
    .ok (r.2, r'.2) : R (ℕ × ℕ)) = .ok (1, 5) ∧ Live tenv tinst.curve := by
  exact ⟨by decide +kernel, by exact ⟨0, _, rfl, rfl⟩⟩

end Dme

namespace ElGamal

open EC
open Dme (FirstAbscissa first_unique found_iff)

theorem encodeLoopT_eq (env : Env) (c : Option Addr) (fuel : ℕ) (res : ℤ) (m : Pt) :
    encodeLoopT env c fuel res m = Dme.encodeLoopT env c fuel res m := by
  induction fuel generalizing res m with
  | zero => rfl
  | succ n ih => simp only [encodeLoopT, Dme.encodeLoopT, ih]

/-- C123: counting does not change the encryption (ElGamal). -/
theorem C123_same (env : Env) (c : Option Addr) (pk : Pt) (m coin : ℤ) :
    (do let r ← encryptT env c pk m coin; .ok r.1) = encrypt env c pk m coin := by
  rw [encryptT, encrypt, encode, encodeLoop_eq, encodeLoopT_eq, ← Dme.encodeLoopT_same]
  rcases Dme.encodeLoopT env c CC.fp (m * 2 ^ 20) (Pt.infty CC) with e | r
  · rfl
  simp only [R.ok_bind]
  rcases encryptP env c pk r.1 coin with e | c <;> rfl

/-- C123, the exact time (ElGamal): the number of field elements from `2^20 m` to the first abscissa. -/
theorem C123_exact {env : Env} {c : Option Addr} (hl : Live env c) {pk : Pt} {m coin : ℤ} {r : Ctxt × ℕ}
    (h : encryptT env c pk m coin = .ok r) : FirstAbscissa (m * 2 ^ 20) r.2 := by
  obtain ⟨n, hn, -⟩ := Dme.first_exists (m * 2 ^ 20)
  obtain ⟨P, hP⟩ := Dme.encodeLoopT_first hl hn
  rw [encryptT, encodeLoopT_eq, hP, R.ok_bind] at h
  obtain ⟨_, -, h⟩ := R.bind_eq_ok.1 h
  rw [← Except.ok.inj h]
  exact hn

/-- C123 is false: for all keys and draws, the ElGamal encryption of the bit 0 computes one square root, that of the bit 1 three. -/
theorem C123_counterexample {env : Env} {c : Option Addr} (hl : Live env c) {pk pk' : Pt} {k k' : ℤ} {r r' : Ctxt × ℕ}
    (h : encryptT env c pk 0 k = .ok r) (h' : encryptT env c pk' 1 k' = .ok r') : r.2 = 1 ∧ r'.2 = 3 := by
  refine ⟨first_unique (C123_exact hl h) ⟨by norm_num, (found_iff _).2 (by decide +kernel), fun i hi => absurd hi (by omega)⟩,
    first_unique (C123_exact hl h') ⟨by norm_num, (found_iff _).2 (by decide +kernel), fun i hi => ?_⟩⟩
  rw [found_iff]
  interval_cases i <;> decide +kernel

/-- both encryptions end: under the key `5 G` with the draw 7 -/
example : ∃ pk r r', Curve.getRandomPoint Dme.oneCurve CC (some 0) 5 = .ok pk ∧
    encryptT Dme.oneCurve (some 0) pk 0 7 = .ok r ∧ encryptT Dme.oneCurve (some 0) pk 1 7 = .ok r' ∧ r.2 = 1 ∧ r'.2 = 3 := by
  have hl : LiveGen Dme.oneCurve (some 0) := ⟨0, _, rfl, rfl, _, rfl⟩
  obtain ⟨pk, p1, p2⟩ := randomPoint_rep (C := CC) hl 5
  have hr : ∀ m : ℤ, ∃ r, encryptT Dme.oneCurve (some 0) pk m 7 = .ok r := by
    intro m
    obtain ⟨k, P, -, -, -, h4, -, -, h7⟩ := encode_ok hl.live m
    obtain ⟨M, -, hM⟩ := isFinite_iff.1 h7
    obtain ⟨g, g1, g2⟩ := getDefaultGen_rep (C := CC) hl
    obtain ⟨u, a1, a2⟩ := smulF_rep g2 ((7 : ℤ) : Dme.F)
    obtain ⟨v, b1, b2⟩ := smulF_rep p2 ((7 : ℤ) : Dme.F)
    obtain ⟨mv, d1, d2⟩ := add_rep b2 hM
    have he : encrypt Dme.oneCurve (some 0) pk m 7 = .ok ⟨u, mv⟩ := by
      simp only [encrypt, h4, R.ok_bind, encryptP, getRandomScalar_ok hl.live, g1, a1, b1, d1]
    rw [← C123_same] at he
    obtain ⟨r, h, -⟩ := R.bind_eq_ok.1 he
    exact ⟨r, h⟩
  obtain ⟨r, h⟩ := hr 0
  obtain ⟨r', h'⟩ := hr 1
  exact ⟨pk, r, r', p1, h, h', C123_counterexample hl.live h h'⟩

end ElGamal
end Verif
