import Verif.Model.Elgamal
import Verif.Lemmas.Dme
import Verif.Props.Ecc

/-!
# C41: ElGamal
-/

namespace Verif
namespace ElGamal

open EC
open Dme (IsAbscissa F)

theorem encodeLoop_eq (env : Env) (c : Option Addr) (fuel : ℕ) (res : ℤ) (m : Pt) :
    encodeLoop env c fuel res m = Dme.encodeLoop env c fuel res m := by
  induction fuel generalizing res m with
  | zero => rfl
  | succ n ih => simp only [encodeLoop, Dme.encodeLoop, ih]

/-- `encode` finds the first abscissa at or after `2^20 m` -/
theorem encode_ok {env : Env} {c : Option Addr} (hl : Live env c) (m : ℤ) :
    ∃ (k : ℕ) (P : Pt), k < CC.fp ∧ IsAbscissa (m * 2 ^ 20 + k) ∧ (∀ i < k, ¬ IsAbscissa (m * 2 ^ 20 + i)) ∧
      encode env c m = .ok P ∧ P.curve = c ∧ P.x = Fld.mk' CC.fp (m * 2 ^ 20 + k) ∧ IsFinite env CC P := by
  classical
  obtain ⟨k0, hk0, ha0⟩ := Dme.exists_abscissa (m * 2 ^ 20)
  have hex : ∃ k : ℕ, IsAbscissa (m * 2 ^ 20 + k) := ⟨k0, ha0⟩
  have hle : Nat.find hex ≤ k0 := Nat.find_min' hex ha0
  obtain ⟨P, h1, h2, h3, h4, h5⟩ := Dme.encodeLoop_ok hl (Nat.find hex) CC.fp (m * 2 ^ 20) (Pt.infty CC)
    (lt_of_le_of_lt hle hk0) rfl (fun i hi => Nat.find_min hex hi) (Nat.find_spec hex)
  exact ⟨Nat.find hex, P, lt_of_le_of_lt hle hk0, Nat.find_spec hex, fun i hi => Nat.find_min hex hi,
    (encodeLoop_eq _ _ _ _ _).trans h1, h3, h4, h5⟩

/-- C41 (part): encryption of every integer under every key and coin is defined; if both ciphertext components are
finite and the secret key is not zero modulo the order, decryption is defined, and for `m` in range it returns `m`
**exactly** when the curve has a point whose abscissa lies in the window `[2^20 m, 2^20 m + 2^20 - 1]`.
Missing: degenerate coins, that every window contains an abscissa, and `keyGen` (see the counterexamples). -/
theorem C41_round_trip_partial (env : Env) {c : Option Addr} (hl : LiveGen env c) (sk : ℤ) (coin : ℤ) {m : ℤ}
    (h0 : 0 ≤ m) (hm : (m + 1) * 2 ^ 20 ≤ CC.prime) :
    Ends (Curve.getDefaultGen env CC c) fun g => Ends (g.smulZ env CC sk) fun pk =>
      Ends (encrypt env c pk m coin) fun ct =>
        ct.u.inf = false → ct.mv.inf = false → ¬ CC.order ∣ sk →
          Ends (decrypt env (Fld.mk' CC.fn sk) ct) fun m' =>
            (m' = m ↔ ∃ i : ℕ, i < 2 ^ 20 ∧ IsAbscissa (m * 2 ^ 20 + i)) := by
  obtain ⟨g, g1, g2⟩ := getDefaultGen_rep (C := CC) hl
  obtain ⟨pk, p1, p2⟩ := smulI_rep g2 sk
  obtain ⟨k, P, h1, h2, h3, h4, h5, h6, h7⟩ := encode_ok hl.live m
  obtain ⟨M, hM0, hM⟩ := isFinite_iff.1 h7
  obtain ⟨u, a1, a2⟩ := smulF_rep g2 (coin : F)
  obtain ⟨v, b1, b2⟩ := smulF_rep p2 (coin : F)
  obtain ⟨mv, d1, d2⟩ := add_rep b2 hM
  refine ⟨g, g1, pk, p1, ⟨u, mv⟩, ?_, ?_⟩
  · simp only [encrypt, h4, R.ok_bind, encryptP, getRandomScalar_ok hl.live, g1, a1, b1, d1]
  intro hu hmv hsk
  simp only at hu hmv
  have hsk' : (sk : F) ≠ 0 := by
    rw [Ne, ZMod.intCast_zmod_eq_zero_iff_dvd]
    exact hsk
  obtain ⟨w, w1, w2⟩ := smulF_rep a2 (sk : F)
  have hw : (sk : F) • (coin : F) • (G : Grp CC) ≠ 0 := by
    intro h
    rcases smul_eq_zero.1 h with h | h
    · exact hsk' h
    · rw [(rep_inf a2).2 h] at hu; simp at hu
  have hv : (coin : F) • (sk : F) • (G : Grp CC) + M ≠ 0 := by
    intro h
    rw [(rep_inf d2).2 h] at hmv; simp at hmv
  obtain ⟨res, r1, r2⟩ := sub_rep d2 w2 hv hw
  have e : (coin : F) • (sk : F) • (G : Grp CC) + M - (sk : F) • (coin : F) • (G : Grp CC) = M := by module
  rw [e] at r2
  refine ⟨decode res, by simp only [decrypt, Fld.mk'_eq, w1, R.ok_bind, r1], ?_⟩
  have hx : res.x = P.x := by
    rcases cases_pt M with h | ⟨x, y, hon, rfl⟩
    · exact absurd h hM0
    · rw [((rep_pt_iff hon).1 r2).2.1, ((rep_pt_iff hon).1 hM).2.1]
  have hp : CC.prime = (CC.fp : ℤ) := by decide
  rw [hp] at hm
  have hv : decode res = ((m * 2 ^ 20 + k) % (CC.fp : ℤ)) / 2 ^ 20 := by
    rw [decode, hx, h6]; rfl
  rw [hv]
  have h1' : (k : ℤ) < (CC.fp : ℤ) := by exact_mod_cast h1
  clear hv hp h1
  generalize (CC.fp : ℤ) = p at *
  constructor
  · intro hd
    refine ⟨k, ?_, h2⟩
    by_contra hk
    by_cases hw : m * 2 ^ 20 + k < p
    · rw [Int.emod_eq_of_lt (by omega) hw] at hd
      omega
    · have : (m * 2 ^ 20 + k) % p = m * 2 ^ 20 + k - p := by
        rw [← Int.sub_emod_right, Int.emod_eq_of_lt (by omega) (by omega)]
      rw [this] at hd
      omega
  · rintro ⟨i, hi, ha⟩
    have hk : k ≤ i := by
      by_contra h
      exact h3 i (by omega) ha
    rw [Int.emod_eq_of_lt (by omega) (by omega)]
    omega

/-- a run: message 5, secret key 11, coin 13 -/
example : (do
    let g ← Curve.getDefaultGen env0 CC (some 0)
    let pk ← g.smulZ env0 CC 11
    let ct ← encrypt env0 (some 0) pk 5 13
    let m ← decrypt env0 (Fld.mk' CC.fn 11) ct
    .ok (m, ct.u.inf, ct.mv.inf)) = .ok (5, false, false) := by decide +kernel

/-- C41 is false for a zero coin: in a debug build decryption of every ciphertext produced with it, whatever the key
and the message, is undefined. -/
theorem C41_zero_coin_counterexample (env : Env) (hd : env.ndebug = false) {c : Option Addr} (hl : LiveGen env c)
    {pk : Pt} (hpk : Valid env CC pk) (m : ℤ) (sk : Fld) :
    Ends (encrypt env c pk m 0) fun ct => Faults (decrypt env sk ct) := by
  obtain ⟨g, g1, g2⟩ := getDefaultGen_rep (C := CC) hl
  obtain ⟨A, hA⟩ := valid_iff.1 hpk
  obtain ⟨k, P, h1, h2, h3, h4, h5, h6, h7⟩ := encode_ok hl.live m
  obtain ⟨M, hM0, hM⟩ := isFinite_iff.1 h7
  have hu : g.smul env CC (Fld.ofZ (0 : F)) = .ok (Pt.infty CC) := by
    have : getStr2 (Fld.ofZ (0 : F)).getRawValue = ['0'] := by decide
    rw [Pt.smul, if_neg (by rw [rep_inf_false g2 G_ne_zero]; simp), this]
    rfl
  obtain ⟨v, b1, b2⟩ := smulF_rep hA (0 : F)
  obtain ⟨mv, d1, d2⟩ := add_rep b2 hM
  refine ⟨⟨Pt.infty CC, mv⟩, ?_, ?_⟩
  · simp only [encrypt, h4, R.ok_bind, encryptP, getRandomScalar_ok hl.live, Int.cast_zero, g1, hu, b1, d1]
  · have hmv : Live env mv.curve := rep_live d2 (by rw [zero_smulG, zero_add]; exact hM0)
    obtain ⟨o, ho⟩ := deref_live hmv
    refine ⟨.nullDeref, ?_⟩
    simp [decrypt, Pt.smul, Pt.infty, Pt.sub, cassert, hd, Pt.curveEq, ho, show deref env none = .error .nullDeref from rfl]

/-- the hypotheses are met; in a release build the zero coin gives a wrong plaintext -/
example : (do
    let g ← Curve.getDefaultGen env0 CC (some 0)
    let pk ← g.smulZ env0 CC 11
    let ct ← encrypt { env0 with ndebug := true } (some 0) pk 5 0
    let m ← decrypt { env0 with ndebug := true } (Fld.mk' CC.fn 11) ct
    .ok (decide (m = 5))) = .ok false := by decide +kernel

/-- C41 is false for `keyGen`: it never returns a value. -/
theorem C41_keyGen_counterexample (env : Env) (c : Option Addr) (coin : ℤ) : Faults (keyGen env c coin) := by
  unfold keyGen
  rcases Curve.generateKeyPair env CC c coin with e | x
  · exact ⟨e, rfl⟩
  · exact ⟨.noReturn, rfl⟩

/-- in particular when everything it calls succeeds -/
example : ∃ x, Curve.generateKeyPair env0 CC (some 0) 7 = .ok x := by
  obtain ⟨P, h, -⟩ := getRandomPoint_rep (C := CC) env0_liveGen 7
  exact ⟨(7, P), by
    simp only [Curve.generateKeyPair, Curve.getRandomPoint] at h ⊢
    obtain ⟨g, h1, h2⟩ := R.bind_eq_ok.1 h
    simp only [h1, h2, R.ok_bind]⟩

end ElGamal
end Verif
