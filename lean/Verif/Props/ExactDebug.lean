import Verif.Props.ExactInt
import Verif.Props.OpprfDebug

/-!
# C33, C41 in debug builds: exactly when an integer message arrives, for all draws

With assertions on nothing is left to chance: a degenerate draw ends in a fault, so the conditions of `C33_int_exact` and
`C41_exact` become part of an equivalence.
-/

namespace Verif

open EC Opprf

namespace Ot

open Dme

/-- C33, integer messages, in debug builds: after any history, with a CRS of finite points, the receiver gets the integer
`m_b` **exactly** if the draws are not degenerate and `m_b` fits.  Otherwise it gets another integer or a fault. -/
theorem C33_int_debug (env : Env) (hd : env.ndebug = false) {s : Sys} (hs : Ready env s) (hf : FiniteCrs s.recv.dme.crs)
    (h1 h2 h3 : List Call) (hn2 : ∀ c ∈ h2, NoSelect c) (hn3 : ∀ c ∈ h3, NoSelect c) (b : Branch) (coin : ℤ) (m0 m1 : ℤ)
    (k0 k1 : EncCoins) {s1 : Sys} (r1 : calls env s h1 = .ok s1) :
    Ends (selectMsg env s1.recv b coin) fun sel => ∀ s3, calls env { s1 with recv := sel.2 } h2 = .ok s3 →
      Ends (encMsgsZ env s3.sndr sel.1 m0 m1 k0 k1) fun e => ∀ s5, calls env { s3 with sndr := e.2 } h3 = .ok s5 →
        (decryptMsgDecode env s5.recv e.1 = .ok (pick b m0 m1) ↔
          NonDegenerate s5.recv e.1 b ∧ Fits 1024 (pick b m0 m1)) := by
  obtain ⟨⟨pk, rc⟩, a1, a2⟩ := C33_int_exact env hs h1 h2 h3 hn2 hn3 b coin m0 m1 k0 k1 r1
  refine ⟨⟨pk, rc⟩, a1, fun s3 r3 => ?_⟩
  obtain ⟨⟨c, sn⟩, b1, b2⟩ := a2 s3 r3
  refine ⟨⟨c, sn⟩, b1, fun s5 r5 => ?_⟩
  have b2 := b2 s5 r5
  constructor
  · intro h
    have hnd : NonDegenerate s5.recv c b := by
      -- the receiver's state
      obtain ⟨d1, d2, -⟩ := calls_inv r1
      obtain ⟨-, d4, d5⟩ := calls_inv r3
      obtain ⟨-, -, d6⟩ := calls_inv r5
      have d7 : s5.recv = rc := (d6 hn3).trans (d5 hn2)
      -- the key
      unfold selectMsg at a1
      obtain ⟨kp, k1', a1⟩ := R.bind_eq_ok.1 a1
      obtain ⟨rfl, rfl⟩ := Prod.mk.inj (Except.ok.inj a1)
      unfold keyGen at k1'
      obtain ⟨sk, -, k1'⟩ := R.bind_eq_ok.1 k1'
      obtain ⟨g, kg, k1'⟩ := R.bind_eq_ok.1 k1'
      obtain ⟨h', kh, k1'⟩ := R.bind_eq_ok.1 k1'
      obtain rfl := Except.ok.inj k1'
      rw [d1] at kg kh
      have ng : NoPtr g := (NoPtr.of_finite (hf b).1).smul kg
      have nh : NoPtr h' := (NoPtr.of_finite (hf b).2).smul kh
      -- the ciphertext
      have hd3 : s3.sndr.dme = s.sndr.dme := d4.trans d2
      have hfc : FiniteCrs s3.sndr.dme.crs := by rw [hd3]; exact finiteCrs_congr hs.same hf
      have hl3 : Live env s3.sndr.dme.curve := by rw [hd3]; exact hs.sndr
      unfold encMsgsZ at b1
      obtain ⟨c0, e0, b1⟩ := R.bind_eq_ok.1 b1
      obtain ⟨c1, e1, b1⟩ := R.bind_eq_ok.1 b1
      obtain ⟨rfl, rfl⟩ := Prod.mk.inj (Except.ok.inj b1)
      have key {bb : Branch} {m : ℤ} {k : EncCoins} {ct : Ctxt} (e : encZ env s3.sndr.dme ⟨g, h'⟩ bb m k.s k.t = .ok ct) :
          NoPtr ct.u ∧ NoPtr ct.mv := by
        unfold encZ at e
        obtain ⟨P, p1, e⟩ := R.bind_eq_ok.1 e
        obtain ⟨P', p2, p3, -⟩ := C30_encode_terminates env hl3 m
        obtain rfl : P = P' := Except.ok.inj (p1.symm.trans p2)
        exact noPtr_enc hfc ng nh (NoPtr.of_finite p3.1) e
      -- the decryption
      rw [d7] at h ⊢
      unfold decryptMsgDecode at h
      obtain ⟨ct, h, h'⟩ := R.bind_eq_ok.1 h
      change index _ b = _ at h
      unfold decDecode at h'
      obtain ⟨P, h', -⟩ := R.bind_eq_ok.1 h'
      have hk : NoPtr ct.u ∧ NoPtr ct.mv := by
        cases b
        · obtain rfl := Except.ok.inj h
          exact key e0
        · obtain rfl := Except.ok.inj h
          exact key e1
      exact ⟨ct, h, finite_of_dec hd hk.1 hk.2 h'⟩
    obtain ⟨x, x1, x2⟩ := b2 hnd
    have e : x = pick b m0 m1 := Except.ok.inj (x1.symm.trans h)
    exact ⟨hnd, x2.1 e⟩
  · rintro ⟨hnd, hfit⟩
    obtain ⟨x, x1, x2⟩ := b2 hnd
    rw [x1, x2.2 hfit]

/-- the hypotheses: assertions are on and the CRS is made of finite points -/
example : tenv2.ndebug = false ∧ (do
    let d ← ctorMessy tenv2 (some 0) ⟨5, 7, 2, 3⟩
    .ok (d.crs.g0.inf || d.crs.g1.inf || d.crs.h0.inf || d.crs.h1.inf)) = .ok false := by decide +kernel

end Ot

namespace ElGamal

open Dme (IsAbscissa F)

/-- C41 in debug builds: decryption returns the encrypted integer **exactly** if neither the draw nor the secret key is 0
modulo the order, the second component is finite and the integer fits; for every integer, key and draw. -/
theorem C41_debug (env : Env) (hd : env.ndebug = false) {c : Option Addr} (hl : LiveGen env c) (sk : ℤ) (coin m : ℤ) :
    Ends (Curve.getDefaultGen env CC c) fun g => Ends (g.smulZ env CC sk) fun pk =>
      Ends (encrypt env c pk m coin) fun ct =>
        (decrypt env (Fld.mk' CC.fn sk) ct = .ok m ↔
          ¬ CC.order ∣ coin ∧ ¬ CC.order ∣ sk ∧ ct.mv.inf = false ∧ Fits (2 ^ 20) m) := by
  obtain ⟨g, a1, pk, a2, ct, a3, a4⟩ := C41_exact env hl sk coin m
  refine ⟨g, a1, pk, a2, ct, a3, ?_⟩
  obtain ⟨g', g1, g2⟩ := getDefaultGen_rep (C := CC) hl
  obtain rfl : g = g' := Except.ok.inj (a1.symm.trans g1)
  have ng : NoPtr g := .of_finite (rep_inf_false g2 G_ne_zero)
  have npk : NoPtr pk := ng.smul a2
  -- the components
  unfold encrypt at a3
  obtain ⟨P, p1, a3⟩ := R.bind_eq_ok.1 a3
  obtain ⟨k, P', -, -, -, p2, -, -, p3⟩ := encode_ok hl.live m
  obtain rfl : P = P' := Except.ok.inj (p1.symm.trans p2)
  unfold encryptP at a3
  obtain ⟨r, r1, a3⟩ := R.bind_eq_ok.1 a3
  obtain ⟨g', g1', a3⟩ := R.bind_eq_ok.1 a3
  obtain rfl : g = g' := Except.ok.inj (g1.symm.trans g1')
  obtain ⟨u, u1, a3⟩ := R.bind_eq_ok.1 a3
  obtain ⟨v, v1, a3⟩ := R.bind_eq_ok.1 a3
  obtain ⟨mv, w1, a3⟩ := R.bind_eq_ok.1 a3
  obtain rfl := Except.ok.inj a3
  rw [getRandomScalar_ok hl.live] at r1
  obtain rfl := Except.ok.inj r1
  obtain ⟨u', u2, u3⟩ := smulF_rep g2 (coin : F)
  obtain rfl : u = u' := Except.ok.inj (u1.symm.trans u2)
  have hu : u.inf = false ↔ ¬ CC.order ∣ coin := by
    rw [← smulG_eq_zero_iff (z := coin), ← rep_inf u3, Bool.not_eq_true]
  have nu : NoPtr u := ng.smul u1
  have nmv : NoPtr mv := (npk.smul v1).add (.of_finite p3.1) w1
  have hsk : (Fld.mk' CC.fn sk).value ≠ 0 ↔ ¬ CC.order ∣ sk := by
    change sk % (CC.fn : ℤ) ≠ 0 ↔ _
    rw [Ne, ← Int.dvd_iff_emod_eq_zero]
    rfl
  constructor
  · intro h
    have h0 := h
    unfold decrypt at h
    obtain ⟨w, h1, h⟩ := R.bind_eq_ok.1 h
    obtain ⟨res, h2, h⟩ := R.bind_eq_ok.1 h
    obtain ⟨f1, f2, f3⟩ := finite_of_dec (c := ⟨u, mv⟩) hd nu nmv (R.bind_eq_ok.2 ⟨_, h1, h2⟩)
    obtain ⟨x, x1, x2⟩ := a4 f1 f3 (hsk.1 f2)
    exact ⟨hu.1 f1, hsk.1 f2, f3, x2.1 (Except.ok.inj (x1.symm.trans h0))⟩
  · rintro ⟨f1, f2, f3, f4⟩
    obtain ⟨x, x1, x2⟩ := a4 (hu.2 f1) f3 f2
    rw [x1, x2.2 f4]

/-- the hypotheses -/
example : env0.ndebug = false ∧ LiveGen env0 (some 0) := ⟨rfl, env0_liveGen⟩

end ElGamal
end Verif
