import Verif.Props.Ot
import Verif.Props.Density

/-!
# C30, C33, C41: exactly which integers survive encoding, for every integer
-/

namespace Verif

open EC

/-- `m` can be told from a point with abscissa in `[m W, m W + W)`, and there is one: some field element in that range
(the range may be cut off by the prime) is an abscissa. -/
def Fits (W m : ℤ) : Prop :=
  0 ≤ m ∧ ∃ x : ℤ, m * W ≤ x ∧ x < m * W + W ∧ x < Dme.CC.prime ∧ Dme.IsAbscissa x

namespace Dme

theorem isAbscissa_mod {x y : ℤ} (h : (x : ZMod CC.fp) = y) : IsAbscissa x ↔ IsAbscissa y := by
  rw [isAbscissa_iff, isAbscissa_iff, h]

/-- the first abscissa from `m W` on decodes to `m` exactly if `m` fits -/
theorem fits_iff {W m : ℤ} (hW : 0 < W) {k : ℕ} (h2 : IsAbscissa (m * W + k))
    (h3 : ∀ i < k, ¬ IsAbscissa (m * W + i)) :
    ((m * W + k) % (CC.fp : ℤ)) / W = m ↔ Fits W m := by
  have hp : CC.prime = (CC.fp : ℤ) := by decide
  have hpos : (0 : ℤ) < (CC.fp : ℤ) := by decide
  constructor
  · intro h
    have a1 := Int.emod_nonneg (m * W + k) hpos.ne'
    have a2 := Int.emod_lt_of_pos (m * W + k) hpos
    have a3 := Int.mul_ediv_add_emod ((m * W + k) % (CC.fp : ℤ)) W
    have a4 := Int.emod_nonneg ((m * W + k) % (CC.fp : ℤ)) hW.ne'
    have a5 := Int.emod_lt_of_pos ((m * W + k) % (CC.fp : ℤ)) hW
    rw [h, mul_comm W m] at a3
    refine ⟨?_, (m * W + k) % (CC.fp : ℤ), by omega, by omega, by rw [hp]; exact a2, ?_⟩
    · rw [← h]; exact Int.ediv_nonneg a1 hW.le
    · refine (isAbscissa_mod ?_).1 h2
      rw [ZMod.intCast_eq_intCast_iff_dvd_sub]
      have := Int.emod_add_mul_ediv (m * W + k) (CC.fp : ℤ)
      exact ⟨-((m * W + k) / (CC.fp : ℤ)), by linarith⟩
  · rintro ⟨h0, x, h4, h5, h6, h7⟩
    rw [hp] at h6
    have hk : (k : ℤ) ≤ x - m * W := by
      by_contra hlt
      refine h3 (x - m * W).toNat (by omega) ?_
      have : m * W + ((x - m * W).toNat : ℤ) = x := by omega
      rwa [this]
    have hmW : 0 ≤ m * W := mul_nonneg h0 hW.le
    rw [Int.emod_eq_of_lt (by omega) (by omega)]
    rw [mul_comm m W, Int.add_comm, Int.add_mul_ediv_left _ _ hW.ne', Int.ediv_eq_zero_of_lt (by omega) (by omega),
      zero_add]

/-- C30: for **every** integer `m`, `decode(encode(m))` is `m` exactly if `m` fits: negative integers and those from
`prime / 1024` on never come back, and the last one may although its window is cut off. -/
theorem C30_exact (env : Env) {d : Inst} (hl : Live env d.curve) (m : ℤ) :
    Ends (encode env d m) fun P => (decode P = m ↔ Fits 1024 m) := by
  obtain ⟨k, P, h1, h2, h3, h4, h5, h6, h7⟩ := encode_ok hl m
  refine ⟨P, h4, ?_⟩
  change decode P = m ↔ _
  rw [← fits_iff (W := 1024) (by norm_num) h2 h3, decode, h6]
  rfl

theorem decode_congr {env : Env} {P m : Pt} {M : Grp CC} (hP : Rep env P M) (hm : Rep env m M) :
    decode m = decode P := by
  rcases (samePoint_iff hm hP).2 rfl with ⟨h1, h2⟩ | ⟨-, -, h, -⟩
  · rw [rep_inf hm] at h1
    subst h1
    rw [decode, decode, (rep_zero_iff.1 hm).2.1, (rep_zero_iff.1 hP).2.1]
  · rw [decode, decode, h]

/-- a message that fits: its window holds the abscissa of the generator -/
example : Fits 1024 (CC.gx / 1024) :=
  ⟨by decide, CC.gx, by decide, by decide, by decide, CC.gy, by unfold CurveEq Int.ModEq; decide +kernel⟩

/-- the last message fits although its window is cut off by the prime -/
example : Fits 1024 (CC.prime / 1024) ∧ CC.prime < (CC.prime / 1024) * 1024 + 1024 :=
  ⟨⟨by decide, CC.prime / 1024 * 1024 + 2, by decide, by decide, by decide,
    96922442668652977222516223377315324468375723994826914412116691149824830808934,
    by unfold CurveEq Int.ModEq; decide +kernel⟩, by decide⟩

example : ¬ Fits 1024 (-5) := fun h => absurd h.1 (by norm_num)

example : ¬ Fits 1024 (CC.prime / 1024 + 1) := by
  rintro ⟨-, x, h1, -, h3, -⟩
  have : CC.prime < (CC.prime / 1024 + 1) * 1024 := by decide
  omega

end Dme

namespace Ot

open Dme

/-- C33, integer messages: for draws that are not degenerate the receiver always gets an integer, and it is `m_b`
**exactly** if `m_b` fits.  Both messages are arbitrary integers. -/
theorem C33_int_exact (env : Env) {s : Sys} (hs : Ready env s) (h1 h2 h3 : List Call)
    (hn2 : ∀ c ∈ h2, NoSelect c) (hn3 : ∀ c ∈ h3, NoSelect c) (b : Branch) (coin : ℤ) (m0 m1 : ℤ)
    (k0 k1 : EncCoins) {s1 : Sys} (r1 : calls env s h1 = .ok s1) :
    Ends (selectMsg env s1.recv b coin) fun sel => ∀ s3, calls env { s1 with recv := sel.2 } h2 = .ok s3 →
      Ends (encMsgsZ env s3.sndr sel.1 m0 m1 k0 k1) fun e => ∀ s5, calls env { s3 with sndr := e.2 } h3 = .ok s5 →
        NonDegenerate s5.recv e.1 b → Ends (decryptMsgDecode env s5.recv e.1) fun x =>
          (x = pick b m0 m1 ↔ Fits 1024 (pick b m0 m1)) := by
  obtain ⟨d1, d2, -⟩ := calls_inv r1
  obtain ⟨g, h, r⟩ := hs.crs.rep
  have hl1 : Live env s1.recv.dme.curve := by rw [d1]; exact hs.recv
  obtain ⟨pg, ph, e1, rg, rh⟩ := keyGen_rep (d := s1.recv.dme) hl1 (by rw [d1]; exact r) b coin
  refine ⟨(⟨pg, ph⟩, { s1.recv with sk := Fld.ofZ (coin : F), b := some b }),
    by simp only [selectMsg, e1, R.ok_bind], ?_⟩
  intro s3 r3
  obtain ⟨d3, d4, d5⟩ := calls_inv r3
  have d5 := d5 hn2
  have hd : s3.sndr.dme = s.sndr.dme := d4.trans d2
  have hl3 : Live env s3.sndr.dme.curve := by rw [hd]; exact hs.sndr
  obtain ⟨P0, p0, x0⟩ := C30_exact env hl3 m0
  obtain ⟨P1, p1, x1⟩ := C30_exact env hl3 m1
  obtain ⟨P0', p0', q0, -⟩ := C30_encode_terminates env hl3 m0
  obtain ⟨P1', p1', q1, -⟩ := C30_encode_terminates env hl3 m1
  obtain rfl : P0 = P0' := Except.ok.inj (p0.symm.trans p0')
  obtain rfl : P1 = P1' := Except.ok.inj (p1.symm.trans p1')
  obtain ⟨M0, hM0⟩ := valid_iff.1 (.inr q0)
  obtain ⟨M1, hM1⟩ := valid_iff.1 (.inr q1)
  have rs : RepCrs env s3.sndr.dme.crs g h := by rw [hd]; exact r.congr hs.same hs.crs'
  obtain ⟨c0, v0, f0, ru0, rv0, ha0, rm0⟩ := enc_rep (pk := ⟨pg, ph⟩) hl3 rs rg rh hM0 .b0 k0.s k0.t
  obtain ⟨c1, v1, f1, ru1, rv1, ha1, rm1⟩ := enc_rep (pk := ⟨pg, ph⟩) hl3 rs rg rh hM1 .b1 k1.s k1.t
  refine ⟨([c0, c1], { s3.sndr with c := [c0, c1] }),
    by simp only [encMsgsZ, encZ, p0, p1, f0, f1, R.ok_bind], ?_⟩
  intro s5 r5
  obtain ⟨-, -, d6⟩ := calls_inv r5
  have d6 := (d6 hn3).trans d5
  simp only at d6
  rw [d6]
  simp only [decryptMsgDecode, selected, NonDegenerate, index_pair, R.ok_bind, Except.ok.injEq, exists_eq_left',
    ofZ_ne_zero_iff]
  rintro ⟨a1, a2, a3⟩
  rcases b with _ | _
  · simp only [pick] at *
    have hk : (coin : F) • ((k0.s : F) • g .b0 + (k0.t : F) • h .b0) ≠ 0 := by
      intro h0
      rcases smul_eq_zero.1 h0 with h' | h'
      · exact a2 h'
      · simp only [(rep_inf ru0).2 h'] at a1; simp at a1
    obtain ⟨m, hm, rm⟩ := dec_rep ru0 rm0 hk (fun h0 => by rw [(rep_inf rm0).2 h0] at a3; simp at a3)
    refine ⟨decode m, by rw [decDecode, hm, R.ok_bind], ?_⟩
    rw [decode_congr (P := P0) hM0 (by convert rm using 1; module)]
    exact x0
  · simp only [pick] at *
    have hk : (coin : F) • ((k1.s : F) • g .b1 + (k1.t : F) • h .b1) ≠ 0 := by
      intro h0
      rcases smul_eq_zero.1 h0 with h' | h'
      · exact a2 h'
      · simp only [(rep_inf ru1).2 h'] at a1; simp at a1
    obtain ⟨m, hm, rm⟩ := dec_rep ru1 rm1 hk (fun h0 => by rw [(rep_inf rm1).2 h0] at a3; simp at a3)
    refine ⟨decode m, by rw [decDecode, hm, R.ok_bind], ?_⟩
    rw [decode_congr (P := P1) hM1 (by convert rm using 1; module)]
    exact x1

/-- a negative message is not delivered -/
example : (do
    let d ← ctorMessy tenv2 (some 0) ⟨5, 7, 2, 3⟩
    let s := Sndr.ctor (ctorCrs (some 1) d.crs)
    let (pk, r) ← selectMsg tenv2 (Recv.ctor d) .b1 11
    let (c, _) ← encMsgsZ tenv2 s pk 200 (-7) ⟨17, 18⟩ ⟨19, 20⟩
    let x ← decryptMsgDecode tenv2 r c
    .ok (decide (x = -7))) = .ok false := by decide +kernel

end Ot

namespace ElGamal

open Dme (IsAbscissa F)

/-- C41: for draws that are not degenerate, decryption returns the encrypted integer **exactly** if it fits, for every
integer. -/
theorem C41_exact (env : Env) {c : Option Addr} (hl : LiveGen env c) (sk : ℤ) (coin m : ℤ) :
    Ends (Curve.getDefaultGen env CC c) fun g => Ends (g.smulZ env CC sk) fun pk =>
      Ends (encrypt env c pk m coin) fun ct =>
        ct.u.inf = false → ct.mv.inf = false → ¬ CC.order ∣ sk →
          Ends (decrypt env (Fld.mk' CC.fn sk) ct) fun m' => (m' = m ↔ Fits (2 ^ 20) m) := by
  obtain ⟨g, g1, g2⟩ := getDefaultGen_rep (C := CC) hl
  obtain ⟨pk, p1, p2⟩ := smulI_rep g2 sk
  obtain ⟨k, P, h1, h2, h3, h4, h5, h6, h7⟩ := encode_ok hl.live m
  obtain ⟨M, hM0, hM⟩ := isFinite_iff.1 h7
  obtain ⟨u, a1, a2⟩ := smulF_rep g2 (coin : F)
  obtain ⟨v, b1, b2⟩ := smulF_rep p2 (coin : F)
  obtain ⟨mv, d1, d2⟩ := add_rep b2 hM
  refine ⟨g, g1, pk, p1, ⟨u, mv⟩, ?_, ?_⟩
  · simp only [encrypt, h4, R.ok_bind, encryptP, getRandomScalar_ok hl.live, g1, a1, b1, d1]
  intro hu hmv hsk
  simp only at hu hmv
  have hsk' : (sk : F) ≠ 0 := by
    rw [Ne, ZMod.intCast_zmod_eq_zero_iff_dvd]
    exact hsk
  obtain ⟨w, w1, w2⟩ := smulF_rep a2 (sk : F)
  have hw : (sk : F) • (coin : F) • (G : Grp CC) ≠ 0 := by
    intro h
    rcases smul_eq_zero.1 h with h | h
    · exact hsk' h
    · rw [(rep_inf a2).2 h] at hu; simp at hu
  have hv : (coin : F) • (sk : F) • (G : Grp CC) + M ≠ 0 := by
    intro h
    rw [(rep_inf d2).2 h] at hmv; simp at hmv
  obtain ⟨res, r1, r2⟩ := sub_rep d2 w2 hv hw
  have e : (coin : F) • (sk : F) • (G : Grp CC) + M - (sk : F) • (coin : F) • (G : Grp CC) = M := by module
  rw [e] at r2
  refine ⟨decode res, by simp only [decrypt, Fld.mk'_eq, w1, R.ok_bind, r1], ?_⟩
  have hx : res.x = P.x := by
    rcases cases_pt M with h | ⟨x, y, hon, rfl⟩
    · exact absurd h hM0
    · rw [((rep_pt_iff hon).1 r2).2.1, ((rep_pt_iff hon).1 hM).2.1]
  rw [← Dme.fits_iff (W := 2 ^ 20) (by norm_num) h2 h3, decode, hx, h6]
  rfl

/-- a message that fits and one that does not -/
example : Fits (2 ^ 20) (CC.gx / 2 ^ 20) ∧ ¬ Fits (2 ^ 20) (-1) :=
  ⟨⟨by decide, CC.gx, by decide, by decide, by decide, CC.gy, by unfold CurveEq Int.ModEq; decide +kernel⟩,
    fun h => absurd h.1 (by norm_num)⟩

end ElGamal
end Verif
