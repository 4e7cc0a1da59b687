import Verif.Props.OpprfDebug
import Verif.Props.OpprfSampleB

/-!
# C103: what an OPPRF server still answers after `clean`
-/

namespace Verif
namespace Opprf

open EC Dme Ot Aes

attribute [local irreducible] Rep

/-- the first round of an evaluation, round 16, alone -/
def topRound (W : World) (s : Server) (c : Client) (x : Msg) (d : RoundDraws) : R (Server × Client) := do
  let (pk, c) ← (c.setMessage x).start W 16 d.sk
  let (m, s) ← s.runOTRound W 16 pk d.enc
  let c ← c.finish W 16 m
  .ok (s, c)

/-- if that round returns, the ciphertext of the point on the client's branch does not involve infinity -/
def FineTop (W : World) (s : Server) (c : Client) (x : Msg) (d : RoundDraws) : Prop :=
  ∀ pk c' m s', (c.setMessage x).start W 16 d.sk = .ok (pk, c') → s.runOTRound W 16 pk d.enc = .ok (m, s') →
    ∀ c'', c'.finish W 16 m = .ok c'' → NonDegenerate c'.otr m.cprf (branch (x.toNat.testBit 15))

/-- `ga` from the results of two clients after round 16 -/
def secretOf (env : Env) (t0 t1 : Pt) : R Pt := do
  let n ← t0.smulZ env CC (-1)
  let a ← t1.add env CC n
  let i ← (Fld.mk' CC.fn 1).div env CC.fn (Fld.mk' CC.fn (2 ^ 15))
  a.smul env CC i

/-- C103 is false: `clean` does not change what the server answers in round 16, whatever the server, the public key and the
draws. -/
theorem C103_round16_counterexample {W : World} {s s' : Server} {g : ℤ} (h : s.clean W.env g = .ok s') (pk : PKey)
    (k : RoundCoins) :
    (s'.runOTRound W 16 pk k).map Prod.fst = (s.runOTRound W 16 pk k).map Prod.fst := by
  unfold Server.clean at h
  obtain ⟨gk, -, h⟩ := R.bind_eq_ok.1 h
  obtain rfl := Except.ok.inj h
  unfold Server.runOTRound
  rw [if_pos rfl, if_pos rfl]
  dsimp only
  cases encMsgsZ W.env s.ots pk s.Sl0.k s.Sl1.k k.lt0 k.lt1 with
  | error e => rfl
  | ok c =>
    simp only [R.ok_bind]
    cases encMsgs W.env c.2 pk s.Sl0.prf s.Sl1.prf k.prf0 k.prf1 <;> rfl

theorem round16_clean {W : World} {s s' t' : Server} {g : ℤ} (h : s.clean W.env g = .ok s') {pk : PKey} {k : RoundCoins}
    {m : OtCtxts} (h2 : s'.runOTRound W 16 pk k = .ok (m, t')) : ∃ t, s.runOTRound W 16 pk k = .ok (m, t) := by
  have e := C103_round16_counterexample h pk k
  rw [h2] at e
  cases h3 : s.runOTRound W 16 pk k with
  | error f => rw [h3] at e; cases e
  | ok r =>
    rw [h3] at e
    obtain rfl : m = r.1 := Except.ok.inj e
    exact ⟨r.2, rfl⟩

theorem clean_ots {env : Env} {s s' : Server} {g : ℤ} (h : s.clean env g = .ok s') : s'.ots = s.ots := by
  unfold Server.clean at h
  obtain ⟨gk, -, h⟩ := R.bind_eq_ok.1 h
  obtain rfl := Except.ok.inj h
  rfl

theorem topRound_inv {W : World} {s t : Server} {c c2 : Client} {x : Msg} {d : RoundDraws}
    (h : topRound W s c x d = .ok (t, c2)) :
    ∃ pk c1 m, (c.setMessage x).start W 16 d.sk = .ok (pk, c1) ∧ s.runOTRound W 16 pk d.enc = .ok (m, t) ∧
      c1.finish W 16 m = .ok c2 := by
  unfold topRound at h
  obtain ⟨⟨pk, c1⟩, h1, h⟩ := R.bind_eq_ok.1 h
  obtain ⟨⟨m, s1⟩, h2, h⟩ := R.bind_eq_ok.1 h
  obtain ⟨c3, h3, h⟩ := R.bind_eq_ok.1 h
  obtain ⟨rfl, rfl⟩ := Prod.mk.inj (Except.ok.inj h)
  exact ⟨pk, c1, m, h1, h2, h3⟩

theorem topRound_rep {W : World} {s s1 t : Server} {c c2 : Client} {A B Q : Grp CC} {o : ℕ → F}
    (hp : PreparedPts W s A B Q o) (hR : Ready W.env ⟨c.otr, s.ots⟩) (hc : c.result = Pt.infty CC) {g : ℤ}
    (h1 : s.clean W.env g = .ok s1) {l : List Ctxt} {x : Msg} {d : RoundDraws}
    (hf : FineTop W { s1 with ots := { s1.ots with c := l } } c x d)
    (h : topRound W { s1 with ots := { s1.ots with c := l } } c x d = .ok (t, c2)) :
    Rep W.env c2.result (((if x.toNat.testBit 15 then 2 ^ 15 else 0 : ℕ) : F) • A + o 15 • B) := by
  obtain ⟨pk, c1, m, e1, e2, e3⟩ := topRound_inv h
  have hf' := hf _ _ _ _ e1 e2 _ e3
  rw [runOTRound_frame s1 (ots := { s1.ots with c := l }) rfl] at e2
  obtain ⟨t', e2'⟩ := round16_clean h1 e2
  have := (round_any (x := x) (n := 15) (Rn := 0) hp hR (c := c.setMessage x) rfl
    (by change Rep W.env c.result 0; rw [hc]; exact rep_infty) (by norm_num) (by exact_mod_cast e1) (by exact_mod_cast e2') hf'
    (by exact_mod_cast e3)).2.2.2.2
  rwa [zero_add] at this

/-- C103 is false: after `clean` two clients whose inputs differ in bit 15, whatever the threshold, get from round 16 two points
whose difference, divided by `2^15`, is the server's secret `ga`. -/
theorem C103_secret_counterexample {W : World} {s s1 s2 s3 s4 : Server} {c0 c1 d0 d1 : Client} (hP0 : Parties W.env s c0)
    (hP1 : Parties W.env s c1) (hc0 : c0.result = Pt.infty CC) (hc1 : c1.result = Pt.infty CC) {k : PrepCoins}
    (hb : k.bits.length = 16) (h1 : s.prepare W k = .ok s1) {g : ℤ} (h2 : s1.clean W.env g = .ok s2) {x0 x1 : Msg}
    (hx0 : x0.toNat < 2 ^ 15) (hx1 : 2 ^ 15 ≤ x1.toNat) {t0 t1 : RoundDraws} (hf0 : FineTop W s2 c0 x0 t0)
    (h3 : topRound W s2 c0 x0 t0 = .ok (s3, d0)) (hf1 : FineTop W s3 c1 x1 t1) (h4 : topRound W s3 c1 x1 t1 = .ok (s4, d1)) :
    EqP W.env CC (secretOf W.env d0.result d1.result) (.ok s.ga) := by
  obtain ⟨A, hA⟩ := valid_iff.1 hP0.ga
  obtain ⟨p1, p2, -, -, -⟩ := prepare_pts hP0.server hA hP0.noKeys.2.2.2 hb h1
  have b0 : x0.toNat.testBit 15 = false := Nat.testBit_lt_two_pow hx0
  have b1 : x1.toNat.testBit 15 = true := by
    have : x1.toNat < 2 ^ 16 := x1.isLt
    rw [Nat.testBit_eq_decide_div_mod_eq, decide_eq_true_eq]
    omega
  obtain ⟨pk, _, m, -, f2, -⟩ := topRound_inv h3
  obtain ⟨l, rfl⟩ := runOTRound_inv f2
  have q0 := topRound_rep p1 (Ready.of_dme hP0.ready rfl (by rw [p2])) hc0 h2 (l := s2.ots.c) hf0 h3
  have q1 := topRound_rep p1 (Ready.of_dme hP1.ready rfl (by rw [p2])) hc1 h2 hf1 h4
  rw [b0] at q0
  rw [b1] at q1
  simp only [Bool.false_eq_true, if_false, if_true, Nat.cast_zero, zero_smulG, zero_add] at q0 q1
  obtain ⟨N, n1, n2⟩ := smulI_rep q0 (-1)
  obtain ⟨D, v1, v2⟩ := add_rep q1 n2
  have hne : ((2 ^ 15 : ℕ) : F) ≠ 0 := by
    rw [Ne, ZMod.natCast_eq_zero_iff]
    exact fun hd => absurd (Nat.le_of_dvd (by norm_num) hd) (by decide)
  have hi : (Fld.mk' CC.fn 1).div W.env CC.fn (Fld.mk' CC.fn (2 ^ 15)) = .ok (Fld.ofZ ((1 : F) / ((2 ^ 15 : ℕ) : F))) := by
    have e1 : Fld.mk' CC.fn 1 = Fld.ofZ (1 : F) := by
      rw [Fld.mk'_eq]; simp
    have e2 : Fld.mk' CC.fn (2 ^ 15) = Fld.ofZ ((2 ^ 15 : ℕ) : F) := by
      rw [Fld.mk'_eq]; simp
    rw [e1, e2, Fld.div_ofZ W.env _ hne]
  obtain ⟨E, f1, f2⟩ := smulF_rep v2 ((1 : F) / ((2 ^ 15 : ℕ) : F))
  refine eqP_of_rep ⟨E, by simp only [secretOf, n1, v1, hi, f1, R.ok_bind], f2⟩ ⟨s.ga, rfl, hA⟩ ?_
  rw [Int.cast_neg, Int.cast_one, neg_smul, one_smul, add_neg_cancel_right, smul_smul, one_div, inv_mul_cancel₀ hne, one_smul]

/-- C103 is false in debug builds for all draws, if `ga` and the CRS are finite. -/
theorem C103_debug_counterexample {W : World} (hd : W.env.ndebug = false) {s s1 s2 s3 s4 : Server} {c0 c1 d0 d1 : Client}
    (hP0 : Parties W.env s c0) (hP1 : Parties W.env s c1) (hga : s.ga.inf = false) (hcrs0 : FiniteCrs c0.otr.dme.crs)
    (hcrs1 : FiniteCrs c1.otr.dme.crs) (hc0 : c0.result = Pt.infty CC) (hc1 : c1.result = Pt.infty CC) {k : PrepCoins}
    (hb : k.bits.length = 16) (h1 : s.prepare W k = .ok s1) {g : ℤ} (h2 : s1.clean W.env g = .ok s2) {x0 x1 : Msg}
    (hx0 : x0.toNat < 2 ^ 15) (hx1 : 2 ^ 15 ≤ x1.toNat) {t0 t1 : RoundDraws}
    (h3 : topRound W s2 c0 x0 t0 = .ok (s3, d0)) (h4 : topRound W s3 c1 x1 t1 = .ok (s4, d1)) :
    EqP W.env CC (secretOf W.env d0.result d1.result) (.ok s.ga) := by
  have key (c : Client) (hc : FiniteCrs c.otr.dme.crs) (l : List Ctxt) (x : Msg) (t : RoundDraws) :
      FineTop W { s2 with ots := { s2.ots with c := l } } c x t := by
    intro pk c' m s' e1 e2 c'' e3
    rw [runOTRound_frame s2 (ots := { s2.ots with c := l }) rfl] at e2
    obtain ⟨t', e2'⟩ := round16_clean h2 e2
    obtain ⟨n1, n2⟩ := noPtrs_prepare hP0.server hga h1
    exact (finePoints_debug hd (fun _ => t) 16 le_rfl n1 (c := c.setMessage x) hc
      (by rw [n2]; exact finiteCrs_congr hP0.ready.same hcrs0) rfl pk c' m t' e1 e2' c'' e3).1
  obtain ⟨pk, _, m, -, f2, -⟩ := topRound_inv h3
  obtain ⟨l, e⟩ := runOTRound_inv f2
  exact C103_secret_counterexample hP0 hP1 hc0 hc1 hb h1 h2 hx0 hx1 (key c0 hcrs0 s2.ots.c x0 t0) h3
    (by rw [e]; exact key c1 hcrs1 l x1 t1) h4

/-! ## The other rounds, and servers that were never prepared -/

/-- the server has just been constructed, or cleaned -/
inductive Blank (W : World) : Server → Prop
  | new {a : Option Addr} {theta : Msg} {crs : Crs} {g : ℤ} {s : Server} (h : Server.ctor W.env a theta crs g = .ok s) : Blank W s
  | cleaned {s0 : Server} {g : ℤ} {s : Server} (h : s0.clean W.env g = .ok s) : Blank W s

theorem Blank.tables {W : World} {s : Server} (h : Blank W s) :
    s.Si0 = List.replicate 16 ⟨0, 0, 0, Pt.infty CC⟩ ∧ s.Si1 = List.replicate 16 ⟨0, 0, 0, Pt.infty CC⟩ ∧ s.ok = [] := by
  cases h with
  | new h =>
    unfold Server.ctor at h
    obtain ⟨gk, -, h⟩ := R.bind_eq_ok.1 h
    obtain rfl := Except.ok.inj h
    exact ⟨rfl, rfl, rfl⟩
  | cleaned h =>
    unfold Server.clean at h
    obtain ⟨gk, -, h⟩ := R.bind_eq_ok.1 h
    obtain rfl := Except.ok.inj h
    exact ⟨rfl, rfl, rfl⟩

theorem encodable_zero : Encodable 0 :=
  ⟨0, by norm_num, 46263761741508638697010950048709651021688891777877937875096931459006746039284,
    (Int.modEq_iff_dvd.2 (Int.dvd_of_emod_eq_zero (by decide +kernel))).symm⟩

theorem pick_same {α : Type} (b : Branch) (m : α) : pick b m m = m := by cases b <;> rfl

/-- C103 for the rounds 1 to 15 (what `clean` does remove): all that a client with any input receives from a new or cleaned
server, in whatever order, decrypts to the key 0 and the point infinity. -/
theorem C103_blank {W : World} {s s' : Server} (hs : Blank W s) {c c1 : Client} (hR : Ready W.env ⟨c.otr, s.ots⟩) {x : Msg}
    (hx : c.x = some x) {n : ℕ} (hn : n < 15) {coin : ℤ} {k : RoundCoins} {pk : PKey} {m : OtCtxts}
    (h1 : c.start W (n + 1 : ℕ) coin = .ok (pk, c1)) (h2 : s.runOTRound W (n + 1 : ℕ) pk k = .ok (m, s')) :
    (∀ v ∈ m.ctxt.toList, NonDegenerate c1.otr v (branch (x.toNat.testBit n)) →
      decryptMsgDecode W.env c1.otr v = .ok 0) ∧
    (NonDegenerate c1.otr m.cprf (branch (x.toNat.testBit n)) →
      Ends (decryptMsg W.env c1.otr m.cprf) fun P => P.inf = true) := by
  obtain ⟨t0, t1, -⟩ := hs.tables
  obtain ⟨pk', rc, g1, g2, hpt, hz⟩ := ot_round hR (branch (x.toNat.testBit n)) coin
  rw [start_ok (c := c) hx (by omega) g1] at h1
  obtain ⟨rfl, rfl⟩ := Prod.mk.inj (Except.ok.inj h1)
  have hz' : ∀ v, (∀ (q : 0 ≤ pick (branch (x.toNat.testBit n)) (0 : ℤ) 0)
      (q' : (pick (branch (x.toNat.testBit n)) (0 : ℤ) 0 + 1) * 1024 ≤ CC.prime)
      (q'' : Encodable (pick (branch (x.toNat.testBit n)) (0 : ℤ) 0)) (q3 : NonDegenerate rc v (branch (x.toNat.testBit n))),
      decryptMsgDecode W.env rc v = .ok (pick (branch (x.toNat.testBit n)) (0 : ℤ) 0)) →
      NonDegenerate rc v (branch (x.toNat.testBit n)) → decryptMsgDecode W.env rc v = .ok 0 := by
    intro v h hv
    rw [pick_same] at h
    exact h le_rfl (by decide) encodable_zero hv
  obtain ⟨v0, f0, -, i0⟩ := hz s.ots rfl 0 0 k.lt0 k.lt1
  obtain ⟨v1, f1, -, i1⟩ := hz { s.ots with c := v0 } rfl 0 0 k.eq0 k.eq1
  obtain ⟨v2, f2, -, i2⟩ := hz { s.ots with c := v1 } rfl 0 0 k.gt0 k.gt1
  obtain ⟨p, f3, -, d3⟩ := hpt { s.ots with c := v2 } rfl (Pt.infty CC) (Pt.infty CC) 0 0 rep_infty rep_infty k.prf0 k.prf1
  have a0 : atShort s.Si0 ((n + 1 : ℕ) : ℤ) = .ok ⟨0, 0, 0, Pt.infty CC⟩ := by
    rw [atShort, if_neg (by omega), Int.toNat_natCast, at'_ok, t0, List.getElem?_replicate, if_pos (by omega)]
  have a1 : atShort s.Si1 ((n + 1 : ℕ) : ℤ) = .ok ⟨0, 0, 0, Pt.infty CC⟩ := by
    rw [atShort, if_neg (by omega), Int.toNat_natCast, at'_ok, t1, List.getElem?_replicate, if_pos (by omega)]
  unfold Server.runOTRound at h2
  rw [if_neg (by omega)] at h2
  simp only [a0, a1, R.ok_bind, f0, f1, f2, f3] at h2
  obtain ⟨rfl, rfl⟩ := Prod.mk.inj (Except.ok.inj h2)
  refine ⟨?_, fun hf => ?_⟩
  · intro v hv
    have hv := (mem_shuffle _ _ _ _).1 hv
    simp only [Arr3.toList, List.mem_cons, List.not_mem_nil, or_false] at hv
    rcases hv with rfl | rfl | rfl
    · exact hz' _ i0
    · exact hz' _ i1
    · exact hz' _ i2
  · obtain ⟨P, hP1, hP2⟩ := d3 hf
    rw [pick_same] at hP2
    exact ⟨P, hP1, (rep_inf hP2).2 rfl⟩

/-- C103 for the masks: a new or cleaned server has none to send. -/
theorem C103_masks {W : World} {s : Server} (hs : Blank W s) (k : MaskCoins) : Faults (s.sendEncryptedMasks W k) := by
  obtain ⟨-, -, h⟩ := hs.tables
  refine ⟨.oobRead, ?_⟩
  unfold Server.sendEncryptedMasks
  rw [h]
  rfl

theorem unseal_zero (W : World) (e : ℤ) : ∃ f, W.unseal 0 e = .error f := ⟨_, rfl⟩

/-- C103 for a new server that answers before its preparation: round 16 goes unnoticed, the client gets the key 0 and adds
infinity to its result; with this key every later round and `unmaskResult` fault, whatever it is given.  The exceptions are
draws that put infinity into a ciphertext. -/
theorem C103_unprepared {W : World} {a : Option Addr} {theta : Msg} {crs : Crs} {g : ℤ} {s s' : Server}
    (hs : Server.ctor W.env a theta crs g = .ok s) {c c1 : Client} (hR : Ready W.env ⟨c.otr, s.ots⟩)
    (hr : Valid W.env CC c.result) {x : Msg} (hx : c.x = some x) {coin : ℤ} {k : RoundCoins} {pk : PKey} {m : OtCtxts}
    (h1 : c.start W 16 coin = .ok (pk, c1)) (h2 : s.runOTRound W 16 pk k = .ok (m, s'))
    (hf : NonDegenerate c1.otr m.ctxt.e0 (branch (x.toNat.testBit 15)))
    (hf' : NonDegenerate c1.otr m.cprf (branch (x.toNat.testBit 15))) :
    Ends (c1.finish W 16 m) fun c2 => c2.key = 0 ∧ EqP W.env CC (.ok c2.result) (.ok c.result) ∧
      (∀ m' : OtCtxts, ∀ round ≠ 16, Faults (c2.finish W round m')) ∧
      ∀ masks coin, Faults (c2.unmaskResult W masks coin) := by
  obtain ⟨A, hA⟩ := valid_iff.1 hr
  obtain ⟨pk', rc, g1, g2, hpt, hz⟩ := ot_round hR (branch (x.toNat.testBit 15)) coin
  have e := start_ok (W := W) (c := c) hx (n := 15) (by norm_num) g1
  rw [show ((15 + 1 : ℕ) : ℤ) = 16 from rfl, h1] at e
  obtain ⟨rfl, rfl⟩ := Prod.mk.inj (Except.ok.inj e)
  have t : s.Sl0 = ⟨0, Pt.infty CC⟩ ∧ s.Sl1 = ⟨0, Pt.infty CC⟩ := by
    unfold Server.ctor at hs
    obtain ⟨gk, -, h⟩ := R.bind_eq_ok.1 hs
    obtain rfl := Except.ok.inj h
    exact ⟨rfl, rfl⟩
  obtain ⟨v0, f0, -, i0⟩ := hz s.ots rfl 0 0 k.lt0 k.lt1
  obtain ⟨p, f3, -, d3⟩ := hpt { s.ots with c := v0 } rfl (Pt.infty CC) (Pt.infty CC) 0 0 rep_infty rep_infty k.prf0 k.prf1
  unfold Server.runOTRound at h2
  rw [if_pos rfl] at h2
  simp only [t.1, t.2, R.ok_bind, f0, f3] at h2
  obtain ⟨rfl, rfl⟩ := Prod.mk.inj (Except.ok.inj h2)
  rw [pick_same] at i0
  obtain ⟨P, hP1, hP2⟩ := d3 hf'
  rw [pick_same] at hP2
  obtain ⟨S, s1, s2⟩ := add_rep hA hP2
  refine ⟨{ c with otr := rc, key := 0, result := S }, ?_, rfl, ?_, ?_, ?_⟩
  · unfold Client.finish
    simp only [if_pos, i0 le_rfl (by decide) encodable_zero hf, hP1, s1, R.ok_bind]
  · rw [add_zero] at s2
    exact eqP_of_rep ⟨_, rfl, s2⟩ ⟨_, rfl, hA⟩ rfl
  · intro m' round hr'
    unfold Client.finish
    rw [if_neg hr']
    have : Faults (searchKey W { c with otr := rc, key := 0, result := S } m'.ctxt.toList) := by
      unfold Arr3.toList searchKey
      cases decryptMsgDecode W.env rc m'.ctxt.e0 with
      | error e => exact ⟨e, rfl⟩
      | ok e => exact ⟨_, rfl⟩
    obtain ⟨e, he⟩ := this
    exact ⟨e, by rw [he]; rfl⟩
  · intro masks coin
    exact ⟨_, rfl⟩

/-! ## Samples -/

namespace Sample

def srv2 : Server := { srv1 with
  kopprf := inf, r := inf, Si0 := List.replicate 16 .default, Si1 := List.replicate 16 .default,
  k_lt := [], k_eq := [], k_gt := [], ok := [] }

theorem clean_eq : srv1.clean W.env 3 = .ok srv2 := by decide +kernel

/-- draws of round 16 -/
def dtop : RoundDraws := ⟨3, rc⟩

def cl0 : Client := Client.ctor (some 1) crs

theorem ok_of_isOk {α : Type} {r : R α} (h : r.isOk = true) : ∃ x, r = .ok x := by
  cases r with
  | error e => cases h
  | ok x => exact ⟨x, rfl⟩

/-- with threshold 1000, after `clean`, inputs 700 and 40000 -/
example : ∃ s3 d0 s4 d1, topRound W srv2 cl0 700#16 dtop = .ok (s3, d0) ∧ topRound W s3 cl0 40000#16 dtop = .ok (s4, d1) ∧
    EqP W.env CC (secretOf W.env d0.result d1.result) (.ok ga) := by
  have h : (do let (s3, d0) ← topRound W srv2 cl0 700#16 dtop
               let (_, d1) ← topRound W s3 cl0 40000#16 dtop
               .ok (d0, d1) : R (Client × Client)).isOk = true := by decide +kernel
  obtain ⟨v, hv⟩ := ok_of_isOk h
  obtain ⟨⟨s3, d0⟩, h3, hv⟩ := R.bind_eq_ok.1 hv
  obtain ⟨⟨s4, d1⟩, h4, hv⟩ := R.bind_eq_ok.1 hv
  exact ⟨s3, d0, s4, d1, h3, h4, C103_debug_counterexample rfl parties parties rfl (fun b => by cases b <;> exact ⟨rfl, rfl⟩)
    (fun b => by cases b <;> exact ⟨rfl, rfl⟩) rfl rfl (k := draws.prep) (by simp [draws]) prepare_eq clean_eq (by decide) (by decide)
    h3 h4⟩

/-- a release build: the points in the ciphertexts are finite here too -/
example : FineTop W srv2 cl0 700#16 dtop := by
  intro pk c' m s' h1 h2 c'' _
  have h : (do let (pk, c) ← (cl0.setMessage 700#16).start W 16 dtop.sk
               let (m, _) ← srv2.runOTRound W 16 pk dtop.enc
               let ct ← index m.cprf (branch ((700#16).toNat.testBit 15))
               .ok (!ct.u.inf && decide (c.otr.sk.value ≠ 0) && !ct.mv.inf) : R Bool) = .ok true := by decide +kernel
  rw [h1, R.ok_bind] at h
  dsimp only at h
  rw [h2, R.ok_bind] at h
  dsimp only at h
  obtain ⟨ct, i1, h⟩ := R.bind_eq_ok.1 h
  have h := Except.ok.inj h
  simp only [Bool.and_eq_true, Bool.not_eq_true', decide_eq_true_eq] at h
  exact ⟨ct, i1, h.1.1, h.1.2, h.2⟩

/-- the cleaned server has nothing left for round 7 -/
example : ∃ pk c1 m s', (cl0.setMessage 700#16).start W 7 3 = .ok (pk, c1) ∧ srv2.runOTRound W 7 pk rc = .ok (m, s') ∧
    decryptMsgDecode W.env c1.otr m.ctxt.e1 = .ok 0 := by
  have h : (do let (pk, c) ← (cl0.setMessage 700#16).start W 7 3
               let (m, _) ← srv2.runOTRound W 7 pk rc
               let ct ← index m.ctxt.e1 (branch ((700#16).toNat.testBit 6))
               .ok (!ct.u.inf && decide (c.otr.sk.value ≠ 0) && !ct.mv.inf) : R Bool) = .ok true := by decide +kernel
  obtain ⟨⟨pk, c1⟩, h1, h⟩ := R.bind_eq_ok.1 h
  obtain ⟨⟨m, s'⟩, h2, h⟩ := R.bind_eq_ok.1 h
  obtain ⟨ct, i1, h⟩ := R.bind_eq_ok.1 h
  have h := Except.ok.inj h
  simp only [Bool.and_eq_true, Bool.not_eq_true', decide_eq_true_eq] at h
  refine ⟨pk, c1, m, s', h1, h2, ?_⟩
  exact (C103_blank (.cleaned clean_eq) (c := cl0.setMessage 700#16) (Ready.of_dme parties.ready rfl rfl) rfl (n := 6)
    (by norm_num) h1 h2).1 _ (by simp [Arr3.toList]) ⟨ct, i1, h.1.1, h.1.2, h.2⟩

example : Faults (srv2.sendEncryptedMasks W ⟨77, 0, 0⟩) := C103_masks (.cleaned clean_eq) _

/-- a server that has been constructed and nothing else -/
example : ∃ s pk c1 m s', Server.ctor W.env (some 0) 1000#16 crs 3 = .ok s ∧
    (cl0.setMessage 700#16).start W 16 3 = .ok (pk, c1) ∧ s.runOTRound W 16 pk rc = .ok (m, s') ∧
      Ends (c1.finish W 16 m) fun c2 => c2.key = 0 := by
  have h : (do let s ← Server.ctor W.env (some 0) 1000#16 crs 3
               let (pk, c) ← (cl0.setMessage 700#16).start W 16 3
               let (m, _) ← s.runOTRound W 16 pk rc
               let ct ← index m.ctxt.e0 (branch ((700#16).toNat.testBit 15))
               let ct' ← index m.cprf (branch ((700#16).toNat.testBit 15))
               .ok ((!ct.u.inf && decide (c.otr.sk.value ≠ 0) && !ct.mv.inf) && (!ct'.u.inf && !ct'.mv.inf)) : R Bool) = .ok true := by
    decide +kernel
  obtain ⟨s, hs, h⟩ := R.bind_eq_ok.1 h
  obtain ⟨⟨pk, c1⟩, h1, h⟩ := R.bind_eq_ok.1 h
  obtain ⟨⟨m, s'⟩, h2, h⟩ := R.bind_eq_ok.1 h
  obtain ⟨ct, i1, h⟩ := R.bind_eq_ok.1 h
  obtain ⟨ct', i2, h⟩ := R.bind_eq_ok.1 h
  have h := Except.ok.inj h
  simp only [Bool.and_eq_true, Bool.not_eq_true', decide_eq_true_eq] at h
  have hd : s.ots.dme = srv0.ots.dme := by
    unfold Server.ctor at hs
    obtain ⟨gk, -, e⟩ := R.bind_eq_ok.1 hs
    obtain rfl := Except.ok.inj e
    rfl
  obtain ⟨c2, e1, e2, -⟩ := C103_unprepared hs (c := cl0.setMessage 700#16) (c1 := c1)
    (Ready.of_dme parties.ready rfl hd) parties.result rfl h1 h2 ⟨ct, i1, h.1.1.1, h.1.1.2, h.1.2⟩
    ⟨ct', i2, h.2.1, h.1.1.2, h.2.2⟩
  exact ⟨s, pk, c1, m, s', hs, h1, h2, c2, e1, e2⟩

end Sample

end Opprf
end Verif
