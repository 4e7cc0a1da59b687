import Verif.Props.OpprfReplay
import Verif.Props.OpprfPrivacy

/-!
# C114: a client that made the CRS
-/

namespace Verif

namespace Pt

open EC

/-- the two outcomes of a scalar multiplication of a finite point, as far as the curve pointer is concerned -/
def Plain (C : CurveClass) (a : Option Addr) (P : Pt) : Prop := P = infty C ∨ P.inf = false ∧ P.curve = a

theorem smulLoop_plain {env : Env} {C : CurveClass} {a : Option Addr} (l : List Char) {p r q : Pt} (hp : p.inf = false)
    (hc : p.curve = a) (hr : Plain C a r) (h : smulLoop env C l p r = .ok q) : Plain C a q := by
  induction l generalizing p r with
  | nil => obtain rfl := Except.ok.inj h; exact hr
  | cons c l ih =>
    rw [smulLoop] at h
    obtain ⟨r', h1, h⟩ := R.bind_eq_ok.1 h
    obtain ⟨p', h2, h⟩ := R.bind_eq_ok.1 h
    have hp' : p'.inf = false ∧ p'.curve = a := by
      split at h2
      · obtain rfl := Except.ok.inj h2; exact ⟨hp, hc⟩
      · exact double_plain hc h2
    refine ih hp'.1 hp'.2 ?_ h
    split at h1
    · exact add_plain hp hc hr h1
    · obtain rfl := Except.ok.inj h1; exact hr
where
  double_plain {p p' : Pt} (hc : p.curve = a) (h : p.double env C = .ok p') : p'.inf = false ∧ p'.curve = a := by
    unfold double at h
    simp only [R.bind_eq_ok] at h
    obtain ⟨_, -, _, -, _, -, _, -, _, -, _, -, _, -, _, -, _, -, _, -, _, -, _, -, h⟩ := h
    obtain rfl := Except.ok.inj h
    exact ⟨rfl, hc⟩
  add_plain {p r q : Pt} (hp : p.inf = false) (hc : p.curve = a) (hr : Plain C a r) (h : r.add env C p = .ok q) : Plain C a q := by
    unfold add at h
    rcases hr with rfl | ⟨r1, r2⟩
    · rw [if_pos (show (infty C).inf = true from rfl)] at h
      obtain rfl := Except.ok.inj h
      exact Or.inr ⟨hp, hc⟩
    · rw [if_neg (by simp [r1]), if_neg (by simp [hp])] at h
      obtain ⟨_, -, h⟩ := R.bind_eq_ok.1 h
      split at h
      · split at h
        · exact Or.inr (double_plain r2 h)
        · exact Or.inl (Except.ok.inj h).symm
      · simp only [R.bind_eq_ok] at h
        obtain ⟨_, -, _, -, _, -, _, -, _, -, _, -, _, -, _, -, _, -, h⟩ := h
        obtain rfl := Except.ok.inj h
        exact Or.inr ⟨rfl, r2⟩

theorem smul_plain {env : Env} {C : CurveClass} {P Q : Pt} {k : Fld} (hP : P.inf = false) (h : P.smul env C k = .ok Q) :
    Plain C P.curve Q := by
  rw [smul, if_neg (by simp [hP])] at h
  exact smulLoop_plain _ hP rfl (Or.inl rfl) h

/-- two points of that form standing for the same group element are the same object -/
theorem Plain.eq {env : Env} {C : CurveClass} [GoodCurve0 C] {a : Option Addr} {P Q : Pt} (hP : Plain C a P) (hQ : Plain C a Q)
    {g : Grp C} (rP : Rep env P g) (rQ : Rep env Q g) : P = Q := by
  rcases hP with rfl | ⟨p1, p2⟩ <;> rcases hQ with rfl | ⟨q1, q2⟩
  · rfl
  · have h0 := (rep_inf rP).1 rfl
    rw [(rep_inf rQ).2 h0] at q1; cases q1
  · have h0 := (rep_inf rQ).1 rfl
    rw [(rep_inf rP).2 h0] at p1; cases p1
  · rcases P with ⟨px, py, pi, pc⟩
    rcases Q with ⟨qx, qy, qi, qc⟩
    rcases g with _ | ⟨x, y, h⟩
    · have := rP.1
      simp_all
    · obtain ⟨-, a1, a2, -⟩ := rP
      obtain ⟨-, b1, b2, -⟩ := rQ
      simp_all

end Pt

namespace Dme

open EC

/-- in a decryption-mode object with a base and trapdoors other than zero the key of `TrapKeyGen` is the key of `KeyGen(0)` and
of `KeyGen(1)`, to the bit -/
theorem trap_keys {env : Env} {a : Option Addr} (hl : LiveGen env a) {k : DecCoins} (hy : ¬ CC.order ∣ k.y)
    (hg : ¬ CC.order ∣ k.g0) (he : ¬ CC.order ∣ k.e) {d : Inst} (hd : ctorDec env a k = .ok d) (t u : ℤ)
    (hu : u * k.y ≡ t [ZMOD CC.order]) :
    ∃ pk s0 s1, trapKeyGen env d t = .ok (pk, s0, s1) ∧ keyGen env d .b0 t = .ok ⟨pk, s0⟩ ∧ keyGen env d .b1 u = .ok ⟨pk, s1⟩ := by
  have ho : CC.order = (CC.fn : ℤ) := by decide
  have nz : ∀ {z : ℤ}, ¬ CC.order ∣ z → (z : F) ≠ 0 := fun h h0 => h (by
    rw [ho]; exact (ZMod.intCast_zmod_eq_zero_iff_dvd _ _).1 h0)
  have hu' : (u : F) * (k.y : F) = (t : F) := by
    rw [ho] at hu
    have := (ZMod.intCast_eq_intCast_iff _ _ _).2 hu
    push_cast at this
    exact this
  obtain ⟨P, a1, a2⟩ := randomPoint_rep (C := CC) hl k.g0
  obtain ⟨Q, b1, b2⟩ := smulF_rep a2 (k.y : F)
  obtain ⟨S, c1, c2⟩ := smulF_rep a2 (k.e : F)
  obtain ⟨T, d1, d2⟩ := smulF_rep b2 (k.e : F)
  have hG : (k.g0 : F) • (G : Grp CC) ≠ 0 := smul_ne_zero (nz hg) G_ne_zero
  have fin : ∀ {p : Pt} {g : Grp CC}, Rep env p g → g ≠ 0 → p.inf = false := fun r h0 => by
    by_contra h
    exact h0 ((rep_inf r).1 (by simpa using h))
  have P1 := fin a2 hG
  have Q1 := fin b2 (smul_ne_zero (nz hy) hG)
  have S1 := fin c2 (smul_ne_zero (nz he) hG)
  have T1 := fin d2 (smul_ne_zero (nz he) (smul_ne_zero (nz hy) hG))
  have Qc : Q.curve = P.curve := ((Pt.smul_plain P1 b1).resolve_left fun h => by rw [h] at Q1; cases Q1).2
  have Sc : S.curve = P.curve := ((Pt.smul_plain P1 c1).resolve_left fun h => by rw [h] at S1; cases S1).2
  have Tc : T.curve = P.curve := ((Pt.smul_plain Q1 d1).resolve_left fun h => by rw [h] at T1; cases T1).2.trans Qc
  obtain ⟨pg, e1, e2⟩ := smulF_rep a2 (t : F)
  obtain ⟨ph, f1, f2⟩ := smulF_rep c2 (t : F)
  obtain ⟨qg, g1, g2⟩ := smulF_rep b2 (u : F)
  obtain ⟨qh, i1, i2⟩ := smulF_rep d2 (u : F)
  have h1 : pg = qg := by
    have hp := Pt.smul_plain P1 e1
    have hq := Pt.smul_plain Q1 g1
    rw [Qc] at hq
    refine hp.eq hq e2 ?_
    rw [← hu', ← smul_smul]; exact g2
  have h2 : ph = qh := by
    have hp := Pt.smul_plain S1 f1
    have hq := Pt.smul_plain T1 i1
    rw [Sc] at hp
    rw [Tc] at hq
    refine hp.eq hq f2 ?_
    rw [← hu', ← smul_smul, smul_comm (k.y : F) (k.e : F)]; exact i2
  subst h1 h2
  have hd' : d = ⟨a, some .dec, Fld.zero CC.fn, Fld.zero CC.fn, Fld.ofZ (k.y : F), ⟨P, Q, S, T⟩⟩ := by
    refine Except.ok.inj (hd.symm.trans ?_)
    simp only [ctorDec, getRandomScalar_ok hl.live, R.ok_bind, a1, b1, c1, d1]
  subst hd'
  refine ⟨⟨pg, ph⟩, Fld.ofZ (t : F), Fld.ofZ (u : F), ?_, ?_, ?_⟩
  rotate_left 2
  · simp only [keyGen, getRandomScalar_ok hl.live, R.ok_bind, Crs.g, Crs.h, g1, i1]
  · simp only [trapKeyGen, getRandomScalar_ok hl.live, R.ok_bind, e1, f1, Fld.div_ofZ env _ (nz hy)]
    rw [← hu', mul_div_cancel_right₀ _ (nz hy)]
  · simp only [keyGen, getRandomScalar_ok hl.live, R.ok_bind, Crs.g, Crs.h, e1, f1]

end Dme

namespace Opprf

open EC Dme Ot

/-- what the client with the trapdoor collects in the rounds `n` down to 1: in each it sends the key of `TrapKeyGen`, and notes
the two secret keys and the answer -/
def collect (W : World) (d : Inst) (t : ℕ → ℤ) (enc : ℕ → RoundCoins) : ℕ → Server → R (List (Fld × Fld × OtCtxts) × Server)
  | 0, s => .ok ([], s)
  | n + 1, s => do
    let (pk, s0, s1) ← trapKeyGen W.env d (t (n + 1))
    let (m, s) ← s.runOTRound W (n + 1 : ℕ) pk (enc (n + 1))
    let (l, s) ← collect W d t enc n s
    .ok ((s0, s1, m) :: l, s)

/-- what it does with it afterwards, on its own and for any input `x`: it opens the answers with `runOTRound_end`, each with the
secret key for the bit of `x` -/
def openAll (W : World) (x : Msg) : List (Fld × Fld × OtCtxts) → Client → R Client
  | [], c => .ok c
  | (s0, s1, m) :: l, c => do
    let bit := x.toNat.testBit l.length
    let c ← Client.finish W { c with otr := { c.otr with sk := if bit then s1 else s0, b := some (branch bit) } } (l.length + 1 : ℕ) m
    openAll W x l c

theorem collect_length {W : World} {d : Inst} {t : ℕ → ℤ} {enc : ℕ → RoundCoins} (n : ℕ) {s s' : Server}
    {l : List (Fld × Fld × OtCtxts)} (h : collect W d t enc n s = .ok (l, s')) : l.length = n := by
  induction n generalizing s s' l with
  | zero => obtain ⟨rfl, -⟩ := Prod.mk.inj (Except.ok.inj h); rfl
  | succ n ih =>
    rw [collect] at h
    obtain ⟨⟨pk, s0, s1⟩, -, h⟩ := R.bind_eq_ok.1 h
    obtain ⟨⟨m, s2⟩, -, h⟩ := R.bind_eq_ok.1 h
    obtain ⟨⟨l', s3⟩, h3, h⟩ := R.bind_eq_ok.1 h
    obtain ⟨rfl, rfl⟩ := Prod.mk.inj (Except.ok.inj h)
    rw [List.length_cons, ih h3]

theorem start_trap {W : World} {d : Inst} {x : Msg} {n : ℕ} (hn : n < 16) {c : Client} (hx : c.x = some x) (hc : c.otr.dme = d) {t u : ℤ}
    {pk : PKey} {s0 s1 : Fld} (k2 : keyGen W.env d .b0 t = .ok ⟨pk, s0⟩) (k3 : keyGen W.env d .b1 u = .ok ⟨pk, s1⟩) :
    c.start W (n + 1 : ℕ) (if x.toNat.testBit n then u else t) =
      .ok (pk, { c with otr := { c.otr with sk := if x.toNat.testBit n then s1 else s0, b := some (branch (x.toNat.testBit n)) } }) := by
  have e : ((n + 1 : ℕ) : ℤ) - 1 = n := by push_cast; ring
  unfold Client.start
  simp only [hx, e, Int.toNat_natCast]
  rw [if_neg (by omega)]
  cases hb : x.toNat.testBit n
  · simp only [branch, selectMsg, hc, Bool.false_eq_true, if_false, k2, R.ok_bind]
  · simp only [branch, selectMsg, hc, if_true, k3, R.ok_bind]

theorem rounds_collect {W : World} {a : Option Addr} (hl : LiveGen W.env a) {k : DecCoins} (hy : ¬ CC.order ∣ k.y)
    (hg : ¬ CC.order ∣ k.g0) (he : ¬ CC.order ∣ k.e) {d : Inst} (hd : ctorDec W.env a k = .ok d) {t u : ℕ → ℤ}
    (hu : ∀ j, u j * k.y ≡ t j [ZMOD CC.order]) {enc : ℕ → RoundCoins} {x : Msg} (n : ℕ) (hn : n ≤ 16) {s s' : Server} {c : Client}
    (hx : c.x = some x) (hc : c.otr.dme = d) {l : List (Fld × Fld × OtCtxts)} (h : collect W d t enc n s = .ok (l, s')) :
    runRounds W (fun j => ⟨if x.toNat.testBit (j - 1) then u j else t j, enc j⟩) n s c =
      (do let c ← openAll W x l c; .ok (s', c)) := by
  induction n generalizing s s' c l with
  | zero =>
    obtain ⟨rfl, rfl⟩ := Prod.mk.inj (Except.ok.inj h)
    rfl
  | succ n ih =>
    rw [collect] at h
    obtain ⟨⟨pk, s0, s1⟩, h1, h⟩ := R.bind_eq_ok.1 h
    obtain ⟨⟨m, s2⟩, h2, h⟩ := R.bind_eq_ok.1 h
    obtain ⟨⟨l', s3⟩, h3, h⟩ := R.bind_eq_ok.1 h
    obtain ⟨rfl, rfl⟩ := Prod.mk.inj (Except.ok.inj h)
    have hlen := collect_length n h3
    obtain ⟨pk', s0', s1', k1, k2, k3⟩ := trap_keys hl hy hg he hd (t (n + 1)) (u (n + 1)) (hu _)
    obtain ⟨rfl, k4⟩ := Prod.mk.inj (Except.ok.inj (h1.symm.trans k1))
    obtain ⟨rfl, rfl⟩ := Prod.mk.inj k4
    rw [runRounds, openAll]
    simp only [Nat.add_sub_cancel, start_trap (n := n) (by omega) hx hc k2 k3, R.ok_bind, h2, hlen]
    cases hf : Client.finish W { c with otr := { c.otr with sk := if x.toNat.testBit n then s1 else s0, b := some (branch (x.toNat.testBit n)) } } (n + 1 : ℕ) m with
    | error e => rfl
    | ok c2 =>
      obtain ⟨f1, f2⟩ := finish_holds (d := d) (x := x) (h := by exact ⟨hc, hx⟩) hf
      simp only [R.ok_bind]
      exact ih (by omega) f2 f1 h3

/-- if an honest client gets through the rounds, all answers can be collected -/
theorem collect_of_rounds {W : World} {a : Option Addr} (hl : LiveGen W.env a) {k : DecCoins} (hy : ¬ CC.order ∣ k.y)
    (hg : ¬ CC.order ∣ k.g0) (he : ¬ CC.order ∣ k.e) {d : Inst} (hd : ctorDec W.env a k = .ok d) {t u : ℕ → ℤ}
    (hu : ∀ j, u j * k.y ≡ t j [ZMOD CC.order]) {enc : ℕ → RoundCoins} {x : Msg} (n : ℕ) (hn : n ≤ 16) {s : Server} {c : Client}
    (hx : c.x = some x) (hc : c.otr.dme = d) {r : Server × Client}
    (h : runRounds W (fun j => ⟨if x.toNat.testBit (j - 1) then u j else t j, enc j⟩) n s c = .ok r) :
    ∃ l, collect W d t enc n s = .ok (l, r.1) := by
  induction n generalizing s c with
  | zero => obtain rfl := Except.ok.inj h; exact ⟨[], rfl⟩
  | succ n ih =>
    obtain ⟨pk, s0, s1, k1, k2, k3⟩ := trap_keys hl hy hg he hd (t (n + 1)) (u (n + 1)) (hu _)
    rw [runRounds] at h
    simp only [Nat.add_sub_cancel, start_trap (n := n) (by omega) hx hc k2 k3, R.ok_bind] at h
    obtain ⟨⟨m, s2⟩, h2, h⟩ := R.bind_eq_ok.1 h
    obtain ⟨c2, h3, h⟩ := R.bind_eq_ok.1 h
    obtain ⟨f1, f2⟩ := finish_holds (d := d) (x := x) (h := by exact ⟨hc, hx⟩) h3
    obtain ⟨l, h4⟩ := ih (by omega) f2 f1 h
    refine ⟨(s0, s1, m) :: l, ?_⟩
    rw [collect]
    simp only [k1, R.ok_bind, h2, h4]

/-- one evaluation as the server sees it, with a client that sends keys of `TrapKeyGen`: the server afterwards, what the client
has collected, and the masks -/
def harvest (W : World) (s : Server) (d : Inst) (prep : PrepCoins) (t : ℕ → ℤ) (enc : ℕ → RoundCoins) (mk : MaskCoins) :
    R (Server × List (Fld × Fld × OtCtxts) × Arr3 ℤ) := do
  let s ← s.prepare W prep
  let (l, s) ← collect W d t enc 16 s
  let m ← s.sendEncryptedMasks W mk
  .ok (s, l, m)

/-- what the client with the trapdoor makes of the answers and the masks for the input `x` -/
def offline (W : World) (x : Msg) (l : List (Fld × Fld × OtCtxts)) (m : Arr3 ℤ) (un : ℤ) (c : Client) : R Client := do
  let c ← openAll W x l (c.setMessage x)
  c.unmaskResult W m un

/-- C114 is false: a client that made the CRS sends the keys of `TrapKeyGen`, which are keys of an honest client (C93), and
collects the answers of one evaluation.  From them it computes, for each input `x` and without asking again, exactly what an
honest client with the input `x` computes in an evaluation with the same draws of the server: all values, all faults. -/
theorem C114_every_input_counterexample {W : World} {a : Option Addr} (hl : LiveGen W.env a) {k : DecCoins} (hy : ¬ CC.order ∣ k.y)
    (hg : ¬ CC.order ∣ k.g0) (he : ¬ CC.order ∣ k.e) {d : Inst} (hd : ctorDec W.env a k = .ok d) {c : Client} (hc : c.otr.dme = d)
    {t u : ℕ → ℤ} (hu : ∀ j, u j * k.y ≡ t j [ZMOD CC.order]) {enc : ℕ → RoundCoins} {prep : PrepCoins} {mk : MaskCoins}
    {s s2 : Server} {l : List (Fld × Fld × OtCtxts)} {m : Arr3 ℤ} (h : harvest W s d prep t enc mk = .ok (s2, l, m))
    (x : Msg) (un : ℤ) :
    evaluate W s c x ⟨prep, fun j => ⟨if x.toNat.testBit (j - 1) then u j else t j, enc j⟩, mk, un⟩ =
      (do let c ← offline W x l m un c; .ok (s2, c)) := by
  obtain ⟨s1, h1, h⟩ := R.bind_eq_ok.1 h
  obtain ⟨⟨l', s3⟩, h2, h⟩ := R.bind_eq_ok.1 h
  obtain ⟨m', h3, h⟩ := R.bind_eq_ok.1 h
  obtain ⟨rfl, h'⟩ := Prod.mk.inj (Except.ok.inj h)
  obtain ⟨rfl, rfl⟩ := Prod.mk.inj h'
  unfold evaluate offline
  simp only [h1, R.ok_bind, rounds_collect hl hy hg he hd hu (enc := enc) (x := x) (c := c.setMessage x) 16 le_rfl rfl hc h2]
  cases openAll W x l' (c.setMessage x) with
  | error e => rfl
  | ok c1 => simp only [R.ok_bind, h3]

/-- C114 is false: so from the answers of one evaluation it has `kopprf + ga * x` and `kopprf + ga * y` for any two inputs up to
the threshold (undisturbing draws), and from these `kopprf + ga * z` for every integer `z`, above the threshold too. -/
theorem C114_counterexample {W : World} {a : Option Addr} (hl : LiveGen W.env a) {k : DecCoins} (hy : ¬ CC.order ∣ k.y)
    (hg : ¬ CC.order ∣ k.g0) (he : ¬ CC.order ∣ k.e) {d : Inst} (hd : ctorDec W.env a k = .ok d) {c : Client} (hc : c.otr.dme = d)
    (hr : c.result = Pt.infty CC) {t u : ℕ → ℤ} (hu : ∀ j, u j * k.y ≡ t j [ZMOD CC.order]) {enc : ℕ → RoundCoins}
    {prep : PrepCoins} {mk : MaskCoins} {s : Server} (hP : Parties W.env s c)
    {x y : Msg} (hx : x.toNat ≤ s.theta.toNat) (hy' : y.toNat ≤ s.theta.toNat) (hxy : x ≠ y) (un : ℤ)
    (ux : Undisturbed W s c x ⟨prep, fun j => ⟨if x.toNat.testBit (j - 1) then u j else t j, enc j⟩, mk, un⟩)
    (uy : Undisturbed W s c y ⟨prep, fun j => ⟨if y.toNat.testBit (j - 1) then u j else t j, enc j⟩, mk, un⟩) :
    Ends (harvest W s d prep t enc mk) fun r => Ends (offline W x r.2.1 r.2.2 un c) fun p => Ends (offline W y r.2.1 r.2.2 un c) fun q =>
      (EqP W.env CC (.ok p.result) do let v ← s.ga.smulZ W.env CC x.toNat; r.1.kopprf.add W.env CC v) ∧
      (EqP W.env CC (.ok q.result) do let v ← s.ga.smulZ W.env CC y.toNat; r.1.kopprf.add W.env CC v) ∧
      ∀ z : ℤ, (∃ l : ℤ, l * (y.toNat - x.toNat) ≡ z - x.toNat [ZMOD CC.order]) ∧
        ∀ l : ℤ, l * (y.toNat - x.toNat) ≡ z - x.toNat [ZMOD CC.order] →
          EqP W.env CC (combine W.env p.result q.result l)
            (do let v ← s.ga.smulZ W.env CC z; r.1.kopprf.add W.env CC v) := by
  obtain ⟨⟨s3, p⟩, i1, ⟨s4, q⟩, i2, i3, i4⟩ := C96_counterexample hP hP hr hr hxy hx hy' ux
    (d' := ⟨prep, fun j => ⟨if y.toNat.testBit (j - 1) then u j else t j, enc j⟩, mk, un⟩) uy
  rw [C96_replay i1] at i2
  obtain ⟨⟨s5, p'⟩, i5, i6⟩ := C53_partial hP hr hx ux
  obtain ⟨rfl, rfl⟩ := Prod.mk.inj (Except.ok.inj (i1.symm.trans i5))
  obtain ⟨r, hh⟩ : ∃ r, harvest W s d prep t enc mk = .ok r := by
    have i7 := i1
    unfold evaluate at i7
    obtain ⟨s1, g1, i7⟩ := R.bind_eq_ok.1 i7
    obtain ⟨⟨s2, c2⟩, g2, i7⟩ := R.bind_eq_ok.1 i7
    obtain ⟨m, g3, -⟩ := R.bind_eq_ok.1 i7
    obtain ⟨l, g4⟩ := collect_of_rounds hl hy hg he hd hu (c := c.setMessage x) (x := x) 16 le_rfl rfl hc g2
    exact ⟨_, by simp only [harvest, g1, R.ok_bind, g4, g3]; rfl⟩
  obtain ⟨s2, l, m⟩ := r
  rw [C114_every_input_counterexample hl hy hg he hd hc hu hh] at i1
  have i2' := (C114_every_input_counterexample hl hy hg he hd hc hu hh y un).symm.trans i2
  obtain ⟨c1, j1, j2⟩ := R.bind_eq_ok.1 i1
  obtain ⟨c2, j3, j4⟩ := R.bind_eq_ok.1 i2'
  obtain ⟨rfl, rfl⟩ := Prod.mk.inj (Except.ok.inj j2)
  obtain ⟨rfl, rfl⟩ := Prod.mk.inj (Except.ok.inj j4)
  exact ⟨_, hh, _, j1, _, j3, i6, i3, i4⟩

end Opprf
end Verif
