import Verif.Props.OpprfFail

/-!
# C66, C95: evaluations without assumptions about the keys
-/

namespace Verif
namespace Opprf

open EC Dme Ot Aes BytesSpec

attribute [local irreducible] Rep

/-! ## The points of a prepared server, whatever the keys -/

/-- the points of a server after `prepareKeysAndInputs`: `A`, `B`, `Q` are `ga`, `r`, `kopprf`, `o` the scalars -/
structure PreparedPts (W : World) (s : Server) (A B Q : Grp CC) (o : ℕ → F) : Prop where
  r : Rep W.env s.r B
  kopprf : Rep W.env s.kopprf Q
  topPrf : ∀ b : Bool, Rep W.env (if b then s.Sl1 else s.Sl0).prf (((if b then 2 ^ 15 else 0 : ℕ) : F) • A + o 15 • B)
  tab : ∀ i < 15, ∃ e0 e1, s.Si0[i + 1]? = some e0 ∧ s.Si1[i + 1]? = some e1 ∧ ∀ b : Bool,
    Rep W.env (if b then e1 else e0).prf (((if b then 2 ^ i else 0 : ℕ) : F) • A + o i • B)

theorem PreparedPts.ots {W : World} {s : Server} {A B Q : Grp CC} {o : ℕ → F} (h : PreparedPts W s A B Q o) (ots : Sndr) :
    PreparedPts W { s with ots := ots } A B Q o := ⟨h.r, h.kopprf, h.topPrf, h.tab⟩

theorem entries_prf_any {W : World} {s : Server} {i : ℕ} {x0 x1 : InputI} (h : entries W s i = .ok (x0, x1)) {A B : Grp CC}
    (hA : Rep W.env s.ga A) (hB : Rep W.env s.r B) {o : F} (ho : s.ok[i]? = some (Fld.ofZ o)) (b : Bool) :
    Rep W.env (if b then x1 else x0).prf (((if b then 2 ^ i else 0 : ℕ) : F) • A + o • B) := by
  obtain ⟨p, g, p', e1, e2, e3, e4, e5⟩ := prf_rep hA hB o i
  have key : x0.prf = p ∧ x1.prf = p' := by
    unfold entries at h
    obtain ⟨lt, -, h⟩ := R.bind_eq_ok.1 h
    obtain ⟨eq, -, h⟩ := R.bind_eq_ok.1 h
    obtain ⟨gt, -, h⟩ := R.bind_eq_ok.1 h
    obtain ⟨lt', -, h⟩ := R.bind_eq_ok.1 h
    obtain ⟨eq', -, h⟩ := R.bind_eq_ok.1 h
    obtain ⟨gt', -, h⟩ := R.bind_eq_ok.1 h
    obtain ⟨o', h7, h⟩ := R.bind_eq_ok.1 h
    rw [at'_ok, ho] at h7
    obtain rfl := Option.some.inj h7
    split_ifs at h
    all_goals
      obtain ⟨_, -, h⟩ := R.bind_eq_ok.1 h
      obtain ⟨_, -, h⟩ := R.bind_eq_ok.1 h
      obtain ⟨_, -, h⟩ := R.bind_eq_ok.1 h
      obtain ⟨p0, q0, h⟩ := R.bind_eq_ok.1 h
      obtain ⟨_, -, h⟩ := R.bind_eq_ok.1 h
      obtain ⟨_, -, h⟩ := R.bind_eq_ok.1 h
      obtain ⟨_, -, h⟩ := R.bind_eq_ok.1 h
      obtain ⟨g', q1, h⟩ := R.bind_eq_ok.1 h
      obtain ⟨ro, q2, h⟩ := R.bind_eq_ok.1 h
      obtain ⟨p1, q3, h⟩ := R.bind_eq_ok.1 h
      obtain ⟨rfl, rfl⟩ := Prod.mk.inj (Except.ok.inj h)
      rw [e1] at q0 q2
      rw [e3] at q1
      obtain rfl := Except.ok.inj q0
      obtain rfl := Except.ok.inj q1
      obtain rfl := Except.ok.inj q2
      rw [e4] at q3
      exact ⟨rfl, (Except.ok.inj q3).symm⟩
  cases b
  · simp only [key.1, Bool.false_eq_true, if_false, Nat.cast_zero, zero_smulG, zero_add]
    exact e2
  · simp only [key.2, if_true]
    exact e5

theorem prepareTop_prf {env : Env} {s s' : Server} (h : prepareTop env s = .ok s') {A B : Grp CC}
    (hA : Rep env s.ga A) (hB : Rep env s.r B) {o : F} (ho : s.ok[15]? = some (Fld.ofZ o)) (b : Bool) :
    Rep env (if b then s'.Sl1 else s'.Sl0).prf (((if b then 2 ^ 15 else 0 : ℕ) : F) • A + o • B) := by
  obtain ⟨p, g, p', e1, e2, e3, e4, e5⟩ := prf_rep hA hB o 15
  have key : s'.Sl0.prf = p ∧ s'.Sl1.prf = p' := by
    unfold prepareTop at h
    simp only at h
    split_ifs at h
    all_goals
      obtain ⟨k0, -, h⟩ := R.bind_eq_ok.1 h
      obtain ⟨o', h7, h⟩ := R.bind_eq_ok.1 h
      obtain ⟨p0, q0, h⟩ := R.bind_eq_ok.1 h
      obtain ⟨k1, -, h⟩ := R.bind_eq_ok.1 h
      obtain ⟨g', q1, h⟩ := R.bind_eq_ok.1 h
      obtain ⟨ro, q2, h⟩ := R.bind_eq_ok.1 h
      obtain ⟨p1, q3, h⟩ := R.bind_eq_ok.1 h
      obtain rfl := Except.ok.inj h
      rw [at'_ok, ho] at h7
      obtain rfl := Option.some.inj h7
      rw [e1] at q0 q2
      rw [e3] at q1
      obtain rfl := Except.ok.inj q0
      obtain rfl := Except.ok.inj q1
      obtain rfl := Except.ok.inj q2
      rw [e4] at q3
      exact ⟨rfl, (Except.ok.inj q3).symm⟩
  cases b
  · simp only [key.1, Bool.false_eq_true, if_false, Nat.cast_zero, zero_smulG, zero_add]
    exact e2
  · simp only [key.2, if_true]
    exact e5

/-- a preparation that returns, whatever the keys -/
theorem prepare_pts {W : World} {s s' : Server} (hc : LiveGen W.env s.curve) {A : Grp CC} (hA : Rep W.env s.ga A)
    (h4 : s.ok = []) {k : PrepCoins} (hb : k.bits.length = 16) (h : s.prepare W k = .ok s') :
    PreparedPts W s' A ((k.r : F) • G) ((k.kopprf : F) • G) (fun j => (((k.bits.getD j ⟨0, 0, 0, 0⟩).ok : ℤ) : F)) ∧
      s'.ots = s.ots ∧ s'.curve = s.curve ∧ s'.theta = s.theta ∧ s'.ga = s.ga := by
  obtain ⟨Q, q1, q2⟩ := randomPoint_rep (C := CC) hc k.kopprf
  obtain ⟨B, b1, b2⟩ := randomPoint_rep (C := CC) hc k.r
  unfold Server.prepare at h
  rw [q1, R.ok_bind, b1, R.ok_bind, pushKeys_ok (env := W.env) k.bits (s := { s with kopprf := Q, r := B }) hc.live,
    R.ok_bind] at h
  obtain ⟨s2, h2, h3⟩ := R.bind_eq_ok.1 h
  have hok : ∀ j < 16, (s.ok ++ k.bits.map fun k => Fld.ofZ (k.ok : F))[j]? =
      some (Fld.ofZ (((k.bits.getD j ⟨0, 0, 0, 0⟩).ok : ℤ) : F)) := by
    intro j hj
    have hj' : j < k.bits.length := by omega
    rw [h4, List.nil_append, List.getElem?_map, List.getElem?_eq_getElem hj', Option.map_some,
      List.getD_eq_getElem?_getD, List.getElem?_eq_getElem hj', Option.getD_some]
  have htop := fun b => prepareTop_prf h2 (A := A) (B := (k.r : F) • G) hA b2 (hok 15 (by norm_num)) b
  obtain ⟨⟨l0, l1, rfl⟩, -⟩ := prepareTop_inv h2
  obtain ⟨⟨a, b, rfl, -⟩, hent, -⟩ := tableLoop_inv 15 h3
  refine ⟨⟨b2, q2, htop, ?_⟩, rfl, rfl, rfl, rfl⟩
  intro i hi
  obtain ⟨x0, x1, v1, v2, v3⟩ := hent i hi
  exact ⟨x0, x1, v2, v3, fun b => entries_prf_any v1 hA b2 (hok i (by omega)) b⟩

/-! ## The rounds, whatever the keys -/

/-- in those of the rounds `n` to 1 of a run that return, the ciphertext of the point on the client's branch does not
involve infinity -/
def FinePoints (W : World) (d : ℕ → RoundDraws) (x : Msg) : ℕ → Server → Client → Prop
  | 0, _, _ => True
  | n + 1, s, c => ∀ pk c' m s', c.start W (n + 1 : ℕ) (d (n + 1)).sk = .ok (pk, c') →
      s.runOTRound W (n + 1 : ℕ) pk (d (n + 1)).enc = .ok (m, s') →
        ∀ c'', c'.finish W (n + 1 : ℕ) m = .ok c'' →
          NonDegenerate c'.otr m.cprf (branch (x.toNat.testBit n)) ∧ FinePoints W d x n s' c''

theorem encMsgs_ne {env : Env} {s s' : Sndr} {pk : PKey} {m0 m1 : Pt} {k0 k1 : EncCoins} {c : List Ctxt}
    (h : encMsgs env s pk m0 m1 k0 k1 = .ok (c, s')) : c ≠ [] := by
  unfold encMsgs at h
  obtain ⟨c0, -, h⟩ := R.bind_eq_ok.1 h
  obtain ⟨c1, -, h⟩ := R.bind_eq_ok.1 h
  obtain ⟨rfl, -⟩ := Prod.mk.inj (Except.ok.inj h)
  simp

theorem finePoints_of_fine {W : World} {d : ℕ → RoundDraws} {x : Msg} {n : ℕ} {s : Server} {c : Client}
    (h : FineRounds W d x n s c) : FinePoints W d x n s c := by
  induction n generalizing s c with
  | zero => trivial
  | succ n ih =>
    intro pk c' m s' h1 h2
    obtain ⟨f1, f2⟩ := h pk c' m s' h1 h2
    refine fun c'' h3 => ⟨f1 m.cprf (by simp) ?_, ih (f2 c'' h3)⟩
    unfold Server.runOTRound at h2
    split_ifs at h2
    · obtain ⟨⟨_, _⟩, -, h2⟩ := R.bind_eq_ok.1 h2
      obtain ⟨⟨p, _⟩, h4, h2⟩ := R.bind_eq_ok.1 h2
      obtain ⟨rfl, -⟩ := Prod.mk.inj (Except.ok.inj h2)
      exact encMsgs_ne h4
    · obtain ⟨_, -, h2⟩ := R.bind_eq_ok.1 h2
      obtain ⟨_, -, h2⟩ := R.bind_eq_ok.1 h2
      obtain ⟨⟨_, _⟩, -, h2⟩ := R.bind_eq_ok.1 h2
      obtain ⟨⟨_, _⟩, -, h2⟩ := R.bind_eq_ok.1 h2
      obtain ⟨⟨_, _⟩, -, h2⟩ := R.bind_eq_ok.1 h2
      obtain ⟨⟨p, _⟩, h4, h2⟩ := R.bind_eq_ok.1 h2
      obtain ⟨rfl, -⟩ := Prod.mk.inj (Except.ok.inj h2)
      exact encMsgs_ne h4

theorem round_any {W : World} {s s' : Server} {c c' c'' : Client} {A B Q : Grp CC} {o : ℕ → F}
    (hp : PreparedPts W s A B Q o) (hR : Ready W.env ⟨c.otr, s.ots⟩) {x : Msg} (hx : c.x = some x) {Rn : Grp CC}
    (hr : Rep W.env c.result Rn) {n : ℕ} (hn : n < 16) {coin : ℤ} {k : RoundCoins} {pk : PKey} {m : OtCtxts}
    (h1 : c.start W (n + 1 : ℕ) coin = .ok (pk, c')) (h2 : s.runOTRound W (n + 1 : ℕ) pk k = .ok (m, s'))
    (hf : NonDegenerate c'.otr m.cprf (branch (x.toNat.testBit n))) (h3 : c'.finish W (n + 1 : ℕ) m = .ok c'') :
    (∃ ots, s' = { s with ots := ots } ∧ ots.dme = s.ots.dme) ∧ c''.otr.dme = c.otr.dme ∧ c''.x = some x ∧
      c''.curve = c.curve ∧
      Rep W.env c''.result (Rn + (((if x.toNat.testBit n then 2 ^ n else 0 : ℕ) : F) • A + o n • B)) := by
  obtain ⟨pk', rc, g1, g2, hpt, hz⟩ := ot_round hR (branch (x.toNat.testBit n)) coin
  rw [start_ok (c := c) hx hn g1] at h1
  obtain ⟨rfl, rfl⟩ := Prod.mk.inj (Except.ok.inj h1)
  have hprf : (∃ ots, s' = { s with ots := ots } ∧ ots.dme = s.ots.dme) ∧
      ∃ P, decryptMsg W.env rc m.cprf = .ok P ∧
        Rep W.env P (((if x.toNat.testBit n then 2 ^ n else 0 : ℕ) : F) • A + o n • B) := by
    rcases Nat.lt_or_ge n 15 with hn' | hn'
    · obtain ⟨e0, e1, t0, t1, t2⟩ := hp.tab n hn'
      obtain ⟨c0, f0, -, -⟩ := hz s.ots rfl e0.k_lt e1.k_lt k.lt0 k.lt1
      obtain ⟨c1, f1, -, -⟩ := hz { s.ots with c := c0 } rfl e0.k_eq e1.k_eq k.eq0 k.eq1
      obtain ⟨c2, f2, -, -⟩ := hz { s.ots with c := c1 } rfl e0.k_gt e1.k_gt k.gt0 k.gt1
      obtain ⟨p, f3, -, d3⟩ := hpt { s.ots with c := c2 } rfl e0.prf e1.prf _ _ (t2 false) (t2 true) k.prf0 k.prf1
      unfold Server.runOTRound at h2
      rw [if_neg (by omega)] at h2
      have a0 : atShort s.Si0 ((n + 1 : ℕ) : ℤ) = .ok e0 := by
        rw [atShort, if_neg (by omega), Int.toNat_natCast, at'_ok]; exact t0
      have a1 : atShort s.Si1 ((n + 1 : ℕ) : ℤ) = .ok e1 := by
        rw [atShort, if_neg (by omega), Int.toNat_natCast, at'_ok]; exact t1
      simp only [a0, a1, R.ok_bind, f0, f1, f2, f3] at h2
      obtain ⟨rfl, rfl⟩ := Prod.mk.inj (Except.ok.inj h2)
      obtain ⟨P, hP1, hP2⟩ := d3 hf
      refine ⟨⟨_, rfl, rfl⟩, P, hP1, ?_⟩
      rw [pick_branch] at hP2
      cases hb : x.toNat.testBit n <;> simpa [hb] using hP2
    · obtain rfl : n = 15 := by omega
      obtain ⟨c0, f0, -, -⟩ := hz s.ots rfl s.Sl0.k s.Sl1.k k.lt0 k.lt1
      obtain ⟨p, f3, -, d3⟩ := hpt { s.ots with c := c0 } rfl s.Sl0.prf s.Sl1.prf _ _ (hp.topPrf false)
        (hp.topPrf true) k.prf0 k.prf1
      unfold Server.runOTRound at h2
      rw [if_pos (by norm_num)] at h2
      simp only [R.ok_bind, f0, f3] at h2
      obtain ⟨rfl, rfl⟩ := Prod.mk.inj (Except.ok.inj h2)
      obtain ⟨P, hP1, hP2⟩ := d3 hf
      refine ⟨⟨_, rfl, rfl⟩, P, hP1, ?_⟩
      rw [pick_branch] at hP2
      cases hb : x.toNat.testBit 15 <;> simpa [hb] using hP2
  obtain ⟨hs, P, hP1, hP2⟩ := hprf
  refine ⟨hs, ?_⟩
  obtain ⟨key, h3⟩ : ∃ key, (do
      let p ← decryptMsg W.env rc m.cprf
      let result ← c.result.add W.env CC p
      Except.ok { c with otr := rc, key := key, result := result } : R Client) = .ok c'' := by
    unfold Client.finish at h3
    simp only at h3
    split_ifs at h3
    · obtain ⟨key, -, h3⟩ := R.bind_eq_ok.1 h3
      exact ⟨key, h3⟩
    · obtain ⟨f, -, h3⟩ := R.bind_eq_ok.1 h3
      obtain ⟨-, -, h3⟩ := R.bind_eq_ok.1 h3
      cases f with
      | none => cases h3
      | some key => exact ⟨key, h3⟩
  obtain ⟨r, r1, r2⟩ := finish_tail (c := { c with otr := rc }) hr hP1 hP2 key
  rw [r2] at h3
  obtain rfl := Except.ok.inj h3
  exact ⟨g2, hx, rfl, r1⟩

theorem rounds_any {W : World} {A B Q : Grp CC} {o : ℕ → F} {x : Msg} (d : ℕ → RoundDraws) (n : ℕ) (hn : n ≤ 16)
    {s s' : Server} (hp : PreparedPts W s A B Q o) {c c' : Client} (hR : Ready W.env ⟨c.otr, s.ots⟩) (hx : c.x = some x)
    {Rn : Grp CC} (hr : Rep W.env c.result Rn) (hf : FinePoints W d x n s c) (h : runRounds W d n s c = .ok (s', c')) :
    (∃ ots, s' = { s with ots := ots }) ∧ c'.curve = c.curve ∧
      Rep W.env c'.result (Rn + (((x.toNat % 2 ^ n : ℕ) : F) • A + (∑ j ∈ Finset.range n, o j) • B)) := by
  induction n generalizing s c Rn with
  | zero =>
    obtain ⟨rfl, rfl⟩ := Prod.mk.inj (Except.ok.inj h)
    exact ⟨⟨_, rfl⟩, rfl, by simpa [Nat.mod_one, zero_smulG] using hr⟩
  | succ n ih =>
    rw [runRounds] at h
    obtain ⟨⟨pk, c1⟩, h1, h⟩ := R.bind_eq_ok.1 h
    obtain ⟨⟨m, s1⟩, h2, h⟩ := R.bind_eq_ok.1 h
    obtain ⟨c2, h3, h⟩ := R.bind_eq_ok.1 h
    obtain ⟨f1, f2⟩ := hf pk c1 m s1 h1 h2 c2 h3
    obtain ⟨⟨ots, rfl, g1⟩, g2, g3, g4, g5⟩ := round_any hp hR hx hr (by omega) h1 h2 f1 h3
    obtain ⟨⟨ots', rfl⟩, k2, k3⟩ := ih (by omega) (hp.ots ots) (Ready.of_dme hR g2 g1) g3 g5 f2 h
    refine ⟨⟨_, rfl⟩, k2.trans g4, ?_⟩
    have e : Rn + (((if x.toNat.testBit n then 2 ^ n else 0 : ℕ) : F) • A + o n • B) +
        (((x.toNat % 2 ^ n : ℕ) : F) • A + (∑ j ∈ Finset.range n, o j) • B) =
        Rn + (((x.toNat % 2 ^ (n + 1) : ℕ) : F) • A + (∑ j ∈ Finset.range (n + 1), o j) • B) := by
      rw [mod_step, Finset.sum_range_succ, Nat.cast_add]
      module
    rw [← e]
    exact k3

theorem searchMask_inv {W : World} {key e : ℤ} (l : List ℤ) (h : searchMask W key l = .ok (some e)) :
    e ≠ 0 ∧ ∃ l1 v l2, l = l1 ++ v :: l2 ∧ W.unseal key v = .ok e ∧ ∀ w ∈ l1, W.unseal key w = .ok 0 := by
  induction l with
  | nil => cases Except.ok.inj h
  | cons v l ih =>
    rw [searchMask] at h
    obtain ⟨t, h1, h⟩ := R.bind_eq_ok.1 h
    split_ifs at h with ht
    · obtain rfl := Option.some.inj (Except.ok.inj h)
      exact ⟨ht, [], v, l, rfl, h1, by simp⟩
    · obtain ⟨h2, l1, w, l2, rfl, h3, h4⟩ := ih h
      refine ⟨h2, v :: l1, w, l2, rfl, h3, ?_⟩
      intro w' hw
      rcases List.mem_cons.1 hw with rfl | hw
      · rw [h1, not_not.1 ht]
      · exact h4 w' hw

/-! ## C95 -/

/-- `ga * x + r * sum` as the operators compute it -/
def blinded (W : World) (ga : Pt) (x : Msg) (r : Pt) (sum : ℤ) : R Pt := do
  let t ← ga.smulZ W.env CC x.toNat
  let v ← r.smulZ W.env CC sum
  t.add W.env CC v

/-- C95: whatever the keys, the cipher, the platform and the build, the result of a completed evaluation is
`ga * x + r * sum(ok)` plus the point that `setEncodedX` gives for the first of the three masks that the client's last key
opens.  The only draws excluded are those that put infinity into a ciphertext of a point on the client's branch. -/
theorem C95_form {W : World} {s s' : Server} {c c' : Client} (hP : Parties W.env s c) (hc : c.result = Pt.infty CC)
    {x : Msg} {d : Draws} (hb : d.prep.bits.length = 16)
    (hf : ∀ s1, s.prepare W d.prep = .ok s1 → FinePoints W d.rounds x 16 s1 (c.setMessage x))
    (h : evaluate W s c x d = .ok (s', c')) :
    ∃ base m e T P, EqP W.env CC (.ok base) (blinded W s.ga x s'.r d.okSum) ∧ s'.sendEncryptedMasks W d.mask = .ok m ∧
      (e ≠ 0 ∧ ∃ l1 v l2, m.toList = l1 ++ v :: l2 ∧ W.unseal c'.key v = .ok e ∧ ∀ w ∈ l1, W.unseal c'.key w = .ok 0) ∧
      Curve.getRandomPoint W.env CC c.curve d.un = .ok T ∧ T.setEncodedX W.env CC e = .ok P ∧
      base.add W.env CC P = .ok c'.result := by
  obtain ⟨A, hA⟩ := valid_iff.1 hP.ga
  obtain ⟨-, -, -, e4⟩ := hP.noKeys
  unfold evaluate at h
  simp only at h
  obtain ⟨s1, h1, h⟩ := R.bind_eq_ok.1 h
  obtain ⟨⟨s2, c2⟩, h2, h⟩ := R.bind_eq_ok.1 h
  obtain ⟨m, h3, h⟩ := R.bind_eq_ok.1 h
  obtain ⟨c3, h4, h⟩ := R.bind_eq_ok.1 h
  obtain ⟨rfl, rfl⟩ := Prod.mk.inj (Except.ok.inj h)
  obtain ⟨p1, p2, p3, p4, p5⟩ := prepare_pts hP.server hA e4 hb h1
  have hcR : Ready W.env ⟨(c.setMessage x).otr, s1.ots⟩ := Ready.of_dme hP.ready rfl (by rw [p2])
  obtain ⟨⟨ots, rfl⟩, q2, q3⟩ := rounds_any (x := x) d.rounds 16 le_rfl p1 hcR rfl (Rn := 0)
    (by change Rep W.env c.result 0; rw [hc]; exact rep_infty) (hf s1 h1) h2
  have hsum : ∑ j ∈ Finset.range 16, (((d.prep.bits.getD j ⟨0, 0, 0, 0⟩).ok : ℤ) : F) = (d.okSum : F) := by
    rw [← hb]
    exact sum_getD _ _
  rw [hsum, Nat.mod_eq_of_lt x.isLt, zero_add] at q3
  unfold Client.unmaskResult at h4
  obtain ⟨f, t1, h4⟩ := R.bind_eq_ok.1 h4
  obtain ⟨-, -, h4⟩ := R.bind_eq_ok.1 h4
  cases f with
  | none => cases h4
  | some e =>
    simp only at h4
    obtain ⟨T, t2, h4⟩ := R.bind_eq_ok.1 h4
    obtain ⟨P, t3, h4⟩ := R.bind_eq_ok.1 h4
    obtain ⟨r, t4, h4⟩ := R.bind_eq_ok.1 h4
    obtain rfl := Except.ok.inj h4
    refine ⟨c2.result, m, e, T, P, ?_, h3, searchMask_inv _ t1, by rw [q2] at t2; exact t2, t3, t4⟩
    obtain ⟨P1, a1, a2⟩ := smulI_rep hA (x.toNat : ℤ)
    obtain ⟨P2, b1, b2⟩ := smulI_rep p1.r d.okSum
    obtain ⟨P3, c1, c2⟩ := add_rep a2 b2
    refine eqP_of_rep ⟨_, rfl, q3⟩ ⟨P3, by simp only [blinded, a1, b1, c1, R.ok_bind], c2⟩ ?_
    rw [Int.cast_natCast]

/-! ## C66 is false -/

/-- draws that do not disturb an evaluation except that the three keys drawn for bit 0 are the same -/
structure TwinKeys (W : World) (s : Server) (c : Client) (x : Msg) (d : Draws) : Prop where
  slack : ∀ n, n + 4 ≤ W.pf.usable n
  iv : IvReadable W.iv
  bits : d.prep.bits.length = 16
  full : ∀ sy, ∀ j < 16, 2 ^ 120 ≤ d.key sy j ∧ d.key sy j < 2 ^ 128
  walk : Legible W d.key x s.theta
  opens : PathOpens W d.key x s.theta
  fine : ∀ s', s.prepare W d.prep = .ok s' → FineRounds W d.rounds x 16 s' (c.setMessage x)
  twin : ∀ sy, d.key sy 0 = d.key .gt 0
  finite : ¬ CC.order ∣ d.mask'
  finite' : ¬ CC.order ∣ d.mask.rnd
  nonzero : ¬ EncodingOf W s.curve d.mask' 0
  nonzero' : ¬ EncodingOf W s.curve d.mask.rnd 0
  mask : ∀ e, EncodingOf W s.curve d.mask' e → Opens W (d.key .gt 0) e
  decoy : ∀ e, EncodingOf W s.curve d.mask.rnd e → Opens W (d.key .gt 0) e
  un : ¬ CC.order ∣ d.un

/-- Then the shuffle of the masks decides, whatever the comparison: with the decoy in front the client ends with
`R + ga * x + r * sum(ok)`, otherwise with `kopprf + ga * x`. -/
theorem twin_rep {W : World} {s : Server} {c : Client} (hP : Parties W.env s c) {x : Msg} {d : Draws}
    (hu : TwinKeys W s c x d) {A R0 : Grp CC} (hA : Rep W.env s.ga A) (hR : Rep W.env c.result R0) :
    ∃ s' c', evaluate W s c x d = .ok (s', c') ∧ Rep W.env s'.kopprf ((d.prep.kopprf : F) • (G : Grp CC)) ∧
      Rep W.env s'.r ((d.prep.r : F) • (G : Grp CC)) ∧
      Rep W.env c'.result (R0 + (x.toNat : F) • A + (d.okSum : F) • (d.prep.r : F) • G +
        ((if d.mask.sh2 % 3 = 0 then d.mask.rnd else d.mask' : ℤ) : F) • G) := by
  obtain ⟨e1, e2, e3, e4⟩ := hP.noKeys
  have hbits : d.prep = ⟨d.prep.kopprf, d.prep.r, (List.range 16).map fun j => d.prep.bits.getD j ⟨0, 0, 0, 0⟩⟩ := by
    have : d.prep.bits = (List.range 16).map fun j => d.prep.bits.getD j ⟨0, 0, 0, 0⟩ := by
      apply List.ext_getElem
      · simp [hu.bits]
      · intro i h1 h2
        simp [List.getD_eq_getElem?_getD, List.getElem?_eq_getElem h1]
    conv_lhs => rw [show d.prep = ⟨d.prep.kopprf, d.prep.r, d.prep.bits⟩ from rfl, this]
  obtain ⟨s1, p1, p2, p3, p4, p5, p6⟩ := prepare_ok (W := W) hP.server hA e1 e2 e3 e4 hP.si0 hP.si1 d.prep.kopprf d.prep.r
    (fun j => d.prep.bits.getD j ⟨0, 0, 0, 0⟩) (fun i hi sy sy' => by
      have h1 := hu.full sy (i + 1) (by omega)
      have h2 := hu.full sy' i (by omega)
      obtain ⟨c, h3, -⟩ := seal_ok (W := W) hu.iv h1.1 (m := d.key sy' i) (by linarith [h2.1]) (n := 16)
        (by have := h2.2; norm_num at this ⊢; exact this) (by norm_num) (hu.slack _)
      exact ⟨c, h3⟩)
  rw [← hbits] at p1
  have hcR : Ready W.env ⟨(c.setMessage x).otr, s1.ots⟩ := Ready.of_dme hP.ready rfl (by rw [p3])
  rcases rounds_ok (x := x) d.rounds hu.iv hu.slack hu.full 16 le_rfl p2 hcR rfl hR (by simp) (by rw [p5]; exact hu.walk)
    (hu.fine s1 p1) with ⟨q1, j, -, q3, q4⟩ | ⟨s2, c2, q1, ⟨ots, rfl, q2⟩, q3, q4, q5, q6, q7, q8⟩
  · rw [p5] at q4
    exact absurd (hu.opens j q3) q4
  have hsum : ∑ j ∈ Finset.range 16, (((d.prep.bits.getD j ⟨0, 0, 0, 0⟩).ok : ℤ) : F) = (d.okSum : F) := by
    rw [← hu.bits]
    exact sum_getD _ _
  rw [hsum, Nat.mod_eq_of_lt x.isLt] at q7
  have hz : (d.mask' : F) • (G : Grp CC) = (d.prep.kopprf : F) • G + (-(d.okSum : F)) • (d.prep.r : F) • G :=
    mask_eq _ _ _ _
  -- the masks
  have hc : LiveGen W.env s1.curve := by rw [p4]; exact hP.server
  have a0 := at'_ok.2 (p2.ok 0 (by norm_num))
  have a1 := okSum_ok (env := W.env) (ok := s1.ok) 15 1 (fun j hj => p2.ok j (by omega))
    (((d.prep.bits.getD 0 ⟨0, 0, 0, 0⟩).ok : ℤ) : F)
  have a2 : (((d.prep.bits.getD 0 ⟨0, 0, 0, 0⟩).ok : ℤ) : F) +
      ∑ j ∈ Finset.Ico 1 (1 + 15), (((d.prep.bits.getD j ⟨0, 0, 0, 0⟩).ok : ℤ) : F) = (d.okSum : F) := by
    rw [← hsum, Finset.range_eq_Ico, Finset.sum_eq_sum_Ico_succ_bot (show 0 < 16 by norm_num)]
  rw [a2] at a1
  obtain ⟨rs, b1, b2⟩ := smulF_rep p2.r (-(d.okSum : F))
  obtain ⟨mask, b3, b4⟩ := add_rep p2.kopprf b2
  rw [← hz] at b4
  obtain ⟨rp, b5, b6⟩ := randomPoint_rep (C := CC) hc d.mask.rnd
  have hz0 : (d.mask' : F) • (G : Grp CC) ≠ 0 := fun h => hu.finite (smulG_eq_zero_iff.1 h)
  have hr0 : (d.mask.rnd : F) • (G : Grp CC) ≠ 0 := fun h => hu.finite' (smulG_eq_zero_iff.1 h)
  obtain ⟨e, g1, g2, g3, g4⟩ := encoding_rep hz0 b4
  obtain ⟨e', g1', g2', g3', g4'⟩ := encoding_rep hr0 b6
  have hE := (encodingOf_iff hc hu.finite b4 e).2 g1
  have hE' := (encodingOf_iff hc hu.finite' b6 e').2 g1'
  rw [p4] at hE hE'
  obtain ⟨co, o1, o2⟩ := hu.mask e hE
  obtain ⟨co', o1', o2'⟩ := hu.decoy e' hE'
  have n0 : e ≠ 0 := fun h => hu.nonzero (h ▸ hE)
  have n0' : e' ≠ 0 := fun h => hu.nonzero' (h ▸ hE')
  have hk : ∀ sy, (s1.keys sy)[0]? = some (d.key .gt 0) := fun sy => by rw [p2.keys sy 0 (by norm_num), ← hu.twin sy]; rfl
  have k0 := at'_ok.2 (hk .lt)
  have k1 := at'_ok.2 (hk .eq)
  have k2 := at'_ok.2 (hk .gt)
  simp only [Server.keys] at k0 k1 k2
  have hsend : Server.sendEncryptedMasks W { s1 with ots := ots } d.mask =
      .ok (Arr3.shuffle ⟨co, co, co'⟩ d.mask.sh1 d.mask.sh2) := by
    unfold Server.sendEncryptedMasks
    simp only [a0, R.ok_bind, a1, Fld.neg_ofZ, b1, b3, k0, k1, k2, g1, o1, b5, g1', o1']
  have hkey : c2.key = d.key .gt 0 := by
    rw [q6 (by norm_num)]
    exact hu.twin _
  obtain ⟨T, t1, t2⟩ := randomPoint_rep (C := CC) (c := c2.curve) (by rw [q5]; exact hP.client) d.un
  have hT : Live W.env T.curve :=
    (isFinite_iff.2 ⟨_, fun h => hu.un (smulG_eq_zero_iff.1 h), t2⟩ : IsFinite W.env CC T).live
  have hset : ∃ P, (T.setEncodedX W.env CC (if d.mask.sh2 % 3 = 0 then e' else e)) = .ok P ∧
      Rep W.env P (((if d.mask.sh2 % 3 = 0 then d.mask.rnd else d.mask' : ℤ) : F) • (G : Grp CC)) := by
    split_ifs
    exacts [g4' T hT, g4 T hT]
  obtain ⟨P, t3, t4⟩ := hset
  have hsearch : searchMask W c2.key (Arr3.shuffle ⟨co, co, co'⟩ d.mask.sh1 d.mask.sh2).toList =
      .ok (some (if d.mask.sh2 % 3 = 0 then e' else e)) := by
    unfold Arr3.shuffle Arr3.toList
    rw [hkey]
    split_ifs <;> simp only [searchMask, o2, o2', R.ok_bind, if_pos n0, if_pos n0', ne_eq]
  obtain ⟨r, r1, r2⟩ := add_rep q7 t4
  refine ⟨{ s1 with ots := ots }, { c2 with result := r }, ?_, p2.kopprf, p2.r, ?_⟩
  · unfold evaluate
    simp only [p1, R.ok_bind, q1, hsend]
    unfold Client.unmaskResult
    simp only [hsearch, R.ok_bind, Option.isSome_some, cassert_true, t1, t3, r1]
  · rw [← add_assoc] at r2
    exact r2

/-- C66 is false: if the three keys drawn for bit 0 agree, nothing else disturbs the evaluation and the shuffle puts the
decoy in front, a client whose input is at most the threshold completes with a wrong result, whatever the cipher. -/
theorem C66_counterexample {W : World} {s : Server} {c : Client} (hP : Parties W.env s c) (hc : c.result = Pt.infty CC)
    {x : Msg} (_hx : x.toNat ≤ s.theta.toNat) {d : Draws} (hu : TwinKeys W s c x d) (hsh : d.mask.sh2 % 3 = 0)
    (hne : ¬ CC.order ∣ d.mask.rnd - d.mask') :
    Ends (evaluate W s c x d) fun r => ¬ EqP W.env CC (.ok r.2.result)
      (do let t ← s.ga.smulZ W.env CC x.toNat; r.1.kopprf.add W.env CC t) := by
  obtain ⟨A, hA⟩ := valid_iff.1 hP.ga
  obtain ⟨s', c', h1, h2, h3, h4⟩ := twin_rep hP hu hA (R0 := 0) (by rw [hc]; exact rep_infty)
  refine ⟨_, h1, ?_⟩
  obtain ⟨t, t1, t2⟩ := smulI_rep hA (x.toNat : ℤ)
  obtain ⟨v, v1, v2⟩ := add_rep h2 t2
  have e : (do let t ← s.ga.smulZ W.env CC x.toNat; s'.kopprf.add W.env CC t) = .ok v := by rw [t1, R.ok_bind, v1]
  dsimp only
  rw [e, eqP_res_iff ⟨_, rfl, h4⟩ v2, if_pos hsh]
  intro h
  apply hne
  rw [← smulG_eq_zero_iff, Int.cast_sub, sub_smul, Draws.mask', mask_eq, sub_eq_zero]
  rw [Int.cast_natCast] at h
  generalize (d.mask.rnd : F) • (G : Grp CC) = D at h ⊢
  generalize (d.prep.r : F) • (G : Grp CC) = B at h ⊢
  generalize (d.prep.kopprf : F) • (G : Grp CC) = Q at h ⊢
  have : D = (0 + (x.toNat : F) • A + (d.okSum : F) • B + D) - (x.toNat : F) • A - (d.okSum : F) • B := by module
  rw [this, h]
  module

/-- C54 fails likewise: a client above the threshold gets `kopprf + ga * x`, which it must not learn, if another mask is in
front. -/
theorem C54_counterexample {W : World} {s : Server} {c : Client} (hP : Parties W.env s c) (hc : c.result = Pt.infty CC)
    {x : Msg} (_hx : s.theta.toNat < x.toNat) {d : Draws} (hu : TwinKeys W s c x d) (hsh : d.mask.sh2 % 3 ≠ 0) :
    Ends (evaluate W s c x d) fun r => EqP W.env CC (.ok r.2.result)
      (do let t ← s.ga.smulZ W.env CC x.toNat; r.1.kopprf.add W.env CC t) := by
  obtain ⟨A, hA⟩ := valid_iff.1 hP.ga
  obtain ⟨s', c', h1, h2, h3, h4⟩ := twin_rep hP hu hA (R0 := 0) (by rw [hc]; exact rep_infty)
  refine ⟨_, h1, ?_⟩
  obtain ⟨t, t1, t2⟩ := smulI_rep hA (x.toNat : ℤ)
  obtain ⟨v, v1, v2⟩ := add_rep h2 t2
  have e : (do let t ← s.ga.smulZ W.env CC x.toNat; s'.kopprf.add W.env CC t) = .ok v := by rw [t1, R.ok_bind, v1]
  dsimp only
  rw [e, eqP_res_iff ⟨_, rfl, h4⟩ v2, if_neg hsh, Int.cast_natCast, Draws.mask', mask_eq]
  generalize (d.prep.r : F) • (G : Grp CC) = B
  generalize (d.prep.kopprf : F) • (G : Grp CC) = Q
  generalize (d.okSum : F) = o
  generalize (x.toNat : F) = xx
  module

end Opprf
end Verif
