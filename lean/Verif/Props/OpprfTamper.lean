import Verif.Props.OpprfDebug

/-!
# C111: an answer of the OPPRF server altered on its way to the client
-/

namespace Verif
namespace Opprf

open EC Dme Ot Aes BytesSpec

attribute [local irreducible] Rep

/-! ## What happens between the server and the client -/

/-- someone adds `D` to the second component of each of the ciphertexts -/
def shiftAll (env : Env) (D : Pt) : List Ctxt → R (List Ctxt)
  | [] => .ok []
  | c :: cs => do
    let mv ← c.mv.add env CC D
    let cs ← shiftAll env D cs
    .ok (⟨c.u, mv⟩ :: cs)

/-- someone adds `D` to the ciphertexts of the points in the answer of round `r` and lets everything else pass -/
def addAt (env : Env) (r : ℕ) (D : Pt) (n : ℕ) (m : OtCtxts) : R OtCtxts :=
  if n = r then do
    let p ← shiftAll env D m.cprf
    .ok { m with cprf := p }
  else .ok m

/-- the rounds of `testsuit/test_opprf.cpp:48-56` with `tap` applied to the answers of the server -/
def tapRounds (W : World) (d : ℕ → RoundDraws) (tap : ℕ → OtCtxts → R OtCtxts) : ℕ → Server → Client → R (Server × Client)
  | 0, s, c => .ok (s, c)
  | n + 1, s, c => do
    let (pk, c) ← c.start W (n + 1 : ℕ) (d (n + 1)).sk
    let (m, s) ← s.runOTRound W (n + 1 : ℕ) pk (d (n + 1)).enc
    let m ← tap (n + 1) m
    let c ← c.finish W (n + 1 : ℕ) m
    tapRounds W d tap n s c

/-- the evaluation of `testsuit/test_opprf.cpp:42-62` with `tap` applied to the answers of the server in the rounds -/
def tapEvaluate (W : World) (tap : ℕ → OtCtxts → R OtCtxts) (s : Server) (c : Client) (x : Msg) (d : Draws) :
    R (Server × Client) := do
  let c := c.setMessage x
  let s ← s.prepare W d.prep
  let (s, c) ← tapRounds W d.rounds tap 16 s c
  let m ← s.sendEncryptedMasks W d.mask
  let c ← c.unmaskResult W m d.un
  .ok (s, c)

/-! ## The altered ciphertexts -/

theorem tap_none (W : World) (d : ℕ → RoundDraws) (n : ℕ) (s : Server) (c : Client) :
    tapRounds W d (fun _ m => .ok m) n s c = runRounds W d n s c := by
  induction n generalizing s c with
  | zero => rfl
  | succ n ih =>
    rw [tapRounds, runRounds]
    simp only [R.ok_bind, ih]

theorem tap_below {W : World} {r n : ℕ} (h : n < r) (d : ℕ → RoundDraws) (D : Pt) (s : Server) (c : Client) :
    tapRounds W d (addAt W.env r D) n s c = runRounds W d n s c := by
  induction n generalizing s c with
  | zero => rfl
  | succ n ih =>
    rw [tapRounds, runRounds]
    have e : ∀ m, addAt W.env r D (n + 1) m = .ok m := fun m => if_neg (by omega)
    simp only [e, R.ok_bind, ih (by omega)]

theorem ot_shift {env : Env} {rc rc' : Recv} {sd sd' sd'' : Sndr} (hs : Ready env ⟨rc, sd⟩) {b : Branch} {coin : ℤ} {pk : PKey}
    (h : selectMsg env rc b coin = .ok (pk, rc')) (hd : sd'.dme = sd.dme) {m0 m1 : Pt} {M0 M1 : Grp CC}
    (hM0 : Rep env m0 M0) (hM1 : Rep env m1 M1) {k0 k1 : EncCoins} {c : List Ctxt}
    (he : encMsgs env sd' pk m0 m1 k0 k1 = .ok (c, sd'')) (hnd : NonDegenerate rc' c b) :
    ∃ V : Grp CC, ∀ D g, Rep env D g → g ≠ V → ∃ c' P, shiftAll env D c = .ok c' ∧ decryptMsg env rc' c' = .ok P ∧
      Rep env P (pick b M0 M1 + g) := by
  obtain ⟨g, h', r⟩ := hs.crs.rep
  obtain ⟨pg, ph, e1, rg, rh⟩ := keyGen_rep (d := rc.dme) hs.recv r b coin
  simp only [selectMsg, e1, R.ok_bind] at h
  obtain ⟨rfl, rfl⟩ := Prod.mk.inj (Except.ok.inj h)
  have hl : Live env sd'.dme.curve := by rw [hd]; exact hs.sndr
  have rs : RepCrs env sd'.dme.crs g h' := by rw [hd]; exact r.congr hs.same hs.crs'
  obtain ⟨c0, -, f0, ru0, -, -, rm0⟩ := enc_rep (pk := ⟨pg, ph⟩) hl rs rg rh hM0 .b0 k0.s k0.t
  obtain ⟨c1, -, f1, ru1, -, -, rm1⟩ := enc_rep (pk := ⟨pg, ph⟩) hl rs rg rh hM1 .b1 k1.s k1.t
  simp only [encMsgs, f0, f1, R.ok_bind] at he
  obtain ⟨rfl, -⟩ := Prod.mk.inj (Except.ok.inj he)
  simp only [NonDegenerate, index_pair, Except.ok.injEq, exists_eq_left', ofZ_ne_zero_iff] at hnd
  have key : ∀ {ct : Ctxt} {U V M : Grp CC}, Rep env ct.u U → V = (coin : F) • U + M →
      ct.u.inf = false → ∀ {D : Pt} {x : Grp CC}, Rep env D (V + x) → V + x ≠ 0 →
      ∃ P, dec env (Fld.ofZ (coin : F)) ⟨ct.u, D⟩ = .ok P ∧ Rep env P (M + x) := by
    rintro ct U V M hu rfl a1 D x hv hne
    obtain ⟨P, h1, h2⟩ := dec_rep (c := ⟨ct.u, D⟩) hu hv (k := (coin : F)) (fun h0 => by
      rcases smul_eq_zero.1 h0 with h' | h'
      · exact hnd.2.1 h'
      · rw [(rep_inf hu).2 h'] at a1; simp at a1) hne
    refine ⟨P, h1, ?_⟩
    have e : (coin : F) • U + M + x - (coin : F) • U = M + x := by module
    rw [e] at h2
    exact h2
  have hsh {V0 V1 : Grp CC} (rm0 : Rep env c0.mv V0) (rm1 : Rep env c1.mv V1) (D : Pt) (x : Grp CC) (hD : Rep env D x) :
      ∃ p0 p1, shiftAll env D [c0, c1] = .ok [⟨c0.u, p0⟩, ⟨c1.u, p1⟩] ∧ Rep env p0 (V0 + x) ∧ Rep env p1 (V1 + x) := by
    obtain ⟨p0, a1, a2⟩ := add_rep rm0 hD
    obtain ⟨p1, b1, b2⟩ := add_rep rm1 hD
    exact ⟨p0, p1, by simp only [shiftAll, a1, b1, R.ok_bind], a2, b2⟩
  rcases b with _ | _
  · refine ⟨-((k0.s : F) • (coin : F) • g .b0 + (k0.t : F) • (coin : F) • h' .b0 + M0), fun D x hD hx => ?_⟩
    obtain ⟨p0, p1, h1, h2, h3⟩ := hsh rm0 rm1 D x hD
    obtain ⟨P, h4, h5⟩ := key (M := M0) ru0 (by module) hnd.1 h2 (fun h0 => hx (eq_neg_of_add_eq_zero_right h0))
    exact ⟨_, P, h1, by simp only [decryptMsg, selected, index_pair, R.ok_bind]; exact h4, h5⟩
  · refine ⟨-((k1.s : F) • (coin : F) • g .b1 + (k1.t : F) • (coin : F) • h' .b1 + M1), fun D x hD hx => ?_⟩
    obtain ⟨p0, p1, h1, h2, h3⟩ := hsh rm0 rm1 D x hD
    obtain ⟨P, h4, h5⟩ := key (M := M1) ru1 (by module) hnd.1 h3 (fun h0 => hx (eq_neg_of_add_eq_zero_right h0))
    exact ⟨_, P, h1, by simp only [decryptMsg, selected, index_pair, R.ok_bind]; exact h4, h5⟩

/-! ## The client does not look at its result -/

theorem searchKey_result (W : World) (c : Client) (q : Pt) (l : List (List Ctxt)) :
    searchKey W { c with result := q } l = searchKey W c l := by
  induction l with
  | nil => rfl
  | cons v l ih => rw [searchKey, searchKey, ih]

theorem start_result {W : World} {c c' : Client} {n coin : ℤ} {pk : PKey} (h : c.start W n coin = .ok (pk, c')) (q : Pt) :
    Client.start W { c with result := q } n coin = .ok (pk, { c' with result := q }) := by
  unfold Client.start at h ⊢
  simp only
  cases hx : c.x with
  | none => rw [hx] at h; cases h
  | some x =>
    rw [hx] at h
    simp only at h ⊢
    split_ifs at h ⊢
    obtain ⟨⟨pk', otr⟩, h1, h⟩ := R.bind_eq_ok.1 h
    obtain ⟨rfl, rfl⟩ := Prod.mk.inj (Except.ok.inj h)
    rw [h1, R.ok_bind]

theorem start_keeps {W : World} {c c' : Client} {n coin : ℤ} {pk : PKey} (h : c.start W n coin = .ok (pk, c')) :
    c'.result = c.result := by
  unfold Client.start at h
  cases hx : c.x with
  | none => rw [hx] at h; cases h
  | some x =>
    rw [hx] at h
    simp only at h
    split_ifs at h
    obtain ⟨⟨pk', otr⟩, -, h⟩ := R.bind_eq_ok.1 h
    obtain ⟨rfl, rfl⟩ := Prod.mk.inj (Except.ok.inj h)
    rfl

/-- a round that returns, with another point in the result and other ciphertexts of the points -/
theorem finish_result {W : World} {c c' : Client} {n : ℤ} {m : OtCtxts} (h : c.finish W n m = .ok c') {q P r : Pt}
    {v : List Ctxt} (hv : decryptMsg W.env c.otr v = .ok P) (hr : q.add W.env CC P = .ok r) :
    Client.finish W { c with result := q } n { m with cprf := v } = .ok { c' with result := r } := by
  unfold Client.finish at h ⊢
  simp only [searchKey_result, hv, hr, R.ok_bind] at h ⊢
  split_ifs at h ⊢
  · obtain ⟨key, h1, h⟩ := R.bind_eq_ok.1 h
    obtain ⟨_, -, h⟩ := R.bind_eq_ok.1 h
    obtain ⟨_, -, h⟩ := R.bind_eq_ok.1 h
    obtain rfl := Except.ok.inj h
    rw [h1, R.ok_bind]
  · obtain ⟨f, h1, h⟩ := R.bind_eq_ok.1 h
    obtain ⟨_, h2, h⟩ := R.bind_eq_ok.1 h
    cases f with
    | none => cases h
    | some key =>
      simp only [R.ok_bind] at h
      obtain ⟨_, -, h⟩ := R.bind_eq_ok.1 h
      obtain ⟨_, -, h⟩ := R.bind_eq_ok.1 h
      obtain rfl := Except.ok.inj h
      rw [h1, R.ok_bind, h2, R.ok_bind]

/-- the point that a round adds -/
theorem finish_add {W : World} {c c' : Client} {n : ℤ} {m : OtCtxts} (h : c.finish W n m = .ok c') :
    ∃ P, decryptMsg W.env c.otr m.cprf = .ok P ∧ c.result.add W.env CC P = .ok c'.result := by
  unfold Client.finish at h
  simp only at h
  split_ifs at h
  · obtain ⟨key, -, h⟩ := R.bind_eq_ok.1 h
    obtain ⟨P, h1, h⟩ := R.bind_eq_ok.1 h
    obtain ⟨r, h2, h⟩ := R.bind_eq_ok.1 h
    obtain rfl := Except.ok.inj h
    exact ⟨P, h1, h2⟩
  · obtain ⟨f, -, h⟩ := R.bind_eq_ok.1 h
    obtain ⟨_, -, h⟩ := R.bind_eq_ok.1 h
    cases f with
    | none => cases h
    | some key =>
      simp only [R.ok_bind] at h
      obtain ⟨P, h1, h⟩ := R.bind_eq_ok.1 h
      obtain ⟨r, h2, h⟩ := R.bind_eq_ok.1 h
      obtain rfl := Except.ok.inj h
      exact ⟨P, h1, h2⟩

/-- one round: what the client decrypts and how it changes with the ciphertexts -/
theorem round_shift {W : World} {s s' : Server} {c c' c'' : Client} {A B Q : Grp CC} {o : ℕ → F}
    (hp : PreparedPts W s A B Q o) (hR : Ready W.env ⟨c.otr, s.ots⟩) {x : Msg} (hx : c.x = some x)
    {n : ℕ} (hn : n < 16) {coin : ℤ} {k : RoundCoins} {pk : PKey} {m : OtCtxts}
    (h1 : c.start W (n + 1 : ℕ) coin = .ok (pk, c')) (h2 : s.runOTRound W (n + 1 : ℕ) pk k = .ok (m, s'))
    (hf : NonDegenerate c'.otr m.cprf (branch (x.toNat.testBit n))) (h3 : c'.finish W (n + 1 : ℕ) m = .ok c'') :
    ∃ M V : Grp CC, (∃ P, decryptMsg W.env c'.otr m.cprf = .ok P ∧ Rep W.env P M) ∧
      ∀ D g, Rep W.env D g → g ≠ V → ∃ v P, shiftAll W.env D m.cprf = .ok v ∧ decryptMsg W.env c'.otr v = .ok P ∧
        Rep W.env P (M + g) := by
  obtain ⟨pk', rc, g1, g2, hpt, hz⟩ := ot_round hR (branch (x.toNat.testBit n)) coin
  rw [start_ok (c := c) hx hn g1] at h1
  obtain ⟨rfl, rfl⟩ := Prod.mk.inj (Except.ok.inj h1)
  rcases Nat.lt_or_ge n 15 with hn' | hn'
  · obtain ⟨e0, e1, t0, t1, t2⟩ := hp.tab n hn'
    obtain ⟨c0, f0, -, -⟩ := hz s.ots rfl e0.k_lt e1.k_lt k.lt0 k.lt1
    obtain ⟨c1, f1, -, -⟩ := hz { s.ots with c := c0 } rfl e0.k_eq e1.k_eq k.eq0 k.eq1
    obtain ⟨c2, f2, -, -⟩ := hz { s.ots with c := c1 } rfl e0.k_gt e1.k_gt k.gt0 k.gt1
    obtain ⟨p, f3, -, d3⟩ := hpt { s.ots with c := c2 } rfl e0.prf e1.prf _ _ (t2 false) (t2 true) k.prf0 k.prf1
    unfold Server.runOTRound at h2
    rw [if_neg (by omega)] at h2
    have a0 : atShort s.Si0 ((n + 1 : ℕ) : ℤ) = .ok e0 := by
      rw [atShort, if_neg (by omega), Int.toNat_natCast, at'_ok]; exact t0
    have a1 : atShort s.Si1 ((n + 1 : ℕ) : ℤ) = .ok e1 := by
      rw [atShort, if_neg (by omega), Int.toNat_natCast, at'_ok]; exact t1
    simp only [a0, a1, R.ok_bind, f0, f1, f2, f3] at h2
    obtain ⟨rfl, rfl⟩ := Prod.mk.inj (Except.ok.inj h2)
    obtain ⟨V, hV⟩ := ot_shift hR g1 (sd' := { s.ots with c := c2 }) rfl (t2 false) (t2 true) f3 hf
    exact ⟨_, V, d3 hf, hV⟩
  · obtain rfl : n = 15 := by omega
    obtain ⟨c0, f0, -, -⟩ := hz s.ots rfl s.Sl0.k s.Sl1.k k.lt0 k.lt1
    obtain ⟨p, f3, -, d3⟩ := hpt { s.ots with c := c0 } rfl s.Sl0.prf s.Sl1.prf _ _ (hp.topPrf false)
      (hp.topPrf true) k.prf0 k.prf1
    unfold Server.runOTRound at h2
    rw [if_pos (by norm_num)] at h2
    simp only [R.ok_bind, f0, f3] at h2
    obtain ⟨rfl, rfl⟩ := Prod.mk.inj (Except.ok.inj h2)
    obtain ⟨V, hV⟩ := ot_shift hR g1 (sd' := { s.ots with c := c0 }) rfl (hp.topPrf false) (hp.topPrf true) f3 hf
    exact ⟨_, V, d3 hf, hV⟩

/-! ## The rounds -/

/-- the remaining rounds carry a difference in the result along -/
theorem rounds_carry {W : World} {A B Q : Grp CC} {o : ℕ → F} {x : Msg} (d : ℕ → RoundDraws) (n : ℕ) (hn : n ≤ 16)
    {s s' : Server} (hp : PreparedPts W s A B Q o) {c c' : Client} (hR : Ready W.env ⟨c.otr, s.ots⟩) (hx : c.x = some x)
    {Rn X : Grp CC} (hr : Rep W.env c.result Rn) (hf : FinePoints W d x n s c) (h : runRounds W d n s c = .ok (s', c'))
    {q : Pt} (hq : Rep W.env q (Rn + X)) :
    ∃ q' Rn', runRounds W d n s { c with result := q } = .ok (s', { c' with result := q' }) ∧
      Rep W.env c'.result Rn' ∧ Rep W.env q' (Rn' + X) := by
  induction n generalizing s c Rn q with
  | zero =>
    obtain ⟨rfl, rfl⟩ := Prod.mk.inj (Except.ok.inj h)
    exact ⟨q, Rn, rfl, hr, hq⟩
  | succ n ih =>
    rw [runRounds] at h
    obtain ⟨⟨pk, c1⟩, h1, h⟩ := R.bind_eq_ok.1 h
    obtain ⟨⟨m, s1⟩, h2, h⟩ := R.bind_eq_ok.1 h
    obtain ⟨c2, h3, h⟩ := R.bind_eq_ok.1 h
    obtain ⟨f1, f2⟩ := hf pk c1 m s1 h1 h2 c2 h3
    obtain ⟨⟨ots, rfl, g1⟩, g2, g3, g4, g5⟩ := round_any hp hR hx hr (by omega) h1 h2 f1 h3
    obtain ⟨M, -, ⟨P, hP1, hP2⟩, -⟩ := round_shift hp hR hx (by omega) h1 h2 f1 h3
    obtain ⟨r, r1, r2⟩ := add_rep hq hP2
    have k1 := start_result h1 q
    have k3 := finish_result h3 hP1 r1
    obtain ⟨P', j1, j2⟩ := finish_add h3
    obtain rfl := Except.ok.inj (hP1.symm.trans j1)
    have hcr : c1.result = c.result := start_keeps h1
    obtain ⟨r', l1, l2⟩ := add_rep hr hP2
    rw [hcr, l1] at j2
    have hc2 : Rep W.env c2.result (Rn + M) := by rw [← Except.ok.inj j2]; exact l2
    obtain ⟨q', Rn', z1, z2, z3⟩ := ih (by omega) (hp.ots ots) (Ready.of_dme hR g2 g1) g3 hc2 f2 h (q := r) (by
      have e : Rn + M + X = Rn + X + M := by abel
      rw [e]; exact r2)
    refine ⟨q', Rn', ?_, z2, z3⟩
    rw [runRounds]
    simp only [k1, h2, R.ok_bind]
    exact (congrArg (· >>= _) k3).trans z1

theorem rounds_tap {W : World} {A B Q : Grp CC} {o : ℕ → F} {x : Msg} (d : ℕ → RoundDraws) {t : ℕ} (ht : 1 ≤ t) (n : ℕ)
    (htn : t ≤ n) (hn : n ≤ 16) {s s' : Server} (hp : PreparedPts W s A B Q o) {c c' : Client}
    (hR : Ready W.env ⟨c.otr, s.ots⟩) (hx : c.x = some x)
    {Rn : Grp CC} (hr : Rep W.env c.result Rn) (hf : FinePoints W d x n s c) (h : runRounds W d n s c = .ok (s', c')) :
    ∃ (V Rn' : Grp CC), Rep W.env c'.result Rn' ∧ ∀ D g, Rep W.env D g → g ≠ V →
      ∃ q', tapRounds W d (addAt W.env t D) n s c = .ok (s', { c' with result := q' }) ∧ Rep W.env q' (Rn' + g) := by
  induction n generalizing s c Rn with
  | zero => omega
  | succ n ih =>
    rw [runRounds] at h
    obtain ⟨⟨pk, c1⟩, h1, h⟩ := R.bind_eq_ok.1 h
    obtain ⟨⟨m, s1⟩, h2, h⟩ := R.bind_eq_ok.1 h
    obtain ⟨c2, h3, h⟩ := R.bind_eq_ok.1 h
    obtain ⟨f1, f2⟩ := hf pk c1 m s1 h1 h2 c2 h3
    obtain ⟨⟨ots, rfl, g1⟩, g2, g3, g4, g5⟩ := round_any hp hR hx hr (by omega) h1 h2 f1 h3
    rcases Nat.lt_or_ge n t with hlt | hge
    · obtain rfl : t = n + 1 := by omega
      obtain ⟨M, V, ⟨P, hP1, hP2⟩, hV⟩ := round_shift hp hR hx (by omega) h1 h2 f1 h3
      obtain ⟨P', j1, j2⟩ := finish_add h3
      obtain rfl := Except.ok.inj (hP1.symm.trans j1)
      have hcr : c1.result = c.result := start_keeps h1
      obtain ⟨r', l1, l2⟩ := add_rep hr hP2
      rw [hcr, l1] at j2
      have hc2 : Rep W.env c2.result (Rn + M) := by rw [← Except.ok.inj j2]; exact l2
      obtain ⟨-, Rn', -, z2, -⟩ := rounds_carry d n (by omega) (hp.ots ots) (Ready.of_dme hR g2 g1) g3 hc2 f2 h (q := c2.result)
        (X := 0) (by rw [add_zero]; exact hc2)
      refine ⟨V, Rn', z2, fun D g hD hg => ?_⟩
      obtain ⟨v, P', v1, v2, v3⟩ := hV D g hD hg
      obtain ⟨r, r1, r2⟩ := add_rep hr v3
      have k3 := finish_result h3 (q := c.result) v2 r1
      obtain ⟨q', Rn'', z1, z2', z3⟩ := rounds_carry d n (by omega) (hp.ots ots) (Ready.of_dme hR g2 g1) g3 hc2 f2 h (q := r)
        (X := g) (by rw [add_assoc]; exact r2)
      rw [rep_unique z2 z2']
      refine ⟨q', ?_, z3⟩
      rw [tapRounds]
      have e : addAt W.env (n + 1) D (n + 1) m = .ok { m with cprf := v } := by
        rw [addAt, if_pos rfl, v1, R.ok_bind]
      have e' : { c1 with result := c.result } = c1 := by rw [← hcr]
      rw [e'] at k3
      simp only [h1, h2, e, k3, R.ok_bind]
      rw [tap_below (by omega)]
      exact z1
    · obtain ⟨V, Rn', z1, z2⟩ := ih hge (by omega) (hp.ots ots) (Ready.of_dme hR g2 g1) g3 g5 f2 h
      refine ⟨V, Rn', z1, fun D g hD hg => ?_⟩
      obtain ⟨q', y1, y2⟩ := z2 D g hD hg
      refine ⟨q', ?_, y2⟩
      rw [tapRounds]
      have e : addAt W.env t D (n + 1) m = .ok m := if_neg (by omega)
      simp only [h1, h2, e, h3, R.ok_bind]
      exact y1

/-! ## C111 -/

theorem evaluateP_live {env : Env} {a : Option Addr} {x : Fld} {P : Pt}
    (h : Curve.evaluateP env CC a x = .ok P ∨ Curve.evaluatePneg env CC a x = .ok P) : Live env a := by
  by_contra hl
  obtain ⟨e, he⟩ := deref_not_live hl
  simp only [Curve.evaluateP, Curve.evaluatePneg, Curve.evaluatePy2, he, R.error_bind] at h
  rcases h with h | h <;> cases h

theorem on_neg' {x y : ZMod CC.fp} (h : On CC x y) : On CC x (-y) := by
  unfold On at h ⊢
  rw [neg_sq]
  exact h

/-- whatever `setEncodedX` returns is a point of the curve or infinity -/
theorem setEncodedX_rep {env : Env} {T P : Pt} {e : ℤ} (h : T.setEncodedX env CC e = .ok P) : ∃ g : Grp CC, Rep env P g := by
  have hT : Live env T.curve := by
    unfold Pt.setEncodedX at h
    split_ifs at h
    · exact evaluateP_live (.inl h)
    · exact evaluateP_live (.inr h)
  unfold Pt.setEncodedX at h
  rw [Fld.mk'_eq, evaluateP_ok hT, evaluatePneg_ok hT] at h
  by_cases h2 : root CC ((e / 2 : ℤ) : ZMod CC.fp) * root CC ((e / 2 : ℤ) : ZMod CC.fp) = rhs CC ((e / 2 : ℤ) : ZMod CC.fp)
  · rw [if_pos h2, if_pos h2] at h
    split_ifs at h
    · obtain rfl := Except.ok.inj h
      exact ⟨_, rep_ofFld (on_root h2) hT⟩
    · obtain rfl := Except.ok.inj h
      exact ⟨_, rep_ofFld (on_neg' (on_root h2)) hT⟩
  · rw [if_neg h2, if_neg h2] at h
    refine ⟨0, ?_⟩
    split_ifs at h <;> obtain rfl := Except.ok.inj h <;> exact rep_infty

theorem exists_rep {env : Env} {a : Option Addr} (h : Live env a) (g : Grp CC) : ∃ P, Rep env P g := by
  rcases cases_pt g with rfl | ⟨x, y, hon, rfl⟩
  · exact ⟨_, rep_infty⟩
  · exact ⟨_, rep_ofFld hon h⟩

theorem tap_rep {W : World} {s s' : Server} {c c' : Client} (hP : Parties W.env s c)
    {x : Msg} {d : Draws} (hb : d.prep.bits.length = 16) {Rn : Grp CC} (hc : Rep W.env c.result Rn)
    (hf : ∀ s1, s.prepare W d.prep = .ok s1 → FinePoints W d.rounds x 16 s1 (c.setMessage x))
    (h : evaluate W s c x d = .ok (s', c')) {t : ℕ} (ht : 1 ≤ t) (ht' : t ≤ 16) :
    ∃ (V Rn' : Grp CC), Rep W.env c'.result Rn' ∧ ∀ D g, Rep W.env D g → g ≠ V →
      ∃ q', tapEvaluate W (addAt W.env t D) s c x d = .ok (s', { c' with result := q' }) ∧ Rep W.env q' (Rn' + g) := by
  obtain ⟨A, hA⟩ := valid_iff.1 hP.ga
  obtain ⟨-, -, -, e4⟩ := hP.noKeys
  unfold evaluate at h
  simp only at h
  obtain ⟨s1, h1, h⟩ := R.bind_eq_ok.1 h
  obtain ⟨⟨s2, c2⟩, h2, h⟩ := R.bind_eq_ok.1 h
  obtain ⟨m, h3, h⟩ := R.bind_eq_ok.1 h
  obtain ⟨c3, h4, h⟩ := R.bind_eq_ok.1 h
  obtain ⟨rfl, rfl⟩ := Prod.mk.inj (Except.ok.inj h)
  obtain ⟨p1, p2, p3, p4, p5⟩ := prepare_pts hP.server hA e4 hb h1
  have hcR : Ready W.env ⟨(c.setMessage x).otr, s1.ots⟩ := Ready.of_dme hP.ready rfl (by rw [p2])
  obtain ⟨-, q2, -⟩ := rounds_any (x := x) d.rounds 16 le_rfl p1 hcR rfl (Rn := Rn) hc (hf s1 h1) h2
  obtain ⟨V, Rn', y1, y2⟩ := rounds_tap (x := x) d.rounds ht 16 ht' le_rfl p1 hcR rfl (Rn := Rn) hc (hf s1 h1) h2
  unfold Client.unmaskResult at h4
  obtain ⟨f, t1, h4⟩ := R.bind_eq_ok.1 h4
  obtain ⟨_, t5, h4⟩ := R.bind_eq_ok.1 h4
  cases f with
  | none => cases h4
  | some e =>
    simp only at h4
    obtain ⟨T, t2, h4⟩ := R.bind_eq_ok.1 h4
    obtain ⟨P, t3, h4⟩ := R.bind_eq_ok.1 h4
    obtain ⟨r, t4, h4⟩ := R.bind_eq_ok.1 h4
    obtain rfl := Except.ok.inj h4
    obtain ⟨Z, hZ⟩ := setEncodedX_rep t3
    obtain ⟨r', r1, r2⟩ := add_rep y1 hZ
    obtain rfl := Except.ok.inj (r1.symm.trans t4)
    refine ⟨V, Rn' + Z, r2, fun D g hD hg => ?_⟩
    obtain ⟨q', w1, w2⟩ := y2 D g hD hg
    obtain ⟨q'', w3, w4⟩ := add_rep w2 hZ
    refine ⟨q'', ?_, by rw [add_right_comm]; exact w4⟩
    unfold tapEvaluate
    simp only [h1, w1, h3, R.ok_bind, Client.unmaskResult, t1, t5, t2, t3, w3]

/-- C111 is false: someone between the server and the client who has no key adds a point `D` to the second components of
the two ciphertexts of points in the answer to one round `t`.  For every `D` but one the client completes as if nothing had
happened, with the same key and the same state, except that its result is what it would have been plus `D`.  The draws
excluded are those of C95, and in debug builds there are none (`C111_debug_counterexample`). -/
theorem C111_counterexample {W : World} {s s' : Server} {c c' : Client} (hP : Parties W.env s c)
    {x : Msg} {d : Draws} (hb : d.prep.bits.length = 16) (hc : Valid W.env CC c.result)
    (hf : ∀ s1, s.prepare W d.prep = .ok s1 → FinePoints W d.rounds x 16 s1 (c.setMessage x))
    (h : evaluate W s c x d = .ok (s', c')) {t : ℕ} (ht : 1 ≤ t) (ht' : t ≤ 16) :
    ∃ E : Pt, Valid W.env CC E ∧ ∀ D, Valid W.env CC D → ¬ SamePoint D E →
      Ends (tapEvaluate W (addAt W.env t D) s c x d) fun r => r.1 = s' ∧ r.2 = { c' with result := r.2.result } ∧
        EqP W.env CC (.ok r.2.result) (c'.result.add W.env CC D) := by
  obtain ⟨Rn, hRn⟩ := valid_iff.1 hc
  obtain ⟨V, Rn', y1, y2⟩ := tap_rep hP hb hRn hf h ht ht'
  obtain ⟨E, hE⟩ := exists_rep hP.ready.recv V
  refine ⟨E, valid_iff.2 ⟨V, hE⟩, fun D hD hne => ?_⟩
  obtain ⟨g, hg⟩ := valid_iff.1 hD
  obtain ⟨q, z1, z2⟩ := y2 D g hg (fun e => hne ((samePoint_iff hg hE).2 e))
  obtain ⟨r, r1, r2⟩ := add_rep y1 hg
  exact ⟨_, z1, rfl, rfl, eqP_of_rep ⟨q, rfl, z2⟩ ⟨r, r1, r2⟩ rfl⟩

/-- the same in debug builds, for all draws, if `ga` and the CRS are finite -/
theorem C111_debug_counterexample {W : World} (hd : W.env.ndebug = false) {s s' : Server} {c c' : Client}
    (hP : Parties W.env s c) (hga : s.ga.inf = false) (hcrs : FiniteCrs c.otr.dme.crs) {x : Msg} {d : Draws}
    (hb : d.prep.bits.length = 16) (hc : Valid W.env CC c.result)
    (h : evaluate W s c x d = .ok (s', c')) {t : ℕ} (ht : 1 ≤ t) (ht' : t ≤ 16) :
    ∃ E : Pt, Valid W.env CC E ∧ ∀ D, Valid W.env CC D → ¬ SamePoint D E →
      Ends (tapEvaluate W (addAt W.env t D) s c x d) fun r => r.1 = s' ∧ r.2 = { c' with result := r.2.result } ∧
        EqP W.env CC (.ok r.2.result) (c'.result.add W.env CC D) := by
  refine C111_counterexample hP hb hc (fun s1 h1 => ?_) h ht ht'
  obtain ⟨n1, n2⟩ := noPtrs_prepare hP.server hga h1
  refine finePoints_debug hd d.rounds 16 le_rfl n1 hcrs ?_ rfl
  rw [n2]
  exact finiteCrs_congr hP.ready.same hcrs

end Opprf
end Verif
