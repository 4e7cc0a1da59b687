import Verif.Props.OpprfRight
import Verif.Props.ExactInt

/-!
# C100: the client's keys, whatever the keys, the cipher and the draws

The oblivious transfers carry integers as points.  What arrives is a function of the integer alone, so the keys a client
goes through are determined by the server's tables and the shuffles.
-/

namespace Verif
namespace Opprf

open EC Dme Ot Aes BytesSpec

attribute [local irreducible] Rep

/-! ## The walk -/

/-- what arrives when the integer `v` is sent as a point: the first abscissa at or after `1024 * v`, reduced modulo the
prime, without its last ten bits -/
def Received (v w : ℤ) : Prop :=
  ∃ k : ℕ, IsAbscissa (v * 1024 + k) ∧ (∀ i < k, ¬ IsAbscissa (v * 1024 + i)) ∧ w = (v * 1024 + k) % CC.prime / 1024

/-- `key` opens one of the received integers, the ones before it are rejected; `key'` is what it contains -/
def KeyFound (W : World) (key : ℤ) (l : List ℤ) (key' : ℤ) : Prop :=
  key' ≠ 0 ∧ ∃ l1 v l2, l = l1 ++ v :: l2 ∧ (∃ w, Received v w ∧ W.unseal key w = .ok key') ∧
    ∀ u ∈ l1, ∃ w, Received u w ∧ W.unseal key w = .ok 0

/-- the keys `κ 15, ..., κ 0` of a client with input `x` walking down the tables of the server `s`; the shuffles are part
of the draws `d` -/
structure Walk (W : World) (s : Server) (x : Msg) (d : ℕ → RoundDraws) (κ : ℕ → ℤ) : Prop where
  top : Received (if x.toNat.testBit 15 then s.Sl1 else s.Sl0).k (κ 15)
  step : ∀ j < 15, ∃ e, (if x.toNat.testBit j then s.Si1 else s.Si0)[j + 1]? = some e ∧
    KeyFound W (κ (j + 1)) (Arr3.shuffle ⟨e.k_lt, e.k_eq, e.k_gt⟩ (d (j + 1)).enc.sh1 (d (j + 1)).enc.sh2).toList (κ j)

theorem received_unique {v w w' : ℤ} (h : Received v w) (h' : Received v w') : w = w' := by
  obtain ⟨k, a1, a2, rfl⟩ := h
  obtain ⟨k', b1, b2, rfl⟩ := h'
  rcases Nat.lt_trichotomy k k' with hk | rfl | hk
  · exact absurd a1 (b2 k hk)
  · rfl
  · exact absurd b1 (a2 k' hk)

theorem received_decode {env : Env} {d : Inst} (hl : Live env d.curve) (v : ℤ) :
    ∃ P, encode env d v = .ok P ∧ IsFinite env CC P ∧ Received v (decode P) := by
  obtain ⟨k, P, -, h1, h2, h3, -, h4, h5⟩ := encode_ok hl v
  refine ⟨P, h3, h5, k, h1, h2, ?_⟩
  rw [decode, h4]
  rfl

theorem received_exists (v : ℤ) : ∃ w, Received v w := by
  classical
  obtain ⟨k0, -, ha0⟩ := exists_abscissa (v * 1024)
  have hex : ∃ k : ℕ, IsAbscissa (v * 1024 + k) := ⟨k0, ha0⟩
  exact ⟨_, Nat.find hex, Nat.find_spec hex, fun i hi => Nat.find_min hex hi, rfl⟩

/-- what arrives is what was sent exactly if it fits -/
theorem received_self_iff (v : ℤ) : Received v v ↔ Verif.Fits 1024 v := by
  constructor
  · rintro ⟨k, h1, h2, h3⟩
    exact (fits_iff (W := 1024) (by norm_num) h1 h2).1 h3.symm
  · intro h
    obtain ⟨w, k, h1, h2, h3⟩ := received_exists v
    exact ⟨k, h1, h2, ((fits_iff (W := 1024) (by norm_num) h1 h2).2 h).symm⟩

/-! ## One transfer -/

/-- A transfer of integers: every draw gives a ciphertext vector; if it is not degenerate the receiver gets exactly what
`Received` says; in a debug build with a finite CRS it gets that or a fault. -/
theorem ot_received {env : Env} {rc : Recv} {sd : Sndr} (hs : Ready env ⟨rc, sd⟩) (b : Branch) (coin : ℤ) {pk : PKey}
    {rc' : Recv} (hsel : selectMsg env rc b coin = .ok (pk, rc')) {sd' : Sndr} (hd : sd'.dme = sd.dme) (m0 m1 : ℤ)
    (k0 k1 : EncCoins) : ∃ c, encMsgsZ env sd' pk m0 m1 k0 k1 = .ok (c, { sd' with c := c }) ∧ c ≠ [] ∧
      (NonDegenerate rc' c b → ∃ w, decryptMsgDecode env rc' c = .ok w ∧ Received (pick b m0 m1) w) ∧
      (env.ndebug = false → FiniteCrs rc.dme.crs → ∀ w, decryptMsgDecode env rc' c = .ok w →
        Received (pick b m0 m1) w) := by
  obtain ⟨pk2, rc2, g1, g2, hpt, -⟩ := ot_round hs b coin
  obtain ⟨rfl, rfl⟩ := Prod.mk.inj (Except.ok.inj (g1.symm.trans hsel))
  have hl : Live env sd'.dme.curve := by rw [hd]; exact hs.sndr
  obtain ⟨P0, p0, q0, r0⟩ := received_decode hl m0
  obtain ⟨P1, p1, q1, r1⟩ := received_decode hl m1
  obtain ⟨M0, hM0⟩ := valid_iff.1 (.inr q0)
  obtain ⟨M1, hM1⟩ := valid_iff.1 (.inr q1)
  obtain ⟨c, e1, e2, e3⟩ := hpt sd' hd P0 P1 M0 M1 hM0 hM1 k0 k1
  have henc : encMsgsZ env sd' pk2 m0 m1 k0 k1 = .ok (c, { sd' with c := c }) := by
    rw [← e1]
    simp only [encMsgsZ, encZ, encMsgs, p0, p1, R.ok_bind]
  have hmain : NonDegenerate rc2 c b → ∃ w, decryptMsgDecode env rc2 c = .ok w ∧ Received (pick b m0 m1) w := by
    intro hn
    obtain ⟨P, h1, h2⟩ := e3 hn
    unfold decryptMsg at h1
    obtain ⟨ct, i1, i2⟩ := R.bind_eq_ok.1 h1
    refine ⟨decode P, by simp only [decryptMsgDecode, decDecode, i1, i2, R.ok_bind], ?_⟩
    cases b
    · rw [decode_congr (P := P0) hM0 h2]
      exact r0
    · rw [decode_congr (P := P1) hM1 h2]
      exact r1
  refine ⟨c, henc, e2, hmain, fun hdb hf w hw => ?_⟩
  have hn : NonDegenerate rc2 c b := by
    unfold selectMsg at g1
    obtain ⟨kp, k1', g1⟩ := R.bind_eq_ok.1 g1
    obtain ⟨rfl, rfl⟩ := Prod.mk.inj (Except.ok.inj g1)
    unfold keyGen at k1'
    obtain ⟨sk, -, k1'⟩ := R.bind_eq_ok.1 k1'
    obtain ⟨g, kg, k1'⟩ := R.bind_eq_ok.1 k1'
    obtain ⟨h', kh, k1'⟩ := R.bind_eq_ok.1 k1'
    obtain rfl := Except.ok.inj k1'
    have ng : NoPtr g := (NoPtr.of_finite (hf b).1).smul kg
    have nh : NoPtr h' := (NoPtr.of_finite (hf b).2).smul kh
    have hfc : FiniteCrs sd'.dme.crs := by rw [hd]; exact finiteCrs_congr hs.same hf
    obtain ⟨-, nc⟩ := noPtr_encMsgs hfc ng nh (.of_finite q0.1) (.of_finite q1.1) e1
    unfold decryptMsgDecode at hw
    obtain ⟨ct, i1, i2⟩ := R.bind_eq_ok.1 hw
    unfold decDecode at i2
    obtain ⟨P, i2, -⟩ := R.bind_eq_ok.1 i2
    obtain ⟨j1, j2⟩ := nc _ _ i1
    exact ⟨ct, i1, finite_of_dec hdb j1 j2 i2⟩
  obtain ⟨w', h1, h2⟩ := hmain hn
  obtain rfl : w = w' := Except.ok.inj (hw.symm.trans h1)
  exact h2

/-! ## The search -/

theorem searchKey_sound {W : World} {c : Client} {k : ℤ} {l : List (List Ctxt)} {u : List ℤ}
    (h : List.Forall₂ (fun v a => ∀ w, decryptMsgDecode W.env c.otr v = .ok w → Received a w) l u)
    (hs : searchKey W c l = .ok (some k)) : KeyFound W c.key u k := by
  induction h with
  | nil => cases Except.ok.inj hs
  | @cons v a l u h0 _ ih =>
    rw [searchKey] at hs
    obtain ⟨w, h1, hs⟩ := R.bind_eq_ok.1 hs
    obtain ⟨t, h2, hs⟩ := R.bind_eq_ok.1 hs
    split_ifs at hs with ht
    · obtain rfl := Option.some.inj (Except.ok.inj hs)
      exact ⟨ht, [], a, u, rfl, ⟨w, h0 w h1, h2⟩, by simp⟩
    · obtain ⟨k0, l1, x, l2, rfl, h3, h4⟩ := ih hs
      refine ⟨k0, a :: l1, x, l2, rfl, h3, ?_⟩
      intro y hy
      rcases List.mem_cons.1 hy with rfl | hy
      · exact ⟨w, h0 w h1, by rw [h2, not_not.1 ht]⟩
      · exact h4 y hy

theorem searchKey_complete {W : World} {c : Client} {k : ℤ} {l : List (List Ctxt)} {u : List ℤ}
    (h : List.Forall₂ (fun v a => ∃ w, decryptMsgDecode W.env c.otr v = .ok w ∧ Received a w) l u)
    (hk : KeyFound W c.key u k) : searchKey W c l = .ok (some k) := by
  induction h with
  | nil =>
    obtain ⟨-, l1, v, l2, h, -⟩ := hk
    simp at h
  | @cons v a l u h0 _ ih =>
    obtain ⟨w, h1, h2⟩ := h0
    obtain ⟨k0, l1, x, l2, h3, ⟨w1, h4, h5⟩, h6⟩ := hk
    rw [searchKey, h1, R.ok_bind]
    cases l1 with
    | nil =>
      obtain ⟨rfl, -⟩ := List.cons.inj h3
      obtain rfl := received_unique h2 h4
      rw [h5, R.ok_bind, if_pos k0]
    | cons y l1 =>
      obtain ⟨rfl, h7⟩ := List.cons.inj h3
      obtain ⟨w2, h8, h9⟩ := h6 a (by simp)
      obtain rfl := received_unique h2 h8
      rw [h9, R.ok_bind, if_neg (by simp)]
      exact ih ⟨k0, l1, x, l2, h7, ⟨w1, h4, h5⟩, fun y hy => h6 y (by simp [hy])⟩

theorem shuffle_forall₂ {α β : Type} {r : α → β → Prop} {a0 a1 a2 : α} {b0 b1 b2 : β} (h0 : r a0 b0) (h1 : r a1 b1)
    (h2 : r a2 b2) (i j : ℕ) :
    List.Forall₂ r (Arr3.shuffle ⟨a0, a1, a2⟩ i j).toList (Arr3.shuffle ⟨b0, b1, b2⟩ i j).toList := by
  unfold Arr3.shuffle Arr3.toList
  split_ifs <;> exact .cons (by assumption) (.cons (by assumption) (.cons (by assumption) .nil))

/-! ## One round -/

/-- the key after round `n + 1`, given the key before it -/
def RoundKey (W : World) (s : Server) (x : Msg) (k : RoundCoins) (n : ℕ) (key key' : ℤ) : Prop :=
  if n = 15 then Received (if x.toNat.testBit 15 then s.Sl1 else s.Sl0).k key'
  else ∃ e, (if x.toNat.testBit n then s.Si1 else s.Si0)[n + 1]? = some e ∧
    KeyFound W key (Arr3.shuffle ⟨e.k_lt, e.k_eq, e.k_gt⟩ k.sh1 k.sh2).toList key'

theorem round_walk {W : World} {s : Server} {c : Client} {A B Q : Grp CC} {o : ℕ → F}
    (hp : PreparedPts W s A B Q o) (hR : Ready W.env ⟨c.otr, s.ots⟩) {x : Msg} (hx : c.x = some x) {Rn : Grp CC}
    (hr : Rep W.env c.result Rn) {n : ℕ} (hn : n < 16) (coin : ℤ) (k : RoundCoins) :
    ∃ pk c' m s', c.start W (n + 1 : ℕ) coin = .ok (pk, c') ∧ s.runOTRound W (n + 1 : ℕ) pk k = .ok (m, s') ∧
      (FineMsg c' m (x.toNat.testBit n) → ∀ key, RoundKey W s x k n c.key key →
        Ends (c'.finish W (n + 1 : ℕ) m) fun c'' => c''.key = key) ∧
      (FineMsg c' m (x.toNat.testBit n) ∨ (W.env.ndebug = false ∧ FiniteCrs c.otr.dme.crs) →
        ∀ c'', c'.finish W (n + 1 : ℕ) m = .ok c'' → RoundKey W s x k n c.key c''.key) := by
  obtain ⟨pk, rc, g1, g2, hpt, -⟩ := ot_round hR (branch (x.toNat.testBit n)) coin
  refine ⟨pk, { c with otr := rc }, ?_⟩
  have hst := start_ok (c := c) hx hn g1
  rcases Nat.lt_or_ge n 15 with hn' | hn'
  · obtain ⟨e0, e1, t0, t1, t2⟩ := hp.tab n hn'
    obtain ⟨c0, f0, n0, d0, d0'⟩ := ot_received hR _ coin g1 (sd' := s.ots) rfl e0.k_lt e1.k_lt k.lt0 k.lt1
    obtain ⟨c1, f1, n1, d1, d1'⟩ := ot_received hR _ coin g1 (sd' := { s.ots with c := c0 }) rfl e0.k_eq e1.k_eq k.eq0 k.eq1
    obtain ⟨c2, f2, n2, d2, d2'⟩ := ot_received hR _ coin g1 (sd' := { s.ots with c := c1 }) rfl e0.k_gt e1.k_gt k.gt0 k.gt1
    obtain ⟨p, f3, n3, d3⟩ := hpt { s.ots with c := c2 } rfl e0.prf e1.prf _ _ (t2 false) (t2 true) k.prf0 k.prf1
    refine ⟨⟨Arr3.shuffle ⟨c0, c1, c2⟩ k.sh1 k.sh2, p⟩, { s with ots := { s.ots with c := p } }, hst, ?_, ?_, ?_⟩
    · unfold Server.runOTRound
      rw [if_neg (by omega)]
      have a0 : atShort s.Si0 ((n + 1 : ℕ) : ℤ) = .ok e0 := by
        rw [atShort, if_neg (by omega), Int.toNat_natCast, at'_ok]; exact t0
      have a1 : atShort s.Si1 ((n + 1 : ℕ) : ℤ) = .ok e1 := by
        rw [atShort, if_neg (by omega), Int.toNat_natCast, at'_ok]; exact t1
      simp only [a0, a1, R.ok_bind, f0, f1, f2, f3]
    all_goals
      have hsel : ∀ e, (if x.toNat.testBit n then s.Si1 else s.Si0)[n + 1]? = some e →
          pick (branch (x.toNat.testBit n)) e0.k_lt e1.k_lt = e.k_lt ∧
          pick (branch (x.toNat.testBit n)) e0.k_eq e1.k_eq = e.k_eq ∧
          pick (branch (x.toNat.testBit n)) e0.k_gt e1.k_gt = e.k_gt := by
        intro e he
        simp only [pick_branch]
        cases hb : x.toNat.testBit n
        · rw [hb] at he
          obtain rfl := Option.some.inj (t0.symm.trans he)
          exact ⟨rfl, rfl, rfl⟩
        · rw [hb] at he
          obtain rfl := Option.some.inj (t1.symm.trans he)
          exact ⟨rfl, rfl, rfl⟩
      have hex : ∃ e, (if x.toNat.testBit n then s.Si1 else s.Si0)[n + 1]? = some e := by
        cases x.toNat.testBit n
        · exact ⟨e0, t0⟩
        · exact ⟨e1, t1⟩
    · intro hfine key hkey
      rw [RoundKey, if_neg (by omega)] at hkey
      obtain ⟨e, he, hkey⟩ := hkey
      obtain ⟨s0, s1, s2⟩ := hsel e he
      rw [s0] at d0
      rw [s1] at d1
      rw [s2] at d2
      have hm : ∀ v ∈ [c0, c1, c2], v ≠ [] → NonDegenerate rc v (branch (x.toNat.testBit n)) := fun v hv hv' =>
        hfine v (List.mem_cons_of_mem _ ((mem_shuffle _ _ _ _).2 hv)) hv'
      have hsearch := searchKey_complete (c := { c with otr := rc }) (shuffle_forall₂ (d0 (hm _ (by simp) n0))
        (d1 (hm _ (by simp) n1)) (d2 (hm _ (by simp) n2)) k.sh1 k.sh2) hkey
      obtain ⟨P, hP1, hP2⟩ := d3 (hfine p (by simp) n3)
      obtain ⟨r, r1, r2⟩ := finish_tail (c := { c with otr := rc }) hr hP1 hP2 key
      refine ⟨{ c with otr := rc, key := key, result := r }, ?_, rfl⟩
      unfold Client.finish
      rw [if_neg (by omega)]
      simp only [hsearch, R.ok_bind, Option.isSome_some, cassert]
      simpa using r2
    · intro hor c'' hfin
      rw [RoundKey, if_neg (by omega)]
      obtain ⟨e, he⟩ := hex
      refine ⟨e, he, ?_⟩
      obtain ⟨s0, s1, s2⟩ := hsel e he
      rw [s0] at d0 d0'
      rw [s1] at d1 d1'
      rw [s2] at d2 d2'
      have snd {v : List Ctxt} {a : ℤ} (hv : v ∈ [c0, c1, c2]) (hv' : v ≠ [])
          (h1 : NonDegenerate rc v (branch (x.toNat.testBit n)) → ∃ w, decryptMsgDecode W.env rc v = .ok w ∧ Received a w)
          (h2 : W.env.ndebug = false → FiniteCrs c.otr.dme.crs → ∀ w, decryptMsgDecode W.env rc v = .ok w → Received a w) :
          ∀ w, decryptMsgDecode W.env rc v = .ok w → Received a w := by
        rcases hor with hfine | ⟨hd, hf⟩
        · obtain ⟨w', i1, i2⟩ := h1 (hfine v (List.mem_cons_of_mem _ ((mem_shuffle _ _ _ _).2 hv)) hv')
          intro w hw
          obtain rfl : w = w' := Except.ok.inj (hw.symm.trans i1)
          exact i2
        · exact h2 hd hf
      unfold Client.finish at hfin
      rw [if_neg (by omega)] at hfin
      simp only at hfin
      obtain ⟨f, hk1, hfin⟩ := R.bind_eq_ok.1 hfin
      obtain ⟨-, -, hfin⟩ := R.bind_eq_ok.1 hfin
      cases f with
      | none => cases hfin
      | some key' =>
        simp only [R.ok_bind] at hfin
        obtain ⟨_, -, hfin⟩ := R.bind_eq_ok.1 hfin
        obtain ⟨_, -, hfin⟩ := R.bind_eq_ok.1 hfin
        obtain rfl := Except.ok.inj hfin
        exact searchKey_sound (c := { c with otr := rc }) (shuffle_forall₂ (snd (by simp) n0 d0 d0')
          (snd (by simp) n1 d1 d1') (snd (by simp) n2 d2 d2') k.sh1 k.sh2) hk1
  · obtain rfl : n = 15 := by omega
    obtain ⟨c0, f0, n0, d0, d0'⟩ := ot_received hR _ coin g1 (sd' := s.ots) rfl s.Sl0.k s.Sl1.k k.lt0 k.lt1
    obtain ⟨p, f3, n3, d3⟩ := hpt { s.ots with c := c0 } rfl s.Sl0.prf s.Sl1.prf _ _ (hp.topPrf false) (hp.topPrf true)
      k.prf0 k.prf1
    have hsel : pick (branch (x.toNat.testBit 15)) s.Sl0.k s.Sl1.k = (if x.toNat.testBit 15 then s.Sl1 else s.Sl0).k := by
      rw [pick_branch]
      cases x.toNat.testBit 15 <;> rfl
    rw [hsel] at d0 d0'
    refine ⟨⟨⟨c0, [], []⟩, p⟩, { s with ots := { s.ots with c := p } }, hst, ?_, ?_, ?_⟩
    · unfold Server.runOTRound
      rw [if_pos (by norm_num)]
      simp only [R.ok_bind, f0, f3]
    · intro hfine key hkey
      rw [RoundKey, if_pos rfl] at hkey
      obtain ⟨w, i1, i2⟩ := d0 (hfine c0 (by simp [Arr3.toList]) n0)
      obtain rfl := received_unique hkey i2
      obtain ⟨P, hP1, hP2⟩ := d3 (hfine p (by simp) n3)
      obtain ⟨r, r1, r2⟩ := finish_tail (c := { c with otr := rc }) hr hP1 hP2 key
      refine ⟨{ c with otr := rc, key := key, result := r }, ?_, rfl⟩
      unfold Client.finish
      rw [if_pos (by norm_num)]
      simp only [i1, R.ok_bind]
      simpa using r2
    · intro hor c'' hfin
      rw [RoundKey, if_pos rfl]
      unfold Client.finish at hfin
      rw [if_pos (by norm_num)] at hfin
      simp only at hfin
      obtain ⟨key, hk, hfin⟩ := R.bind_eq_ok.1 hfin
      obtain ⟨_, -, hfin⟩ := R.bind_eq_ok.1 hfin
      obtain ⟨_, -, hfin⟩ := R.bind_eq_ok.1 hfin
      obtain rfl := Except.ok.inj hfin
      rcases hor with hfine | ⟨hd, hf⟩
      · obtain ⟨w, i1, i2⟩ := d0 (hfine c0 (by simp [Arr3.toList]) n0)
        obtain rfl : key = w := Except.ok.inj (hk.symm.trans i1)
        exact i2
      · exact d0' hd hf key hk

/-! ## All rounds -/

/-- the keys after the rounds `n` to 1, given the key before them -/
def Steps (W : World) (s : Server) (x : Msg) (d : ℕ → RoundDraws) : ℕ → ℤ → ℤ → Prop
  | 0, key, key' => key = key'
  | n + 1, key, key' => ∃ k, RoundKey W s x (d (n + 1)).enc n key k ∧ Steps W s x d n k key'

theorem roundKey_ots {W : World} {s : Server} {x : Msg} {k : RoundCoins} {n : ℕ} {key key' : ℤ} (ots : Sndr) :
    RoundKey W { s with ots := ots } x k n key key' ↔ RoundKey W s x k n key key' := Iff.rfl

theorem steps_ots {W : World} {s : Server} {x : Msg} {d : ℕ → RoundDraws} (ots : Sndr) (n : ℕ) {key key' : ℤ} :
    Steps W { s with ots := ots } x d n key key' ↔ Steps W s x d n key key' := by
  induction n generalizing key with
  | zero => exact Iff.rfl
  | succ n ih =>
    constructor
    · rintro ⟨k, h1, h2⟩
      exact ⟨k, h1, ih.1 h2⟩
    · rintro ⟨k, h1, h2⟩
      exact ⟨k, h1, ih.2 h2⟩

theorem steps_iff {W : World} {s : Server} {x : Msg} {d : ℕ → RoundDraws} (n : ℕ) {key key' : ℤ} :
    Steps W s x d n key key' ↔ ∃ κ : ℕ → ℤ, κ n = key ∧ κ 0 = key' ∧
      ∀ j < n, RoundKey W s x (d (j + 1)).enc j (κ (j + 1)) (κ j) := by
  induction n generalizing key with
  | zero =>
    constructor
    · rintro rfl
      exact ⟨fun _ => key, rfl, rfl, by simp⟩
    · rintro ⟨κ, h1, h2, -⟩
      exact h1.symm.trans h2
  | succ n ih =>
    constructor
    · rintro ⟨k, h1, h2⟩
      obtain ⟨κ, h3, h4, h5⟩ := ih.1 h2
      refine ⟨Function.update κ (n + 1) key, by simp, by simp [h4], ?_⟩
      intro j hj
      rcases Nat.lt_or_ge j n with hj' | hj'
      · rw [Function.update_of_ne (by omega), Function.update_of_ne (by omega)]
        exact h5 j hj'
      · obtain rfl : j = n := by omega
        rw [Function.update_self, Function.update_of_ne (by omega), h3]
        exact h1
    · rintro ⟨κ, h1, h2, h3⟩
      exact ⟨κ n, by rw [← h1]; exact h3 n (by omega), ih.2 ⟨κ, rfl, h2, fun j hj => h3 j (by omega)⟩⟩

theorem walk_iff {W : World} {s : Server} {x : Msg} {d : ℕ → RoundDraws} {key key' : ℤ} :
    Steps W s x d 16 key key' ↔ ∃ κ, Walk W s x d κ ∧ κ 0 = key' := by
  rw [steps_iff]
  constructor
  · rintro ⟨κ, -, h2, h3⟩
    refine ⟨κ, ⟨?_, fun j hj => ?_⟩, h2⟩
    · have := h3 15 (by norm_num)
      rwa [RoundKey, if_pos rfl] at this
    · have := h3 j (by omega)
      rwa [RoundKey, if_neg (by omega)] at this
  · rintro ⟨κ, ⟨h1, h2⟩, h3⟩
    refine ⟨Function.update κ 16 key, by simp, by simp [h3], ?_⟩
    intro j hj
    by_cases h15 : j = 15
    · subst h15
      rw [RoundKey, if_pos rfl, Function.update_of_ne (by omega)]
      exact h1
    · rw [RoundKey, if_neg h15, Function.update_of_ne (by omega), Function.update_of_ne (by omega)]
      exact h2 j (by omega)

/-- the keys of rounds that return -/
theorem rounds_sound {W : World} {A B Q : Grp CC} {o : ℕ → F} {x : Msg} (d : ℕ → RoundDraws) (n : ℕ) (hn : n ≤ 16)
    {s s' : Server} (hp : PreparedPts W s A B Q o) {c c' : Client} (hR : Ready W.env ⟨c.otr, s.ots⟩) (hx : c.x = some x)
    {Rn : Grp CC} (hr : Rep W.env c.result Rn) (hf : FinePoints W d x n s c)
    (hor : FineRounds W d x n s c ∨ (W.env.ndebug = false ∧ FiniteCrs c.otr.dme.crs))
    (h : runRounds W d n s c = .ok (s', c')) : Steps W s x d n c.key c'.key := by
  induction n generalizing s c Rn with
  | zero =>
    obtain ⟨rfl, rfl⟩ := Prod.mk.inj (Except.ok.inj h)
    rfl
  | succ n ih =>
    rw [runRounds] at h
    obtain ⟨⟨pk, c1⟩, h1, h⟩ := R.bind_eq_ok.1 h
    obtain ⟨⟨m, s1⟩, h2, h⟩ := R.bind_eq_ok.1 h
    obtain ⟨c2, h3, h⟩ := R.bind_eq_ok.1 h
    obtain ⟨f1, f2⟩ := hf pk c1 m s1 h1 h2 c2 h3
    obtain ⟨pk', c1', m', s1', a1, a2, -, a4⟩ := round_walk hp hR hx hr (show n < 16 by omega) (d (n + 1)).sk (d (n + 1)).enc
    obtain ⟨rfl, rfl⟩ := Prod.mk.inj (Except.ok.inj (h1.symm.trans a1))
    obtain ⟨rfl, rfl⟩ := Prod.mk.inj (Except.ok.inj (h2.symm.trans a2))
    obtain ⟨⟨ots, rfl, g1⟩, g2, g3, g4, g5⟩ := round_any hp hR hx hr (by omega) h1 h2 f1 h3
    have hk := a4 (hor.imp_left fun h => (h pk c1 m _ h1 h2).1) c2 h3
    have := ih (by omega) (hp.ots ots) (Ready.of_dme hR g2 g1) g3 g5 f2
      (hor.imp (fun h => (h pk c1 m _ h1 h2).2 c2 h3) fun h => ⟨h.1, by rw [g2]; exact h.2⟩) h
    exact ⟨_, hk, (steps_ots ots n).1 this⟩

/-- rounds with draws that are not degenerate return if the keys can be followed -/
theorem rounds_complete {W : World} {A B Q : Grp CC} {o : ℕ → F} {x : Msg} (d : ℕ → RoundDraws) (n : ℕ) (hn : n ≤ 16)
    {s : Server} (hp : PreparedPts W s A B Q o) {c : Client} (hR : Ready W.env ⟨c.otr, s.ots⟩) (hx : c.x = some x)
    {Rn : Grp CC} (hr : Rep W.env c.result Rn) (hf : FineRounds W d x n s c) {key : ℤ} (h : Steps W s x d n c.key key) :
    Ends (runRounds W d n s c) fun r => r.2.key = key := by
  induction n generalizing s c Rn with
  | zero => exact ⟨_, rfl, h⟩
  | succ n ih =>
    obtain ⟨k, h1, h2⟩ := h
    obtain ⟨pk, c1, m, s1, a1, a2, a3, -⟩ := round_walk hp hR hx hr (show n < 16 by omega) (d (n + 1)).sk (d (n + 1)).enc
    have hf' := hf pk c1 m s1 a1 a2
    obtain ⟨c2, b1, rfl⟩ := a3 hf'.1 k h1
    obtain ⟨f1, -⟩ := finePoints_of_fine hf pk c1 m s1 a1 a2 c2 b1
    obtain ⟨⟨ots, rfl, g1⟩, g2, g3, g4, g5⟩ := round_any hp hR hx hr (by omega) a1 a2 f1 b1
    obtain ⟨r, r1, r2⟩ := ih (by omega) (hp.ots ots) (Ready.of_dme hR g2 g1) g3 g5 (hf'.2 c2 b1) ((steps_ots ots n).2 h2)
    exact ⟨r, by simp only [runRounds, a1, a2, b1, R.ok_bind]; exact r1, r2⟩

/-! ## The mask -/

theorem searchMask_of_firstOpened {W : World} {key e : ℤ} (l : List ℤ) (h : FirstOpened W key l e) :
    searchMask W key l = .ok (some e) := by
  induction l with
  | nil =>
    obtain ⟨-, l1, v, l2, h1, -⟩ := h
    simp at h1
  | cons v l ih =>
    rw [searchMask]
    rcases firstOpened_cons h with a | ⟨a, b⟩
    · rw [a, R.ok_bind, if_pos h.1]
    · rw [a, R.ok_bind, if_neg (by simp)]
      exact ih b

/-- unmasking succeeds exactly if the key opens a mask and the draw is not 0 modulo the order -/
theorem unmask_iff {W : World} {c : Client} (hl : LiveGen W.env c.curve) (hr : Valid W.env CC c.result) (m : Arr3 ℤ)
    (coin : ℤ) (k : ℤ) : (Ends (c.unmaskResult W m coin) fun c' => c'.key = k) ↔
      c.key = k ∧ (∃ e, FirstOpened W k m.toList e) ∧ ¬ CC.order ∣ coin := by
  obtain ⟨T, t1, t2⟩ := randomPoint_rep (C := CC) hl coin
  have hT : Live W.env T.curve ↔ ¬ CC.order ∣ coin := by
    have h0 : T.inf = true ↔ CC.order ∣ coin := by
      rw [rep_inf t2, smulG_eq_zero_iff]
    rw [← h0]
    have hN : NoPtr T := by
      unfold Curve.getRandomPoint at t1
      obtain ⟨g, g1, t1⟩ := R.bind_eq_ok.1 t1
      obtain ⟨g', g1', g2⟩ := getDefaultGen_rep (C := CC) hl
      obtain rfl := Except.ok.inj (g1.symm.trans g1')
      exact (NoPtr.of_finite (rep_inf_false g2 G_ne_zero)).smul t1
    constructor
    · intro hlive hi
      rw [hN hi] at hlive
      exact absurd hlive (by simp [Live])
    · intro hi
      have : IsFinite W.env CC T := t2.finite (fun h => hi ((rep_inf t2).2 h))
      exact this.live
  constructor
  · rintro ⟨c', h, rfl⟩
    unfold Client.unmaskResult at h
    obtain ⟨f, h1, h⟩ := R.bind_eq_ok.1 h
    obtain ⟨-, -, h⟩ := R.bind_eq_ok.1 h
    cases f with
    | none => cases h
    | some e =>
      simp only at h
      obtain ⟨T', h2, h⟩ := R.bind_eq_ok.1 h
      obtain rfl := Except.ok.inj (t1.symm.trans h2)
      obtain ⟨P, h3, h⟩ := R.bind_eq_ok.1 h
      obtain ⟨r, h4, h⟩ := R.bind_eq_ok.1 h
      obtain rfl := Except.ok.inj h
      refine ⟨rfl, ⟨e, searchMask_inv _ h1⟩, hT.1 ?_⟩
      unfold Pt.setEncodedX Curve.evaluateP Curve.evaluatePneg Curve.evaluatePy2 at h3
      split_ifs at h3
      all_goals
        obtain ⟨_, h3, -⟩ := R.bind_eq_ok.1 h3
        obtain ⟨o, h3, -⟩ := R.bind_eq_ok.1 h3
        by_contra hn
        obtain ⟨_, h3'⟩ := deref_not_live hn
        rw [h3'] at h3
        cases h3
  · rintro ⟨rfl, ⟨e, he⟩, hc⟩
    obtain ⟨P, p1, p2⟩ := C18_decode_total W.env (C := CC) (.inr rfl) (hT.2 hc) e
    obtain ⟨A, hA⟩ := valid_iff.1 hr
    obtain ⟨B, hB⟩ := valid_iff.1 p2
    obtain ⟨r, r1, r2⟩ := add_rep hA hB
    refine ⟨{ c with result := r }, ?_, rfl⟩
    unfold Client.unmaskResult
    simp only [searchMask_of_firstOpened _ he, R.ok_bind, Option.isSome_some, t1, p1, r1,
      cassert_true (env := W.env) (r := .ok true) rfl]

/-! ## C100 -/

/-- C100: whatever the keys, the cipher, the platform and the build, for a server that has prepared its tables and draws
that put no infinity into a ciphertext on the client's branch, an evaluation completes with the key `k` **exactly** if a
walk through the tables ends at `k`, the masks can be computed, `k` opens one of them and the draw of the client is not 0
modulo the order. -/
theorem C100_completes {W : World} {s s1 : Server} {c : Client} (hP : Parties W.env s c) {x : Msg} {d : Draws}
    (hb : d.prep.bits.length = 16) (h1 : s.prepare W d.prep = .ok s1) (hf : FineRounds W d.rounds x 16 s1 (c.setMessage x))
    (k : ℤ) : (Ends (evaluate W s c x d) fun r => r.2.key = k) ↔
      (∃ κ, Walk W s1 x d.rounds κ ∧ κ 0 = k) ∧
      (∃ m e, s1.sendEncryptedMasks W d.mask = .ok m ∧ FirstOpened W k m.toList e) ∧ ¬ CC.order ∣ d.un := by
  obtain ⟨A, hA⟩ := valid_iff.1 hP.ga
  obtain ⟨Rn, hR⟩ := valid_iff.1 hP.result
  obtain ⟨-, -, -, e4⟩ := hP.noKeys
  obtain ⟨p1, p2, p3, p4, p5⟩ := prepare_pts hP.server hA e4 hb h1
  have hcR : Ready W.env ⟨(c.setMessage x).otr, s1.ots⟩ := Ready.of_dme hP.ready rfl (by rw [p2])
  have hev : evaluate W s c x d = (do
      let (s2, c2) ← runRounds W d.rounds 16 s1 (c.setMessage x)
      let m ← s2.sendEncryptedMasks W d.mask
      let c ← c2.unmaskResult W m d.un
      .ok (s2, c)) := by
    simp only [evaluate, h1, R.ok_bind]
  rw [hev]
  constructor
  · rintro ⟨⟨s', c'⟩, h, rfl⟩
    obtain ⟨⟨s2, c2⟩, h2, h⟩ := R.bind_eq_ok.1 h
    obtain ⟨m, h3, h⟩ := R.bind_eq_ok.1 h
    obtain ⟨c3, h4, h⟩ := R.bind_eq_ok.1 h
    obtain ⟨rfl, rfl⟩ := Prod.mk.inj (Except.ok.inj h)
    have hst := rounds_sound (x := x) d.rounds 16 le_rfl p1 hcR rfl (c := c.setMessage x) (Rn := Rn) hR
      (finePoints_of_fine hf) (.inl hf) h2
    obtain ⟨⟨ots, rfl⟩, q2, q3⟩ := rounds_any (x := x) d.rounds 16 le_rfl p1 hcR rfl (Rn := Rn) hR
      (finePoints_of_fine hf) h2
    obtain ⟨u1, ⟨e, u2⟩, u3⟩ := (unmask_iff (by rw [q2]; exact hP.client) (valid_iff.2 ⟨_, q3⟩) m d.un c3.key).1 ⟨c3, h4, rfl⟩
    exact ⟨walk_iff.1 (by rw [← u1]; exact hst), ⟨m, e, h3, u2⟩, u3⟩
  · rintro ⟨hw, ⟨m, e, h3, h4⟩, h5⟩
    obtain ⟨⟨s2, c2⟩, h2, rfl⟩ := rounds_complete (x := x) d.rounds 16 le_rfl p1 hcR rfl (c := c.setMessage x) (Rn := Rn) hR
      hf (walk_iff.2 hw)
    obtain ⟨⟨ots, rfl⟩, q2, q3⟩ := rounds_any (x := x) d.rounds 16 le_rfl p1 hcR rfl (Rn := Rn) hR
      (finePoints_of_fine hf) h2
    obtain ⟨c3, u1, u2⟩ := (unmask_iff (by rw [q2]; exact hP.client) (valid_iff.2 ⟨_, q3⟩) m d.un c2.key).2 ⟨rfl, ⟨e, h4⟩, h5⟩
    have h3' : Server.sendEncryptedMasks W { s1 with ots := ots } d.mask = .ok m := h3
    exact ⟨({ s1 with ots := ots }, c3), by simp only [h2, h3', u1, R.ok_bind], u2⟩

theorem keyFound_cons {W : World} {key a k : ℤ} {l : List ℤ} (h : KeyFound W key (a :: l) k) :
    (∃ w, Received a w ∧ W.unseal key w = .ok k) ∨ ((∃ w, Received a w ∧ W.unseal key w = .ok 0) ∧ KeyFound W key l k) := by
  obtain ⟨h0, l1, w, l2, h1, h2, h3⟩ := h
  cases l1 with
  | nil =>
    obtain ⟨rfl, -⟩ := List.cons.inj h1
    exact .inl h2
  | cons u l1 =>
    obtain ⟨rfl, h4⟩ := List.cons.inj h1
    exact .inr ⟨h3 a (by simp), h0, l1, w, l2, h4, h2, fun x hx => h3 x (by simp [hx])⟩

theorem keyFound_unique {W : World} {key k k' : ℤ} (l : List ℤ) (h : KeyFound W key l k) (h' : KeyFound W key l k') :
    k = k' := by
  induction l with
  | nil =>
    obtain ⟨-, l1, v, l2, h1, -⟩ := h
    simp at h1
  | cons v l ih =>
    rcases keyFound_cons h with ⟨w, a, a1⟩ | ⟨⟨w, a, a1⟩, b⟩ <;>
      rcases keyFound_cons h' with ⟨w', a', a1'⟩ | ⟨⟨w', a', a1'⟩, b'⟩ <;> obtain rfl := received_unique a a'
    · exact Except.ok.inj (a1.symm.trans a1')
    · exact absurd (Except.ok.inj (a1.symm.trans a1')) h.1
    · exact absurd (Except.ok.inj (a1'.symm.trans a1)) h'.1
    · exact ih b b'

/-- the tables, the input and the shuffles determine the keys -/
theorem walk_unique {W : World} {s : Server} {x : Msg} {d d' : ℕ → RoundDraws} {κ κ' : ℕ → ℤ}
    (hd : ∀ n, (d n).enc.sh1 = (d' n).enc.sh1 ∧ (d n).enc.sh2 = (d' n).enc.sh2) (h : Walk W s x d κ) (h' : Walk W s x d' κ') :
    ∀ j ≤ 15, κ j = κ' j := by
  have key : ∀ i ≤ 15, κ (15 - i) = κ' (15 - i) := by
    intro i
    induction i with
    | zero => exact fun _ => received_unique h.top h'.top
    | succ i ih =>
      intro hi
      have ih := ih (by omega)
      obtain ⟨e, e1, e2⟩ := h.step (15 - (i + 1)) (by omega)
      obtain ⟨e', e1', e2'⟩ := h'.step (15 - (i + 1)) (by omega)
      obtain rfl := Option.some.inj (e1.symm.trans e1')
      have hj : 15 - (i + 1) + 1 = 15 - i := by omega
      rw [hj, ih] at e2
      rw [hj, ← (hd _).1, ← (hd _).2] at e2'
      exact keyFound_unique _ e2 e2'
  intro j hj
  have := key (15 - j) (by omega)
  rwa [show 15 - (15 - j) = j by omega] at this

theorem walk_of_evaluate {W : World} (hd : W.env.ndebug = false) {s s' : Server} {c c' : Client} (hP : Parties W.env s c)
    (hga : s.ga.inf = false) (hcrs : FiniteCrs c.otr.dme.crs) {x : Msg} {d : Draws} (hb : d.prep.bits.length = 16)
    (h : evaluate W s c x d = .ok (s', c')) :
    (∃ s1 ots, s.prepare W d.prep = .ok s1 ∧ s' = { s1 with ots := ots }) ∧
      (∃ κ, Walk W s' x d.rounds κ ∧ κ 0 = c'.key) ∧ ¬ CC.order ∣ d.un := by
  obtain ⟨A, hA⟩ := valid_iff.1 hP.ga
  obtain ⟨Rn, hR⟩ := valid_iff.1 hP.result
  obtain ⟨-, -, -, e4⟩ := hP.noKeys
  unfold evaluate at h
  simp only at h
  obtain ⟨s1, h1, h⟩ := R.bind_eq_ok.1 h
  obtain ⟨⟨s2, c2⟩, h2, h⟩ := R.bind_eq_ok.1 h
  obtain ⟨m, h3, h⟩ := R.bind_eq_ok.1 h
  obtain ⟨c3, h4, h⟩ := R.bind_eq_ok.1 h
  obtain ⟨rfl, rfl⟩ := Prod.mk.inj (Except.ok.inj h)
  obtain ⟨p1, p2, p3, p4, p5⟩ := prepare_pts hP.server hA e4 hb h1
  have hcR : Ready W.env ⟨(c.setMessage x).otr, s1.ots⟩ := Ready.of_dme hP.ready rfl (by rw [p2])
  have hfp : FinePoints W d.rounds x 16 s1 (c.setMessage x) := by
    obtain ⟨n1, n2⟩ := noPtrs_prepare hP.server hga h1
    refine finePoints_debug hd d.rounds 16 le_rfl n1 hcrs ?_ rfl
    rw [n2]
    exact finiteCrs_congr hP.ready.same hcrs
  have hst := rounds_sound (x := x) d.rounds 16 le_rfl p1 hcR rfl (c := c.setMessage x) (Rn := Rn) hR hfp
    (.inr ⟨hd, hcrs⟩) h2
  obtain ⟨⟨ots, rfl⟩, q2, q3⟩ := rounds_any (x := x) d.rounds 16 le_rfl p1 hcR rfl (Rn := Rn) hR hfp h2
  obtain ⟨u1, ⟨e, u2⟩, u3⟩ := (unmask_iff (by rw [q2]; exact hP.client) (valid_iff.2 ⟨_, q3⟩) m d.un c3.key).1 ⟨c3, h4, rfl⟩
  exact ⟨⟨s1, ots, h1, rfl⟩, walk_iff.1 ((steps_ots ots 16).2 (by rw [← u1]; exact hst)), u3⟩

/-- C100 in debug builds: if `ga` and the CRS are finite, the last key of **every** completed evaluation is the end of a
walk through the prepared tables, whatever the draws. -/
theorem C100_debug {W : World} (hd : W.env.ndebug = false) {s s' : Server} {c c' : Client} (hP : Parties W.env s c)
    (hga : s.ga.inf = false) (hcrs : FiniteCrs c.otr.dme.crs) {x : Msg} {d : Draws} (hb : d.prep.bits.length = 16)
    (h : evaluate W s c x d = .ok (s', c')) :
    (∃ κ, Walk W s' x d.rounds κ ∧ κ 0 = c'.key) ∧ ¬ CC.order ∣ d.un :=
  (walk_of_evaluate hd hP hga hcrs hb h).2

/-- C100: the secret keys and scalars of the oblivious transfers, the mask draws and the client's own draw have no
influence on the key: two completed evaluations of an input with the same preparation and the same shuffles end with the
same key. -/
theorem C100_deterministic {W : World} (hd : W.env.ndebug = false) {s s1 s2 : Server} {c c' c1 c2 : Client}
    (hP : Parties W.env s c) (hP' : Parties W.env s c') (hga : s.ga.inf = false) (hcrs : FiniteCrs c.otr.dme.crs)
    (hcrs' : FiniteCrs c'.otr.dme.crs) {x : Msg} {d d' : Draws} (hb : d.prep.bits.length = 16) (hp : d'.prep = d.prep)
    (hsh : ∀ n, (d.rounds n).enc.sh1 = (d'.rounds n).enc.sh1 ∧ (d.rounds n).enc.sh2 = (d'.rounds n).enc.sh2)
    (h1 : evaluate W s c x d = .ok (s1, c1)) (h2 : evaluate W s c' x d' = .ok (s2, c2)) : c1.key = c2.key := by
  obtain ⟨⟨t, o, a1, rfl⟩, ⟨κ, a2, a3⟩, -⟩ := walk_of_evaluate hd hP hga hcrs hb h1
  obtain ⟨⟨t', o', b1, rfl⟩, ⟨κ', b2, b3⟩, -⟩ := walk_of_evaluate hd hP' hga hcrs' (by rw [hp]; exact hb) h2
  rw [hp, a1] at b1
  obtain rfl := Except.ok.inj b1
  have b2 : Walk W { t with ots := o } x d'.rounds κ' := ⟨b2.top, b2.step⟩
  rw [← a3, ← b3]
  exact walk_unique hsh a2 b2 0 (by norm_num)

end Opprf
end Verif
