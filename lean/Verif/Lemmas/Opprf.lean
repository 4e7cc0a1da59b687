import Verif.Spec.Opprf
import Verif.Lemmas.Ot
import Verif.Props.AesMore
import Verif.Props.Ot

/-!
# Lemmas on the OPPRF
-/

namespace Verif
namespace Opprf

open EC Dme Ot Aes BytesSpec

theorem at'_ok {α : Type} {v : List α} {i : ℕ} {x : α} : at' v i = .ok x ↔ v[i]? = some x := by
  unfold at'
  cases h : v[i]? <;> simp

theorem put_ok {α : Type} {v w : List α} {i : ℕ} {x : α} : put v i x = .ok w ↔ i < v.length ∧ w = v.set i x := by
  unfold put
  split_ifs with h
  · simp [h, eq_comm]
  · simp [h]

/-! ## Key setup -/

theorem pushKeys_ok {env : Env} (ks : List BitCoins) {s : Server} (h : Live env s.curve) :
    pushKeys env s ks = .ok { s with
      k_lt := s.k_lt ++ ks.map BitCoins.lt, k_eq := s.k_eq ++ ks.map BitCoins.eq, k_gt := s.k_gt ++ ks.map BitCoins.gt,
      ok := s.ok ++ ks.map fun k => Fld.ofZ (k.ok : F) } := by
  induction ks generalizing s with
  | nil => simp [pushKeys]
  | cons k ks ih =>
    rw [pushKeys, getRandomScalar_ok h, R.ok_bind, ih]
    · simp
    · exact h

/-- what the first loop does, without hypotheses -/
theorem pushKeys_inv {env : Env} (ks : List BitCoins) {s s' : Server} (h : pushKeys env s ks = .ok s') :
    ∃ os, os.length = ks.length ∧ s' = { s with
      k_lt := s.k_lt ++ ks.map BitCoins.lt, k_eq := s.k_eq ++ ks.map BitCoins.eq, k_gt := s.k_gt ++ ks.map BitCoins.gt,
      ok := s.ok ++ os } := by
  induction ks generalizing s with
  | nil =>
    rw [← Except.ok.inj h]
    exact ⟨[], rfl, by simp⟩
  | cons k ks ih =>
    rw [pushKeys] at h
    obtain ⟨o, -, h⟩ := R.bind_eq_ok.1 h
    obtain ⟨os, h1, h2⟩ := ih h
    exact ⟨o :: os, by simp [h1], by rw [h2]; simp⟩

/-- what the assignments to `Sl0`, `Sl1` do, without hypotheses -/
theorem prepareTop_inv {env : Env} {s s' : Server} (h : prepareTop env s = .ok s') :
    (∃ a b, s' = { s with Sl0 := a, Sl1 := b }) ∧ ∀ b : Bool,
      (s'.keys (compare b (s.theta.toNat.testBit 15)))[15]? = some (if b then s'.Sl1 else s'.Sl0).k := by
  unfold prepareTop at h
  cases hb : s.theta.toNat.testBit 15
  · simp only [hb, Bool.false_eq_true, if_false] at h
    obtain ⟨k0, e1, h⟩ := R.bind_eq_ok.1 h
    obtain ⟨o, -, h⟩ := R.bind_eq_ok.1 h
    obtain ⟨p0, -, h⟩ := R.bind_eq_ok.1 h
    obtain ⟨k1, e2, h⟩ := R.bind_eq_ok.1 h
    obtain ⟨g, -, h⟩ := R.bind_eq_ok.1 h
    obtain ⟨ro, -, h⟩ := R.bind_eq_ok.1 h
    obtain ⟨p1, -, h⟩ := R.bind_eq_ok.1 h
    obtain rfl := (Except.ok.inj h).symm
    rw [at'_ok] at e1 e2
    refine ⟨⟨_, _, rfl⟩, ?_⟩
    rintro (_ | _)
    exacts [e1, e2]
  · simp only [hb, if_true] at h
    obtain ⟨k0, e1, h⟩ := R.bind_eq_ok.1 h
    obtain ⟨o, -, h⟩ := R.bind_eq_ok.1 h
    obtain ⟨p0, -, h⟩ := R.bind_eq_ok.1 h
    obtain ⟨k1, e2, h⟩ := R.bind_eq_ok.1 h
    obtain ⟨g, -, h⟩ := R.bind_eq_ok.1 h
    obtain ⟨ro, -, h⟩ := R.bind_eq_ok.1 h
    obtain ⟨p1, -, h⟩ := R.bind_eq_ok.1 h
    obtain rfl := (Except.ok.inj h).symm
    rw [at'_ok] at e1 e2
    refine ⟨⟨_, _, rfl⟩, ?_⟩
    rintro (_ | _)
    exacts [e1, e2]

theorem entries_congr (W : World) (s : Server) (a b : List InputI) (i : ℕ) :
    entries W { s with Si0 := a, Si1 := b } i = entries W s i := rfl

theorem tableLoop_inv {W : World} (n : ℕ) {s s' : Server} (h : tableLoop W n s = .ok s') :
    (∃ a b, s' = { s with Si0 := a, Si1 := b } ∧ a.length = s.Si0.length ∧ b.length = s.Si1.length) ∧
    (∀ i < n, ∃ x0 x1, entries W s i = .ok (x0, x1) ∧ s'.Si0[i + 1]? = some x0 ∧ s'.Si1[i + 1]? = some x1) ∧
    (∀ i, n < i → s'.Si0[i]? = s.Si0[i]? ∧ s'.Si1[i]? = s.Si1[i]?) := by
  induction n generalizing s with
  | zero =>
    obtain rfl := Except.ok.inj h
    exact ⟨⟨_, _, rfl, rfl, rfl⟩, fun i hi => absurd hi (by omega), fun _ _ => ⟨rfl, rfl⟩⟩
  | succ n ih =>
    rw [tableLoop] at h
    obtain ⟨⟨x0, x1⟩, he, h⟩ := R.bind_eq_ok.1 h
    obtain ⟨a, ha, h⟩ := R.bind_eq_ok.1 h
    obtain ⟨b, hb, h⟩ := R.bind_eq_ok.1 h
    obtain ⟨ha1, rfl⟩ := put_ok.1 ha
    obtain ⟨hb1, rfl⟩ := put_ok.1 hb
    obtain ⟨⟨a', b', h1, h2, h3⟩, h4, h5⟩ := ih h
    refine ⟨⟨a', b', h1, by simpa using h2, by simpa using h3⟩, ?_, ?_⟩
    · intro i hi
      rcases Nat.lt_succ_iff_lt_or_eq.1 hi with hi | rfl
      · exact h4 i hi
      · refine ⟨x0, x1, he, ?_, ?_⟩
        · rw [(h5 _ (by omega)).1]; simp [ha1]
        · rw [(h5 _ (by omega)).2]; simp [hb1]
    · intro i hi
      rw [(h5 i (by omega)).1, (h5 i (by omega)).2]
      simp only
      rw [List.getElem?_set_ne (by omega), List.getElem?_set_ne (by omega)]
      exact ⟨rfl, rfl⟩

theorem tableLoop_ok {W : World} (n : ℕ) {s : Server} (h0 : n < s.Si0.length) (h1 : n < s.Si1.length)
    (he : ∀ i < n, ∃ e, entries W s i = .ok e) : ∃ s', tableLoop W n s = .ok s' := by
  induction n generalizing s with
  | zero => exact ⟨s, rfl⟩
  | succ n ih =>
    obtain ⟨⟨x0, x1⟩, hx⟩ := he n (by omega)
    obtain ⟨s', hs⟩ := ih (s := { s with Si0 := s.Si0.set (n + 1) x0, Si1 := s.Si1.set (n + 1) x1 })
      (by simp; omega) (by simp; omega) (fun i hi => he i (by omega))
    refine ⟨s', ?_⟩
    rw [tableLoop, hx, R.ok_bind]
    simp only [put_ok.2 ⟨h0, rfl⟩, put_ok.2 ⟨h1, rfl⟩, R.ok_bind, hs]

/-- which entry is sealed under which key -/
theorem entries_inv {W : World} {s : Server} {i : ℕ} {x0 x1 : InputI} (h : entries W s i = .ok (x0, x1)) :
    ∃ k k' : Ordering → ℤ, (∀ o, (s.keys o)[i + 1]? = some (k o)) ∧ (∀ o, (s.keys o)[i]? = some (k' o)) ∧
      ∀ (b : Bool) (o : Ordering), W.seal (k o) (k' (o.then (compare b (s.theta.toNat.testBit i)))) =
        .ok ((if b then x1 else x0).k o) := by
  unfold entries at h
  obtain ⟨lt, h1, h⟩ := R.bind_eq_ok.1 h
  obtain ⟨eq, h2, h⟩ := R.bind_eq_ok.1 h
  obtain ⟨gt, h3, h⟩ := R.bind_eq_ok.1 h
  obtain ⟨lt', h4, h⟩ := R.bind_eq_ok.1 h
  obtain ⟨eq', h5, h⟩ := R.bind_eq_ok.1 h
  obtain ⟨gt', h6, h⟩ := R.bind_eq_ok.1 h
  obtain ⟨o, h7, h⟩ := R.bind_eq_ok.1 h
  rw [at'_ok] at h1 h2 h3 h4 h5 h6
  refine ⟨fun o => match o with | .lt => lt | .eq => eq | .gt => gt,
    fun o => match o with | .lt => lt' | .eq => eq' | .gt => gt', ?_, ?_, ?_⟩
  · rintro (_ | _ | _)
    exacts [h1, h2, h3]
  · rintro (_ | _ | _)
    exacts [h4, h5, h6]
  · cases ht : s.theta.toNat.testBit i
    · rw [ht, if_pos rfl] at h
      obtain ⟨a, e1, h⟩ := R.bind_eq_ok.1 h
      obtain ⟨b, e2, h⟩ := R.bind_eq_ok.1 h
      obtain ⟨c, e3, h⟩ := R.bind_eq_ok.1 h
      obtain ⟨p0, -, h⟩ := R.bind_eq_ok.1 h
      obtain ⟨a', e4, h⟩ := R.bind_eq_ok.1 h
      obtain ⟨b', e5, h⟩ := R.bind_eq_ok.1 h
      obtain ⟨c', e6, h⟩ := R.bind_eq_ok.1 h
      obtain ⟨g, -, h⟩ := R.bind_eq_ok.1 h
      obtain ⟨ro, -, h⟩ := R.bind_eq_ok.1 h
      obtain ⟨p1, -, h⟩ := R.bind_eq_ok.1 h
      obtain ⟨rfl, rfl⟩ := Prod.mk.inj (Except.ok.inj h)
      rintro (_ | _) (_ | _ | _)
      exacts [e1, e2, e3, e4, e5, e6]
    · rw [ht, if_neg (by simp)] at h
      obtain ⟨a, e1, h⟩ := R.bind_eq_ok.1 h
      obtain ⟨b, e2, h⟩ := R.bind_eq_ok.1 h
      obtain ⟨c, e3, h⟩ := R.bind_eq_ok.1 h
      obtain ⟨p0, -, h⟩ := R.bind_eq_ok.1 h
      obtain ⟨a', e4, h⟩ := R.bind_eq_ok.1 h
      obtain ⟨b', e5, h⟩ := R.bind_eq_ok.1 h
      obtain ⟨c', e6, h⟩ := R.bind_eq_ok.1 h
      obtain ⟨g, -, h⟩ := R.bind_eq_ok.1 h
      obtain ⟨ro, -, h⟩ := R.bind_eq_ok.1 h
      obtain ⟨p1, -, h⟩ := R.bind_eq_ok.1 h
      obtain ⟨rfl, rfl⟩ := Prod.mk.inj (Except.ok.inj h)
      rintro (_ | _) (_ | _ | _)
      exacts [e1, e2, e3, e4, e5, e6]

/-- comparing one bit more -/
theorem sym_step (x theta : Msg) (j : ℕ) :
    sym x theta j = (sym x theta (j + 1)).then (compare (x.toNat.testBit j) (theta.toNat.testBit j)) := by
  unfold sym
  have h1 : x.toNat / 2 ^ j = 2 * (x.toNat / 2 ^ (j + 1)) + (x.toNat.testBit j).toNat := by
    rw [Nat.toNat_testBit, pow_succ, ← Nat.div_div_eq_div_mul]; omega
  have h2 : theta.toNat / 2 ^ j = 2 * (theta.toNat / 2 ^ (j + 1)) + (theta.toNat.testBit j).toNat := by
    rw [Nat.toNat_testBit, pow_succ, ← Nat.div_div_eq_div_mul]; omega
  rw [h1, h2]
  generalize x.toNat / 2 ^ (j + 1) = a
  generalize theta.toNat / 2 ^ (j + 1) = b
  rcases lt_trichotomy a b with h | h | h
  · rw [Nat.compare_eq_lt.2 h, Nat.compare_eq_lt.2 (by cases x.toNat.testBit j <;> cases theta.toNat.testBit j <;> simp <;> omega)]; rfl
  · subst h
    rw [Nat.compare_eq_eq.2 rfl]
    cases x.toNat.testBit j <;> cases theta.toNat.testBit j
    · simp
    · exact Nat.compare_eq_lt.2 (by simp)
    · exact Nat.compare_eq_gt.2 (by simp)
    · simp
  · rw [Nat.compare_eq_gt.2 h, Nat.compare_eq_gt.2 (by cases x.toNat.testBit j <;> cases theta.toNat.testBit j <;> simp <;> omega)]; rfl

theorem sym_zero (x theta : Msg) : sym x theta 0 = compare x.toNat theta.toNat := by simp [sym]

theorem sym_top (x theta : Msg) : sym x theta 15 = compare (x.toNat.testBit 15) (theta.toNat.testBit 15) := by
  rw [sym_step]
  have : sym x theta 16 = .eq := by
    unfold sym
    rw [Nat.div_eq_of_lt x.isLt, Nat.div_eq_of_lt theta.isLt]
    rfl
  rw [this]; rfl

/-! ## The AES layer -/

theorem byteLen_ge {key : ℤ} (h : 2 ^ 120 ≤ key) : 16 ≤ byteLen key := by
  have : 121 ≤ key.natAbs.size := by
    rw [Nat.succ_le_iff, Nat.lt_size]; omega
  unfold byteLen; omega

theorem byteLen_le {m : ℤ} (n : ℕ) (h0 : 0 ≤ m) (h : m < 256 ^ n) : byteLen m ≤ n := by
  have : m.natAbs.size ≤ 8 * n := by
    rw [Nat.size_le, pow_mul]
    have h1 : ((m.natAbs : ℕ) : ℤ) < ((2 ^ 8) ^ n : ℕ) := by push_cast; rw [abs_of_nonneg h0]; simpa using h
    exact_mod_cast h1
  unfold byteLen; omega

theorem seal_ok {W : World} (hiv : IvReadable W.iv) {key m : ℤ} (hk : 2 ^ 120 ≤ key) (hm : 0 < m) {n : ℕ}
    (hn : m < 256 ^ n) (hn' : n ≤ 124) (hs : byteLen m + 4 ≤ W.pf.usable (byteLen m)) :
    ∃ c, W.seal key m = .ok c ∧ 0 ≤ c ∧ c < 256 ^ (n + 4) := by
  have hb := Utils.exists_bytes m hm.le
  have hl := byteLen_le n hm.le hn
  have hlen : (Utils.getRawMpz m).length = byteLen m := Utils.length_getRawMpz m
  obtain ⟨M, hM, hMb⟩ := append_bytes W.pf m _ hb hm.ne' (by omega) (by rw [hlen]; exact hs)
  have hMl : byteLen M = byteLen m + 4 := by
    rw [Utils.IsBytes.byteLen hMb, List.length_append, hlen]; rfl
  obtain ⟨c, hc, -⟩ := (C60_encrypt_partial W.E W.iv M key (by omega)).2 ⟨byteLen_ge hk, hiv, by omega⟩
  refine ⟨c, by unfold World.seal encryptCRC; rw [hM, R.ok_bind, hc], ?_⟩
  have hed : encrypt W.E W.iv M key = decrypt W.E W.iv M key := rfl
  rw [hed] at hc
  obtain ⟨k, iv, -, -, rfl⟩ := decrypt_raw W.E W.iv M key c (by omega) hc
  rw [Utils.setRawMpz_val]
  refine ⟨by positivity, ?_⟩
  have h1 := Utils.val_lt (mask (W.E k iv) (Utils.getRawMpz M))
  rw [mask_length, Utils.length_getRawMpz, hMl] at h1
  have h2 : 256 ^ (byteLen m + 4) ≤ 256 ^ (n + 4) := Nat.pow_le_pow_right (by norm_num) (by omega)
  exact_mod_cast h1.trans_le h2

/-! ## The prepared server -/

/-- a server after `prepareKeysAndInputs`: `K` its keys, `A`, `B`, `Q` the group elements `ga`, `r`, `kopprf`, `o` the scalars -/
structure Prepared (W : World) (s : Server) (K : Ordering → ℕ → ℤ) (A B Q : Grp CC) (o : ℕ → F) : Prop where
  r : Rep W.env s.r B
  kopprf : Rep W.env s.kopprf Q
  keys : ∀ sy, ∀ j < 16, (s.keys sy)[j]? = some (K sy j)
  ok : ∀ j < 16, s.ok[j]? = some (Fld.ofZ (o j))
  topKey : ∀ b : Bool, (if b then s.Sl1 else s.Sl0).k = K (compare b (s.theta.toNat.testBit 15)) 15
  topPrf : ∀ b : Bool, Rep W.env (if b then s.Sl1 else s.Sl0).prf (((if b then 2 ^ 15 else 0 : ℕ) : F) • A + o 15 • B)
  tab : ∀ i < 15, ∃ e0 e1, s.Si0[i + 1]? = some e0 ∧ s.Si1[i + 1]? = some e1 ∧ ∀ b : Bool,
    (∀ sy : Ordering, W.seal (K sy (i + 1)) (K (sy.then (compare b (s.theta.toNat.testBit i))) i) =
      .ok ((if b then e1 else e0).k sy)) ∧
    Rep W.env (if b then e1 else e0).prf (((if b then 2 ^ i else 0 : ℕ) : F) • A + o i • B)

theorem prf_rep {env : Env} {ga r : Pt} {A B : Grp CC} (hA : Rep env ga A) (hB : Rep env r B) (o : F) (i : ℕ) :
    ∃ p g p', r.smul env CC (Fld.ofZ o) = .ok p ∧ Rep env p (o • B) ∧ ga.smulZ env CC (2 ^ i) = .ok g ∧
      g.add env CC p = .ok p' ∧ Rep env p' (((2 ^ i : ℕ) : F) • A + o • B) := by
  obtain ⟨p, h1, h2⟩ := smulF_rep hB o
  obtain ⟨g, h3, h4⟩ := smulI_rep hA (2 ^ i)
  obtain ⟨p', h5, h6⟩ := add_rep h4 h2
  exact ⟨p, g, p', h1, h2, h3, h5, by push_cast at h6 ⊢; exact h6⟩

theorem entries_ok {W : World} {s : Server} {i : ℕ} {A B : Grp CC} {K : Ordering → ℕ → ℤ} {o : F}
    (hA : Rep W.env s.ga A) (hB : Rep W.env s.r B) (h1 : ∀ sy, (s.keys sy)[i + 1]? = some (K sy (i + 1)))
    (h2 : ∀ sy, (s.keys sy)[i]? = some (K sy i)) (ho : s.ok[i]? = some (Fld.ofZ o))
    (hs : ∀ sy sy', ∃ c, W.seal (K sy (i + 1)) (K sy' i) = .ok c) :
    ∃ e0 e1, entries W s i = .ok (e0, e1) ∧ ∀ b : Bool,
      Rep W.env (if b then e1 else e0).prf (((if b then 2 ^ i else 0 : ℕ) : F) • A + o • B) := by
  obtain ⟨p, g, p', e1, e2, e3, e4, e5⟩ := prf_rep hA hB o i
  have a1 := h1 .lt; have a2 := h1 .eq; have a3 := h1 .gt
  have b1 := h2 .lt; have b2 := h2 .eq; have b3 := h2 .gt
  simp only [Server.keys] at a1 a2 a3 b1 b2 b3
  obtain ⟨c1, d1⟩ := hs .lt .lt
  obtain ⟨c2, d2⟩ := hs .eq .eq
  obtain ⟨c3, d3⟩ := hs .gt .gt
  obtain ⟨c4, d4⟩ := hs .eq .gt
  obtain ⟨c5, d5⟩ := hs .eq .lt
  unfold entries
  simp only [at'_ok.2 a1, at'_ok.2 a2, at'_ok.2 a3, at'_ok.2 b1, at'_ok.2 b2, at'_ok.2 b3, at'_ok.2 ho, R.ok_bind,
    d1, d2, d3, d4, d5, e1, e3, e4]
  split_ifs
  · refine ⟨_, _, rfl, ?_⟩
    rintro (_ | _)
    · simpa [zero_smulG] using e2
    · simpa using e5
  · refine ⟨_, _, rfl, ?_⟩
    rintro (_ | _)
    · simpa [zero_smulG] using e2
    · simpa using e5

/-- the state after the first loop of `prepareKeysAndInputs` -/
def withKeys (s : Server) (Q B : Pt) (Bc : ℕ → BitCoins) : Server :=
  { s with
    kopprf := Q
    r := B
    k_lt := (List.range 16).map (BitCoins.lt ∘ Bc)
    k_eq := (List.range 16).map (BitCoins.eq ∘ Bc)
    k_gt := (List.range 16).map (BitCoins.gt ∘ Bc)
    ok := (List.range 16).map ((fun k => Fld.ofZ (k.ok : F)) ∘ Bc) }

theorem prepare_ok {W : World} {s : Server} (hc : LiveGen W.env s.curve) {A : Grp CC} (hA : Rep W.env s.ga A)
    (e1 : s.k_lt = []) (e2 : s.k_eq = []) (e3 : s.k_gt = []) (e4 : s.ok = []) (l0 : s.Si0.length = 16)
    (l1 : s.Si1.length = 16) (kk kr : ℤ) (Bc : ℕ → BitCoins)
    (hs : ∀ i < 15, ∀ sy sy', ∃ c, W.seal ((Bc (i + 1)).key sy) ((Bc i).key sy') = .ok c) :
    ∃ s', s.prepare W ⟨kk, kr, (List.range 16).map Bc⟩ = .ok s' ∧
      Prepared W s' (fun sy j => (Bc j).key sy) A ((kr : F) • G) ((kk : F) • G) (fun j => ((Bc j).ok : F)) ∧
      s'.ots = s.ots ∧ s'.curve = s.curve ∧ s'.theta = s.theta ∧ s'.ga = s.ga := by
  obtain ⟨Q, q1, q2⟩ := randomPoint_rep (C := CC) hc kk
  obtain ⟨B, b1, b2⟩ := randomPoint_rep (C := CC) hc kr
  obtain ⟨p, g, p', f1, f2, f3, f4, f5⟩ := prf_rep hA b2 ((Bc 15).ok : F) 15
  -- after the keys
  have hpush : pushKeys W.env { s with kopprf := Q, r := B } ((List.range 16).map Bc) = .ok (withKeys s Q B Bc) := by
    rw [pushKeys_ok (env := W.env) ((List.range 16).map Bc) (s := { s with kopprf := Q, r := B }) hc.live]
    simp only [e1, e2, e3, e4, List.nil_append, List.map_map, withKeys]
  have htop : ∃ s2, prepareTop W.env (withKeys s Q B Bc) = .ok s2 ∧
      s2 = { withKeys s Q B Bc with
        Sl0 := ⟨(Bc 15).key (compare false (s.theta.toNat.testBit 15)), p⟩
        Sl1 := ⟨(Bc 15).key (compare true (s.theta.toNat.testBit 15)), p'⟩ } := by
    refine ⟨_, ?_, rfl⟩
    have g1 : at' ((List.range 16).map (BitCoins.lt ∘ Bc)) 15 = .ok (Bc 15).lt := rfl
    have g2 : at' ((List.range 16).map (BitCoins.eq ∘ Bc)) 15 = .ok (Bc 15).eq := rfl
    have g3 : at' ((List.range 16).map (BitCoins.gt ∘ Bc)) 15 = .ok (Bc 15).gt := rfl
    have g4 : at' ((List.range 16).map ((fun k => Fld.ofZ (k.ok : F)) ∘ Bc)) 15 = .ok (Fld.ofZ ((Bc 15).ok : F)) := rfl
    unfold prepareTop withKeys
    simp only [g1, g2, g3, g4]
    cases s.theta.toNat.testBit 15
    · simp only [R.ok_bind, f1, f3, f4, if_false, Bool.false_eq_true]
      rfl
    · simp only [R.ok_bind, f1, f3, f4, if_true]
      rfl
  obtain ⟨s2, t1, t2⟩ := htop
  have hkeys : ∀ sy, ∀ j < 16, (s2.keys sy)[j]? = some ((Bc j).key sy) := by
    subst t2
    rintro (_ | _ | _) j hj <;> simp [Server.keys, BitCoins.key, withKeys, hj]
  have hok : ∀ j < 16, s2.ok[j]? = some (Fld.ofZ ((Bc j).ok : F)) := by
    subst t2
    intro j hj
    simp [withKeys, hj]
  have hent : ∀ i < 15, ∃ e0 e1, entries W s2 i = .ok (e0, e1) ∧ ∀ b : Bool,
      Rep W.env (if b then e1 else e0).prf (((if b then 2 ^ i else 0 : ℕ) : F) • A + ((Bc i).ok : F) • ((kr : F) • G)) := by
    intro i hi
    refine entries_ok (K := fun sy j => (Bc j).key sy) (by subst t2; exact hA) (by subst t2; exact b2)
      (fun sy => hkeys sy _ (by omega)) (fun sy => hkeys sy _ (by omega)) (hok _ (by omega)) (hs i hi)
  obtain ⟨s', t3⟩ := tableLoop_ok (W := W) 15 (s := s2) (by subst t2; simp [withKeys, l0]) (by subst t2; simp [withKeys, l1])
    (fun i hi => by obtain ⟨e0, e1, h, -⟩ := hent i hi; exact ⟨_, h⟩)
  obtain ⟨⟨a, b, u1, -, -⟩, u2, -⟩ := tableLoop_inv 15 t3
  refine ⟨s', ?_, ?_, by rw [u1, t2]; rfl, by rw [u1, t2]; rfl, by rw [u1, t2]; rfl, by rw [u1, t2]; rfl⟩
  · unfold Server.prepare
    simp only [q1, b1, R.ok_bind]
    rw [hpush, R.ok_bind, t1, R.ok_bind, t3]
  · have hth : s'.theta = s2.theta := by rw [u1]
    refine ⟨by rw [u1, t2]; exact b2, by rw [u1, t2]; exact q2, ?_, ?_, ?_, ?_, ?_⟩
    · intro sy j hj
      rw [u1]
      exact hkeys sy j hj
    · intro j hj
      rw [u1]
      exact hok j hj
    · rw [u1, t2]
      rintro (_ | _) <;> rfl
    · rw [u1, t2]
      rintro (_ | _)
      · simpa [zero_smulG] using f2
      · simpa using f5
    · intro i hi
      obtain ⟨x0, x1, v1, v2, v3⟩ := u2 i hi
      obtain ⟨y0, y1, w1, w2⟩ := hent i hi
      rw [v1] at w1
      obtain ⟨rfl, rfl⟩ := Prod.mk.inj (Except.ok.inj w1)
      refine ⟨x0, x1, v2, v3, fun b => ⟨fun sy => ?_, w2 b⟩⟩
      obtain ⟨k, k', z1, z2, z3⟩ := entries_inv v1
      have := z3 b sy
      have q1 := z1 sy
      rw [hkeys sy _ (by omega)] at q1
      have q2 := z2 (sy.then (compare b (s2.theta.toNat.testBit i)))
      rw [hkeys _ _ (by omega)] at q2
      rw [hth, Option.some.inj q1, Option.some.inj q2]
      exact this

/-! ## One oblivious transfer -/

theorem ot_round {env : Env} {rc : Recv} {sd : Sndr} (hs : Ready env ⟨rc, sd⟩) (b : Branch) (coin : ℤ) :
    ∃ pk rc', selectMsg env rc b coin = .ok (pk, rc') ∧ rc'.dme = rc.dme ∧
      (∀ sd' : Sndr, sd'.dme = sd.dme → ∀ (m0 m1 : Pt) (M0 M1 : Grp CC), Rep env m0 M0 → Rep env m1 M1 →
        ∀ k0 k1 : EncCoins, ∃ c, encMsgs env sd' pk m0 m1 k0 k1 = .ok (c, { sd' with c := c }) ∧ c ≠ [] ∧
          (NonDegenerate rc' c b → ∃ P, decryptMsg env rc' c = .ok P ∧ Rep env P (pick b M0 M1))) ∧
      (∀ sd' : Sndr, sd'.dme = sd.dme → ∀ (m0 m1 : ℤ) (k0 k1 : EncCoins),
        ∃ c, encMsgsZ env sd' pk m0 m1 k0 k1 = .ok (c, { sd' with c := c }) ∧ c ≠ [] ∧
          (0 ≤ pick b m0 m1 → (pick b m0 m1 + 1) * 1024 ≤ CC.prime → Encodable (pick b m0 m1) →
            NonDegenerate rc' c b → decryptMsgDecode env rc' c = .ok (pick b m0 m1))) := by
  obtain ⟨g, h, r⟩ := hs.crs.rep
  obtain ⟨pg, ph, e1, rg, rh⟩ := keyGen_rep (d := rc.dme) hs.recv r b coin
  have hsel : selectMsg env rc b coin = .ok (⟨pg, ph⟩, { rc with sk := Fld.ofZ (coin : F), b := some b }) := by
    simp only [selectMsg, e1, R.ok_bind]
  refine ⟨⟨pg, ph⟩, _, hsel, rfl, ?_, ?_⟩
  · intro sd' hd m0 m1 M0 M1 hM0 hM1 k0 k1
    have hl : Live env sd'.dme.curve := by rw [hd]; exact hs.sndr
    have rs : RepCrs env sd'.dme.crs g h := by rw [hd]; exact r.congr hs.same hs.crs'
    obtain ⟨c0, -, f0, ru0, -, -, rm0⟩ := enc_rep (pk := ⟨pg, ph⟩) hl rs rg rh hM0 .b0 k0.s k0.t
    obtain ⟨c1, -, f1, ru1, -, -, rm1⟩ := enc_rep (pk := ⟨pg, ph⟩) hl rs rg rh hM1 .b1 k1.s k1.t
    refine ⟨[c0, c1], by simp only [encMsgs, f0, f1, R.ok_bind], by simp, ?_⟩
    simp only [decryptMsg, selected, NonDegenerate, index_pair, R.ok_bind, Except.ok.injEq, exists_eq_left',
      ofZ_ne_zero_iff]
    have key : ∀ {ct : Ctxt} {U V M : Grp CC}, Rep env ct.u U → Rep env ct.mv V → V = (coin : F) • U + M →
        (ct.u.inf = false ∧ (coin : F) ≠ 0 ∧ ct.mv.inf = false) →
        ∃ P, dec env (Fld.ofZ (coin : F)) ct = .ok P ∧ Rep env P M := by
      rintro ct U V M hu hv rfl ⟨a1, a2, a3⟩
      obtain ⟨P, h1, h2⟩ := dec_rep hu hv (k := (coin : F)) (fun h0 => by
        rcases smul_eq_zero.1 h0 with h' | h'
        · exact a2 h'
        · rw [(rep_inf hu).2 h'] at a1; simp at a1) (fun h0 => by rw [(rep_inf hv).2 h0] at a3; simp at a3)
      exact ⟨P, h1, by simpa using h2⟩
    rcases b with _ | _
    · exact key (M := M0) ru0 rm0 (by module)
    · exact key (M := M1) ru1 rm1 (by module)
  · intro sd' hd m0 m1 k0 k1
    have hR : Ready env ⟨rc, sd'⟩ := ⟨hs.recv, by simp only [hd]; exact hs.sndr, hs.crs, by simp only [hd]; exact hs.crs',
      by simp only [hd]; exact hs.same⟩
    have hl : Live env sd'.dme.curve := by rw [hd]; exact hs.sndr
    have rs : RepCrs env sd'.dme.crs g h := by rw [hd]; exact r.congr hs.same hs.crs'
    obtain ⟨-, P0, -, -, -, p0, -, -, q0⟩ := encode_ok hl m0
    obtain ⟨-, P1, -, -, -, p1, -, -, q1⟩ := encode_ok hl m1
    obtain ⟨M0, hM0⟩ := valid_iff.1 (.inr q0)
    obtain ⟨M1, hM1⟩ := valid_iff.1 (.inr q1)
    obtain ⟨c0, -, f0, -⟩ := enc_rep (pk := ⟨pg, ph⟩) hl rs rg rh hM0 .b0 k0.s k0.t
    obtain ⟨c1, -, f1, -⟩ := enc_rep (pk := ⟨pg, ph⟩) hl rs rg rh hM1 .b1 k1.s k1.t
    have henc : encMsgsZ env sd' ⟨pg, ph⟩ m0 m1 k0 k1 = .ok ([c0, c1], { sd' with c := [c0, c1] }) := by
      simp only [encMsgsZ, encZ, p0, p1, f0, f1, R.ok_bind]
    refine ⟨[c0, c1], henc, by simp, fun h0 h1 h2 hnd => ?_⟩
    obtain ⟨sel, s1, s2⟩ := C33_delivers_int_partial env hR [] [] [] (by simp) (by simp) b coin m0 m1 h0 h1 h2 k0 k1 rfl
    have : sel = (⟨pg, ph⟩, { rc with sk := Fld.ofZ (coin : F), b := some b }) :=
      (Except.ok.inj (hsel.symm.trans s1)).symm
    subst this
    obtain ⟨e, t1, t2⟩ := s2 _ rfl
    have : e = ([c0, c1], { sd' with c := [c0, c1] }) := (Except.ok.inj (henc.symm.trans t1)).symm
    subst this
    exact t2 _ rfl hnd

/-! ## One round -/

theorem then_eq_next (x theta : Msg) (j : ℕ) (sy : Ordering) :
    sy.then (compare (x.toNat.testBit j) (theta.toNat.testBit j)) = next x theta j sy := by
  cases sy <;> rfl

theorem next_sym (x theta : Msg) (j : ℕ) : next x theta j (sym x theta (j + 1)) = sym x theta j := by
  rw [← then_eq_next, ← sym_step]

theorem mem_shuffle {α : Type} (a : Arr3 α) (r1 r2 : ℕ) (v : α) :
    v ∈ (a.shuffle r1 r2).toList ↔ v ∈ a.toList := by
  rcases a with ⟨x, y, z⟩
  unfold Arr3.shuffle
  split_ifs <;> simp [Arr3.toList] <;> tauto

theorem searchKey_ok {W : World} {c : Client} {k : ℤ} (hk : k ≠ 0) (l : List (List Ctxt))
    (h : ∀ v ∈ l, ∃ e, decryptMsgDecode W.env c.otr v = .ok e ∧ (W.unseal c.key e = .ok 0 ∨ W.unseal c.key e = .ok k))
    (h' : ∃ v ∈ l, ∃ e, decryptMsgDecode W.env c.otr v = .ok e ∧ W.unseal c.key e = .ok k) :
    searchKey W c l = .ok (some k) := by
  induction l with
  | nil => obtain ⟨v, hv, -⟩ := h'; simp at hv
  | cons v l ih =>
    obtain ⟨e, h1, h2⟩ := h v (by simp)
    rw [searchKey, h1, R.ok_bind]
    rcases h2 with h2 | h2
    · rw [h2, R.ok_bind, if_neg (by simp)]
      refine ih (fun v hv => h v (by simp [hv])) ?_
      obtain ⟨v', hv, e', h3, h4⟩ := h'
      rcases List.mem_cons.1 hv with rfl | hv
      · rw [h1] at h3
        cases h3
        rw [h2] at h4
        cases h4
        exact absurd rfl hk
      · exact ⟨v', hv, e', h3, h4⟩
    · rw [h2, R.ok_bind, if_pos hk]

theorem searchKey_none {W : World} {c : Client} (l : List (List Ctxt))
    (h : ∀ v ∈ l, ∃ e, decryptMsgDecode W.env c.otr v = .ok e ∧ W.unseal c.key e = .ok 0) :
    searchKey W c l = .ok none := by
  induction l with
  | nil => rfl
  | cons v l ih =>
    obtain ⟨e, h1, h2⟩ := h v (by simp)
    rw [searchKey, h1, R.ok_bind, h2, R.ok_bind, if_neg (by simp)]
    exact ih fun v hv => h v (by simp [hv])

theorem searchMask_none {W : World} {key : ℤ} (l : List ℤ) (h : ∀ v ∈ l, W.unseal key v = .ok 0) :
    searchMask W key l = .ok none := by
  induction l with
  | nil => rfl
  | cons v l ih =>
    rw [searchMask, h v (by simp), R.ok_bind, if_neg (by simp)]
    exact ih fun v hv => h v (by simp [hv])

theorem stop_eq {α : Type} (env : Env) : (do
    cassert env (.ok (none : Option ℤ).isSome)
    (.error .exception : R α)) = .error (noDecryption env) := by
  unfold cassert noDecryption
  cases env.ndebug <;> rfl

theorem searchMask_ok {W : World} {key k : ℤ} (hk : k ≠ 0) (l : List ℤ)
    (h : ∀ v ∈ l, W.unseal key v = .ok 0 ∨ W.unseal key v = .ok k) (h' : ∃ v ∈ l, W.unseal key v = .ok k) :
    searchMask W key l = .ok (some k) := by
  induction l with
  | nil => obtain ⟨v, hv, -⟩ := h'; simp at hv
  | cons v l ih =>
    rw [searchMask]
    rcases h v (by simp) with h2 | h2
    · rw [h2, R.ok_bind, if_neg (by simp)]
      refine ih (fun v hv => h v (by simp [hv])) ?_
      obtain ⟨v', hv, h4⟩ := h'
      rcases List.mem_cons.1 hv with rfl | hv
      · rw [h2] at h4
        cases h4
        exact absurd rfl hk
      · exact ⟨v', hv, h4⟩
    · rw [h2, R.ok_bind, if_pos hk]

theorem pick_branch {α : Type} (b : Bool) (x y : α) : pick (branch b) x y = if b then y else x := by
  cases b <;> rfl

/-- an integer that survives `encode` and `decode` -/
def Fits (e : ℤ) : Prop := 0 ≤ e ∧ (e + 1) * 1024 ≤ CC.prime ∧ Encodable e

theorem fits_of_lt {e : ℤ} (h0 : 0 ≤ e) (h1 : e < 256 ^ 20) (h : Encodable e) : Fits e := by
  refine ⟨h0, ?_, h⟩
  have : (256 : ℤ) ^ 20 * 1024 ≤ CC.prime := by decide +kernel
  omega

/-- the ciphertexts that the client decrypts in a round avoid infinity on its branch -/
def FineMsg (c : Client) (m : OtCtxts) (b : Bool) : Prop :=
  ∀ v ∈ m.cprf :: m.ctxt.toList, v ≠ [] → NonDegenerate c.otr v (branch b)

theorem start_ok {W : World} {c : Client} {x : Msg} (hx : c.x = some x) {n : ℕ} (hn : n < 16) {coin : ℤ} {pk : PKey}
    {rc : Recv} (h : selectMsg W.env c.otr (branch (x.toNat.testBit n)) coin = .ok (pk, rc)) :
    c.start W (n + 1 : ℕ) coin = .ok (pk, { c with otr := rc }) := by
  unfold Client.start
  rw [hx]
  have e : ((n + 1 : ℕ) : ℤ) - 1 = n := by push_cast; ring
  simp only [e]
  rw [if_neg (by omega), Int.toNat_natCast, h, R.ok_bind]

theorem finish_tail {W : World} {c : Client} {P : Pt} {Rn D : Grp CC} (hr : Rep W.env c.result Rn) {v : List Ctxt}
    (h : decryptMsg W.env c.otr v = .ok P) (hP : Rep W.env P D) (key : ℤ) :
    ∃ r, Rep W.env r (Rn + D) ∧ (do
      let p ← decryptMsg W.env c.otr v
      let result ← c.result.add W.env CC p
      Except.ok { c with key := key, result := result } : R Client) = .ok { c with key := key, result := r } := by
  obtain ⟨r, h1, h2⟩ := add_rep hr hP
  exact ⟨r, h2, by rw [h, R.ok_bind, h1, R.ok_bind]⟩

theorem round_ok {W : World} {s : Server} {c : Client} {K : Ordering → ℕ → ℤ} {A B Q : Grp CC} {o : ℕ → F}
    (hp : Prepared W s K A B Q o) (hR : Ready W.env ⟨c.otr, s.ots⟩) {x : Msg} (hx : c.x = some x) {Rn : Grp CC}
    (hr : Rep W.env c.result Rn) {n : ℕ} (hn : n < 16) (coin : ℤ) (k : RoundCoins)
    (hkey : n < 15 → c.key = K (sym x s.theta (n + 1)) (n + 1))
    (hfit : ∀ sy e, n < 15 → W.seal (K sy (n + 1)) (K (next x s.theta n sy) n) = .ok e → Fits e)
    (hfit' : n = 15 → Fits (K (sym x s.theta 15) 15))
    (hown : n < 15 → OpensOrRejects W (K (sym x s.theta (n + 1)) (n + 1)) (K (sym x s.theta n) n))
    (hrej : n < 15 → ∀ sy ≠ sym x s.theta (n + 1), Rejects W (K (sym x s.theta (n + 1)) (n + 1)) (K sy (n + 1))
      (K (next x s.theta n sy) n))
    (h0 : K (sym x s.theta n) n ≠ 0) :
    ∃ pk c' m s', c.start W (n + 1 : ℕ) coin = .ok (pk, c') ∧ s.runOTRound W (n + 1 : ℕ) pk k = .ok (m, s') ∧
      (∃ ots, s' = { s with ots := ots } ∧ ots.dme = s.ots.dme) ∧
      (FineMsg c' m (x.toNat.testBit n) → (n < 15 ∧ c'.finish W (n + 1 : ℕ) m = .error (noDecryption W.env) ∧
        ¬ Opens W (K (sym x s.theta (n + 1)) (n + 1)) (K (sym x s.theta n) n)) ∨
        ∃ c'', c'.finish W (n + 1 : ℕ) m = .ok c'' ∧ c''.otr.dme = c.otr.dme ∧
        c''.x = some x ∧ c''.curve = c.curve ∧ c''.key = K (sym x s.theta n) n ∧
        Rep W.env c''.result (Rn + (((if x.toNat.testBit n then 2 ^ n else 0 : ℕ) : F) • A + o n • B)) ∧
        (n < 15 → Opens W (K (sym x s.theta (n + 1)) (n + 1)) (K (sym x s.theta n) n))) := by
  obtain ⟨pk, rc, h1, h2, hpt, hz⟩ := ot_round hR (branch (x.toNat.testBit n)) coin
  refine ⟨pk, { c with otr := rc }, ?_⟩
  have hst := start_ok (c := c) hx hn h1
  rcases Nat.lt_or_ge n 15 with hn' | hn'
  · -- rounds 15 to 1
    obtain ⟨e0, e1, t0, t1, t2⟩ := hp.tab n hn'
    obtain ⟨t3, t4⟩ := t2 false
    obtain ⟨t5, t6⟩ := t2 true
    obtain ⟨c0, f0, g0, d0⟩ := hz s.ots rfl e0.k_lt e1.k_lt k.lt0 k.lt1
    obtain ⟨c1, f1, g1, d1⟩ := hz { s.ots with c := c0 } rfl e0.k_eq e1.k_eq k.eq0 k.eq1
    obtain ⟨c2, f2, g2, d2⟩ := hz { s.ots with c := c1 } rfl e0.k_gt e1.k_gt k.gt0 k.gt1
    obtain ⟨p, f3, g3, d3⟩ := hpt { s.ots with c := c2 } rfl e0.prf e1.prf _ _ t4 t6 k.prf0 k.prf1
    refine ⟨⟨Arr3.shuffle ⟨c0, c1, c2⟩ k.sh1 k.sh2, p⟩, { s with ots := { s.ots with c := p } }, hst, ?_,
      ⟨_, rfl, rfl⟩, ?_⟩
    · unfold Server.runOTRound
      rw [if_neg (by omega)]
      have a0 : atShort s.Si0 ((n + 1 : ℕ) : ℤ) = .ok e0 := by
        rw [atShort, if_neg (by omega), Int.toNat_natCast, at'_ok]; exact t0
      have a1 : atShort s.Si1 ((n + 1 : ℕ) : ℤ) = .ok e1 := by
        rw [atShort, if_neg (by omega), Int.toNat_natCast, at'_ok]; exact t1
      simp only [a0, a1, R.ok_bind, f0, f1, f2, f3]
    · intro hfine
      have hmem : ∀ v, v ∈ [c0, c1, c2] → NonDegenerate rc v (branch (x.toNat.testBit n)) := by
        intro v hv
        refine hfine v (List.mem_cons_of_mem _ ((mem_shuffle _ _ _ _).2 hv)) ?_
        simp only [List.mem_cons, List.not_mem_nil, or_false] at hv
        rcases hv with rfl | rfl | rfl <;> assumption
      obtain ⟨P, hP1, hP2⟩ := d3 (hfine p (by simp) g3)
      rw [pick_branch] at hP2
      -- the sealed keys on the client's branch
      have hsel : ∀ sy : Ordering, W.seal (K sy (n + 1))
          (K (next x s.theta n sy) n) =
            .ok (pick (branch (x.toNat.testBit n)) (e0.k sy) (e1.k sy)) := by
        intro sy
        have := (t2 (x.toNat.testBit n)).1 sy
        rw [then_eq_next] at this
        rw [this, pick_branch]
        cases x.toNat.testBit n <;> rfl
      have hdec : ∀ sy : Ordering, ∃ v ∈ [c0, c1, c2], decryptMsgDecode W.env rc v =
          .ok (pick (branch (x.toNat.testBit n)) (e0.k sy) (e1.k sy)) := by
        rintro (_ | _ | _)
        · obtain ⟨b1, b2, b3⟩ := hfit _ _ hn' (hsel .lt)
          exact ⟨c0, by simp, d0 b1 b2 b3 (hmem _ (by simp))⟩
        · obtain ⟨b1, b2, b3⟩ := hfit _ _ hn' (hsel .eq)
          exact ⟨c1, by simp, d1 b1 b2 b3 (hmem _ (by simp))⟩
        · obtain ⟨b1, b2, b3⟩ := hfit _ _ hn' (hsel .gt)
          exact ⟨c2, by simp, d2 b1 b2 b3 (hmem _ (by simp))⟩
      have hdec' : ∀ v ∈ [c0, c1, c2], ∃ sy, decryptMsgDecode W.env rc v =
          .ok (pick (branch (x.toNat.testBit n)) (e0.k sy) (e1.k sy)) := by
        intro v hv
        simp only [List.mem_cons, List.not_mem_nil, or_false] at hv
        rcases hv with rfl | rfl | rfl
        · obtain ⟨b1, b2, b3⟩ := hfit _ _ hn' (hsel .lt)
          exact ⟨.lt, d0 b1 b2 b3 (hmem _ (by simp))⟩
        · obtain ⟨b1, b2, b3⟩ := hfit _ _ hn' (hsel .eq)
          exact ⟨.eq, d1 b1 b2 b3 (hmem _ (by simp))⟩
        · obtain ⟨b1, b2, b3⟩ := hfit _ _ hn' (hsel .gt)
          exact ⟨.gt, d2 b1 b2 b3 (hmem _ (by simp))⟩
      have hown' := hsel (sym x s.theta (n + 1))
      rw [← then_eq_next, ← sym_step] at hown'
      have hrej' : ∀ sy ≠ sym x s.theta (n + 1), W.unseal c.key
          (pick (branch (x.toNat.testBit n)) (e0.k sy) (e1.k sy)) = .ok 0 := by
        intro sy hne
        rw [hkey hn']
        obtain ⟨e, z1, z2⟩ := hrej hn' sy hne
        rw [hsel sy] at z1
        rw [Except.ok.inj z1]
        exact z2
      have hopen : W.unseal c.key (pick (branch (x.toNat.testBit n)) (e0.k (sym x s.theta (n + 1))) (e1.k (sym x s.theta (n + 1)))) =
          .ok (K (sym x s.theta n) n) ∨ W.unseal c.key (pick (branch (x.toNat.testBit n)) (e0.k (sym x s.theta (n + 1)))
            (e1.k (sym x s.theta (n + 1)))) = .ok 0 := by
        rw [hkey hn']
        exact hown hn' _ hown'
      rcases hopen with hopen | hopen
      · right
        have hsearch : searchKey W { c with otr := rc } (Arr3.toList (Arr3.shuffle ⟨c0, c1, c2⟩ k.sh1 k.sh2)) =
            .ok (some (K (sym x s.theta n) n)) := by
          refine searchKey_ok h0 _ ?_ ?_
          · intro v hv
            obtain ⟨sy, z⟩ := hdec' v ((mem_shuffle _ _ _ _).1 hv)
            refine ⟨_, z, ?_⟩
            by_cases hsy : sy = sym x s.theta (n + 1)
            · subst hsy
              exact .inr hopen
            · exact .inl (hrej' sy hsy)
          · obtain ⟨v, hv, z⟩ := hdec (sym x s.theta (n + 1))
            exact ⟨v, (mem_shuffle _ _ _ _).2 hv, _, z, hopen⟩
        obtain ⟨r, r1, r2⟩ := finish_tail (c := { c with otr := rc }) hr hP1 hP2 (K (sym x s.theta n) n)
        refine ⟨{ c with otr := rc, key := K (sym x s.theta n) n, result := r }, ?_, h2, hx, rfl, rfl, ?_, ?_⟩
        · unfold Client.finish
          rw [if_neg (by omega)]
          simp only [hsearch, R.ok_bind, Option.isSome_some, cassert]
          simpa using r2
        · cases hb : x.toNat.testBit n <;> simpa [hb] using r1
        · intro _
          refine ⟨_, hown', ?_⟩
          rwa [hkey hn'] at hopen
      · left
        have hsearch : searchKey W { c with otr := rc } (Arr3.toList (Arr3.shuffle ⟨c0, c1, c2⟩ k.sh1 k.sh2)) = .ok none := by
          refine searchKey_none _ ?_
          intro v hv
          obtain ⟨sy, z⟩ := hdec' v ((mem_shuffle _ _ _ _).1 hv)
          refine ⟨_, z, ?_⟩
          by_cases hsy : sy = sym x s.theta (n + 1)
          · subst hsy
            exact hopen
          · exact hrej' sy hsy
        refine ⟨hn', ?_, ?_⟩
        · unfold Client.finish
          rw [if_neg (by omega)]
          simp only [hsearch, R.ok_bind, R.error_bind]
          exact stop_eq (α := Client) W.env
        · rintro ⟨e, z1, z2⟩
          rw [hown'] at z1
          obtain rfl := Except.ok.inj z1
          rw [hkey hn', z2] at hopen
          exact h0 (Except.ok.inj hopen)
  · -- round 16
    obtain rfl : n = 15 := by omega
    obtain ⟨b1, b2, b3⟩ := hfit' rfl
    obtain ⟨c0, f0, g0, d0⟩ := hz s.ots rfl s.Sl0.k s.Sl1.k k.lt0 k.lt1
    obtain ⟨p, f3, g3, d3⟩ := hpt { s.ots with c := c0 } rfl s.Sl0.prf s.Sl1.prf _ _ (hp.topPrf false) (hp.topPrf true)
      k.prf0 k.prf1
    have hk : pick (branch (x.toNat.testBit 15)) s.Sl0.k s.Sl1.k = K (sym x s.theta 15) 15 := by
      rw [pick_branch, sym_top, ← hp.topKey]
      cases x.toNat.testBit 15 <;> rfl
    refine ⟨⟨⟨c0, [], []⟩, p⟩, { s with ots := { s.ots with c := p } }, hst, ?_, ⟨_, rfl, rfl⟩, ?_⟩
    · unfold Server.runOTRound
      rw [if_pos (by norm_num)]
      simp only [R.ok_bind, f0, f3]
    · intro hfine
      right
      obtain ⟨P, hP1, hP2⟩ := d3 (hfine p (by simp) g3)
      rw [pick_branch] at hP2
      rw [hk] at d0
      have hd := d0 b1 b2 b3 (hfine c0 (by simp [Arr3.toList]) g0)
      obtain ⟨r, r1, r2⟩ := finish_tail (c := { c with otr := rc }) hr hP1 hP2 (K (sym x s.theta 15) 15)
      refine ⟨{ c with otr := rc, key := K (sym x s.theta 15) 15, result := r }, ?_, h2, hx, rfl, rfl, ?_, by simp⟩
      · unfold Client.finish
        rw [if_pos (by norm_num)]
        simp only [hd, R.ok_bind]
        simpa using r2
      · cases hb : x.toNat.testBit 15 <;> simpa [hb] using r1

/-! ## All rounds -/

/-- in the rounds `n` to 1 of a run, no ciphertext the client has to decrypt involves infinity -/
def FineRounds (W : World) (d : ℕ → RoundDraws) (x : Msg) : ℕ → Server → Client → Prop
  | 0, _, _ => True
  | n + 1, s, c => ∀ pk c' m s', c.start W (n + 1 : ℕ) (d (n + 1)).sk = .ok (pk, c') →
      s.runOTRound W (n + 1 : ℕ) pk (d (n + 1)).enc = .ok (m, s') → FineMsg c' m (x.toNat.testBit n) ∧
        ∀ c'', c'.finish W (n + 1 : ℕ) m = .ok c'' → FineRounds W d x n s' c''

theorem Prepared.ots {W : World} {s : Server} {K : Ordering → ℕ → ℤ} {A B Q : Grp CC} {o : ℕ → F}
    (h : Prepared W s K A B Q o) (ots : Sndr) : Prepared W { s with ots := ots } K A B Q o :=
  ⟨h.r, h.kopprf, h.keys, h.ok, h.topKey, h.topPrf, h.tab⟩

theorem Ready.of_dme {env : Env} {r r' : Recv} {s s' : Sndr} (h : Ready env ⟨r, s⟩) (hr : r'.dme = r.dme)
    (hs : s'.dme = s.dme) : Ready env ⟨r', s'⟩ := by
  obtain ⟨h1, h2, h3, h4, h5⟩ := h
  exact ⟨by simpa only [hr] using h1, by simpa only [hs] using h2, by simpa only [hr] using h3,
    by simpa only [hs] using h4, by simpa only [hr, hs] using h5⟩

theorem mod_step (x n : ℕ) : x % 2 ^ (n + 1) = (if x.testBit n then 2 ^ n else 0) + x % 2 ^ n := by
  rw [Nat.mod_pow_succ, add_comm, ← Nat.toNat_testBit]
  cases x.testBit n <;> simp

theorem rounds_ok {W : World} {K : Ordering → ℕ → ℤ} {A B Q : Grp CC} {o : ℕ → F} {x : Msg} (d : ℕ → RoundDraws)
    (hiv : IvReadable W.iv) (hsl : ∀ n, n + 4 ≤ W.pf.usable n) (hfull : ∀ sy, ∀ j < 16, 2 ^ 120 ≤ K sy j ∧ K sy j < 2 ^ 128)
    (n : ℕ) (hn : n ≤ 16) {s : Server} (hp : Prepared W s K A B Q o) {c : Client} (hR : Ready W.env ⟨c.otr, s.ots⟩)
    (hx : c.x = some x) {Rn : Grp CC} (hr : Rep W.env c.result Rn)
    (hkey : n < 16 → c.key = K (sym x s.theta n) n) (hw : Legible W K x s.theta) (hf : FineRounds W d x n s c) :
    (runRounds W d n s c = .error (noDecryption W.env) ∧
      ∃ j < n, j < 15 ∧ ¬ Opens W (K (sym x s.theta (j + 1)) (j + 1)) (K (sym x s.theta j) j)) ∨
    ∃ s' c', runRounds W d n s c = .ok (s', c') ∧ (∃ ots, s' = { s with ots := ots } ∧ ots.dme = s.ots.dme) ∧
      c'.otr.dme = c.otr.dme ∧ c'.x = some x ∧ c'.curve = c.curve ∧ (0 < n → c'.key = K (sym x s.theta 0) 0) ∧
      Rep W.env c'.result (Rn + (((x.toNat % 2 ^ n : ℕ) : F) • A + (∑ j ∈ Finset.range n, o j) • B)) ∧
      ∀ j < n, j < 15 → Opens W (K (sym x s.theta (j + 1)) (j + 1)) (K (sym x s.theta j) j) := by
  induction n generalizing s c Rn with
  | zero =>
    refine .inr ⟨s, c, rfl, ⟨_, rfl, rfl⟩, rfl, hx, rfl, by simp, ?_, by simp⟩
    simpa [Nat.mod_one, zero_smulG] using hr
  | succ n ih =>
    obtain ⟨pk, c', m, s', h1, h2, ⟨ots, rfl, h4⟩, h5⟩ := round_ok hp hR hx hr (n := n) (by omega) (d (n + 1)).sk
      (d (n + 1)).enc (fun h => hkey (by omega)) (fun sy e h he => by
        have h1 := hfull sy (n + 1) (by omega)
        have h2 := hfull (next x s.theta n sy) n (by omega)
        obtain ⟨e', h3, h4, h5⟩ := seal_ok (W := W) hiv h1.1 (m := K (next x s.theta n sy) n) (by linarith [h2.1]) (n := 16)
          (by have := h2.2; norm_num at this ⊢; exact this) (by norm_num) (hsl _)
        rw [he] at h3
        obtain rfl := Except.ok.inj h3
        exact fits_of_lt h4 h5 (hw.enc n h sy e he))
      (fun h => by
        have h1 := hfull (sym x s.theta 15) 15 (by norm_num)
        exact fits_of_lt (by linarith [h1.1]) (h1.2.trans (by norm_num)) hw.top)
      (fun h => hw.own n h) (fun h => hw.rejects n h) (by
        have := (hfull (sym x s.theta n) n (by omega)).1
        intro h
        rw [h] at this
        norm_num at this)
    obtain ⟨f1, f2⟩ := hf pk c' m _ h1 h2
    rcases h5 f1 with ⟨g1, g2, g3⟩ | ⟨c'', g1, g2, g3, g4, g5, g6, g7⟩
    · refine .inl ⟨?_, n, by omega, g1, g3⟩
      rw [runRounds, h1, R.ok_bind]
      simp only [h2, R.ok_bind, g2, R.error_bind]
    rcases ih (by omega) (hp.ots ots) (Ready.of_dme hR g2 h4) g3 g6 (fun _ => g5) hw (f2 c'' g1) with
      ⟨k1, j, k2, k3, k4⟩ | ⟨s', c', k1, ⟨ots', rfl, k2⟩, k3, k4, k5, k6, k7, k8⟩
    · refine .inl ⟨?_, j, by omega, k3, k4⟩
      rw [runRounds, h1, R.ok_bind]
      simp only [h2, R.ok_bind, g1]
      exact k1
    refine .inr ⟨_, c', ?_, ⟨ots', rfl, k2.trans h4⟩, k3.trans g2, k4, k5.trans g4, ?_, ?_, ?_⟩
    · rw [runRounds, h1, R.ok_bind]
      simp only [h2, R.ok_bind, g1]
      exact k1
    · intro _
      rcases Nat.eq_zero_or_pos n with rfl | hpos
      · have : c' = c'' := by
          have := Except.ok.inj k1
          exact (Prod.mk.inj this).2.symm
        rw [this]
        exact g5
      · exact k6 hpos
    · have e : Rn + (((if x.toNat.testBit n then 2 ^ n else 0 : ℕ) : F) • A + o n • B) +
          (((x.toNat % 2 ^ n : ℕ) : F) • A + (∑ j ∈ Finset.range n, o j) • B) =
          Rn + (((x.toNat % 2 ^ (n + 1) : ℕ) : F) • A + (∑ j ∈ Finset.range (n + 1), o j) • B) := by
        rw [mod_step, Finset.sum_range_succ, Nat.cast_add]
        module
      rw [← e]
      exact k7
    · intro j hj hj'
      rcases Nat.lt_succ_iff_lt_or_eq.1 hj with h | rfl
      · exact k8 j h hj'
      · exact g7 hj'

/-! ## Masks -/

theorem encoding_congr' {env : Env} {C : CurveClass} [GoodCurve C] {P P' : Pt} {A : Grp C} (hA : A ≠ 0) (h : Rep env P A) (h' : Rep env P' A) :
    P.getEncodedX env C = P'.getEncodedX env C := by
  rcases cases_pt A with rfl | ⟨x, y, hxy, rfl⟩
  · exact absurd rfl hA
  obtain ⟨h1, h2, h3, h4⟩ := (rep_pt_iff hxy).1 h
  obtain ⟨h1', h2', h3', h4'⟩ := (rep_pt_iff hxy).1 h'
  have hsq := (root_sq_iff x).2 ⟨_, hxy⟩
  simp only [Pt.getEncodedX, h2, h2', h3, h3', evaluateP_ok h4, evaluateP_ok h4', if_pos hsq, R.ok_bind, Pt.ofFld]

theorem encoding_congr {env : Env} {P P' : Pt} {A : Grp CC} (hA : A ≠ 0) (h : Rep env P A) (h' : Rep env P' A) :
    P.getEncodedX env CC = P'.getEncodedX env CC := encoding_congr' hA h h'

theorem encoding_rep {env : Env} {P : Pt} {A : Grp CC} (hA : A ≠ 0) (h : Rep env P A) :
    ∃ e, P.getEncodedX env CC = .ok e ∧ 0 ≤ e ∧ e < 2 * CC.prime ∧ ∀ T : Pt, Live env T.curve →
      ∃ P', T.setEncodedX env CC e = .ok P' ∧ Rep env P' A := by
  have hf : IsFinite env CC P := isFinite_iff.2 ⟨A, hA, h⟩
  obtain ⟨e, h1, h2, h3, -⟩ := C18_roundtrip env (C := CC) (.inr rfl) hf hf.live
  refine ⟨e, h1, h2, h3, fun T hT => ?_⟩
  obtain ⟨e', h1', -, -, P', h4, h5, -, h6⟩ := C18_roundtrip env (C := CC) (.inr rfl) hf hT
  rw [h1] at h1'
  cases h1'
  obtain ⟨A', -, hA'⟩ := isFinite_iff.1 h6
  rw [(samePoint_iff h hA').1 h5]
  exact ⟨P', h4, hA'⟩

theorem smulG_eq_zero_iff {z : ℤ} : (z : F) • (G : Grp CC) = 0 ↔ CC.order ∣ z := by
  rw [smul_eq_zero, or_iff_left G_ne_zero, ZMod.intCast_zmod_eq_zero_iff_dvd]
  have ho : CC.order = (CC.fn : ℤ) := by decide
  rw [ho]

theorem encodingOf_iff {W : World} {curve : Option Addr} (hc : LiveGen W.env curve) {z : ℤ} (hz : ¬ CC.order ∣ z) {P : Pt}
    (hP : Rep W.env P ((z : F) • (G : Grp CC))) (e : ℤ) : EncodingOf W curve z e ↔ P.getEncodedX W.env CC = .ok e := by
  obtain ⟨P', h1, h2⟩ := randomPoint_rep (C := CC) hc z
  have := encoding_congr (fun h => hz (smulG_eq_zero_iff.1 h)) hP h2
  constructor
  · rintro ⟨P'', h3, h4⟩
    rw [h1] at h3
    cases h3
    rw [this, h4]
  · intro h
    exact ⟨P', h1, by rw [← this, h]⟩

theorem okSum_ok {env : Env} {ok : List Fld} {o : ℕ → F} (n i : ℕ) (h : ∀ j < i + n, ok[j]? = some (Fld.ofZ (o j))) (a : F) :
    okSum env ok n i (Fld.ofZ a) = .ok (Fld.ofZ (a + ∑ j ∈ Finset.Ico i (i + n), o j)) := by
  induction n generalizing i a with
  | zero => simp [okSum]
  | succ n ih =>
    rw [okSum, at'_ok.2 (h i (by omega)), R.ok_bind, Fld.addAssign_ofZ, R.ok_bind,
      ih (i + 1) (fun j hj => h j (by omega))]
    rw [Finset.sum_eq_sum_Ico_succ_bot (show i < i + (n + 1) by omega), ← add_assoc]
    congr 4
    rw [show i + 1 + n = i + (n + 1) by ring]

theorem masks_ok {W : World} {s : Server} {K : Ordering → ℕ → ℤ} {A B Q : Grp CC} {o : ℕ → F} {z : ℤ} {k : MaskCoins}
    (hp : Prepared W s K A B Q o) (hc : LiveGen W.env s.curve)
    (hiv : IvReadable W.iv) (hsl : ∀ n, n + 4 ≤ W.pf.usable n) (hfull : ∀ sy, 2 ^ 120 ≤ K sy 0)
    {S : F} (hS : ∑ j ∈ Finset.range 16, o j = S) (hz : (z : F) • (G : Grp CC) = Q + (-S) • B) {sy0 : Ordering}
    (hu : MaskLegible W s.curve (fun sy => K sy 0) sy0 z k.rnd) {c : Client} (hk : c.key = K sy0 0)
    (hcc : LiveGen W.env c.curve) {un : ℤ} (hun : ¬ CC.order ∣ un) {Rn : Grp CC} (hr : Rep W.env c.result Rn) :
    ∃ m, s.sendEncryptedMasks W k = .ok m ∧ ((c.unmaskResult W m un = .error (noDecryption W.env) ∧
      ¬ MaskOpens W s.curve (fun sy => K sy 0) sy0 z k.rnd) ∨
      ∃ c', c.unmaskResult W m un = .ok c' ∧ c' = { c with result := c'.result } ∧
        Rep W.env c'.result (Rn + (((if sy0 = .gt then k.rnd else z : ℤ) : F) • G)) ∧
        MaskOpens W s.curve (fun sy => K sy 0) sy0 z k.rnd) := by
  have a0 := at'_ok.2 (hp.ok 0 (by norm_num))
  have a1 := okSum_ok (env := W.env) (ok := s.ok) (o := o) 15 1 (fun j hj => hp.ok j (by omega)) (o 0)
  have a2 : o 0 + ∑ j ∈ Finset.Ico 1 (1 + 15), o j = ∑ j ∈ Finset.range 16, o j := by
    rw [Finset.range_eq_Ico, Finset.sum_eq_sum_Ico_succ_bot (show 0 < 16 by norm_num)]
  rw [a2, hS] at a1
  obtain ⟨rs, b1, b2⟩ := smulF_rep hp.r (-S)
  obtain ⟨mask, b3, b4⟩ := add_rep hp.kopprf b2
  rw [← hz] at b4
  obtain ⟨rp, b5, b6⟩ := randomPoint_rep (C := CC) hc k.rnd
  have hz0 : (z : F) • (G : Grp CC) ≠ 0 := fun h => hu.finite (smulG_eq_zero_iff.1 h)
  have hr0 : (k.rnd : F) • (G : Grp CC) ≠ 0 := fun h => hu.finite' (smulG_eq_zero_iff.1 h)
  obtain ⟨e, e1, e2, e3, e4⟩ := encoding_rep hz0 b4
  obtain ⟨e', e1', e2', e3', e4'⟩ := encoding_rep hr0 b6
  have hE := (encodingOf_iff hc hu.finite b4 e).2 e1
  have hE' := (encodingOf_iff hc hu.finite' b6 e').2 e1'
  have hpay : ∀ sy : Ordering, EncodingOf W s.curve (if sy = .gt then k.rnd else z) (if sy = .gt then e' else e) := by
    intro sy
    split_ifs
    exacts [hE', hE]
  have hne : (if sy0 = .gt then e' else e) ≠ 0 := by
    intro h
    have := hpay sy0
    rw [h] at this
    exact hu.nonzero this
  have huniq : ∀ e'', EncodingOf W s.curve (if sy0 = .gt then k.rnd else z) e'' → e'' = (if sy0 = .gt then e' else e) := by
    intro e'' h
    split_ifs at h ⊢
    · have := (encodingOf_iff hc hu.finite' b6 e'').1 h
      rw [e1'] at this
      exact (Except.ok.inj this).symm
    · have := (encodingOf_iff hc hu.finite b4 e'').1 h
      rw [e1] at this
      exact (Except.ok.inj this).symm
  -- the three ciphertexts
  obtain ⟨co, hco, hoo⟩ : ∃ co, W.seal (K sy0 0) (if sy0 = .gt then e' else e) = .ok co ∧
      (W.unseal c.key co = .ok (if sy0 = .gt then e' else e) ∨ W.unseal c.key co = .ok 0) := by
    have hlt : (if sy0 = .gt then e' else e) < 256 ^ 33 := by
      have : 2 * CC.prime < 256 ^ 33 := by decide +kernel
      split_ifs <;> omega
    have hpos : 0 < (if sy0 = .gt then e' else e) := by
      have : 0 ≤ (if sy0 = .gt then e' else e) := by split_ifs <;> assumption
      omega
    obtain ⟨co, h1, -⟩ := seal_ok (W := W) hiv (hfull sy0) hpos hlt (by norm_num) (hsl _)
    rw [hk]
    exact ⟨co, h1, hu.own _ (hpay sy0) co h1⟩
  have hct : ∀ sy : Ordering, ∃ ct, W.seal (K sy 0) (if sy = .gt then e' else e) = .ok ct ∧
      (sy = sy0 → ct = co) ∧ (sy ≠ sy0 → W.unseal c.key ct = .ok 0) := by
    intro sy
    rw [hk]
    by_cases hs : sy = sy0
    · subst hs
      exact ⟨co, hco, fun _ => rfl, fun h => absurd rfl h⟩
    · obtain ⟨ct, h1, h2⟩ := hu.rejects sy hs _ (hpay sy)
      exact ⟨ct, h1, fun h => absurd h hs, fun _ => h2⟩
  obtain ⟨c0, f0, g0, g0'⟩ := hct .lt
  obtain ⟨c1, f1, g1, g1'⟩ := hct .eq
  obtain ⟨c2, f2, g2, g2'⟩ := hct .gt
  simp only [reduceCtorEq, if_false, if_true] at f0 f1 f2
  have q0 := at'_ok.2 (hp.keys .lt 0 (by norm_num))
  have q1 := at'_ok.2 (hp.keys .eq 0 (by norm_num))
  have q2 := at'_ok.2 (hp.keys .gt 0 (by norm_num))
  simp only [Server.keys] at q0 q1 q2
  have hsend : s.sendEncryptedMasks W k = .ok (Arr3.shuffle ⟨c0, c1, c2⟩ k.sh1 k.sh2) := by
    unfold Server.sendEncryptedMasks
    simp only [a0, R.ok_bind, a1, Fld.neg_ofZ, b1, b3, q0, q1, q2, e1, f0, f1, b5, e1', f2]
  have hall : ∀ v ∈ [c0, c1, c2], v = co ∨ W.unseal c.key v = .ok 0 := by
    intro v hv
    simp only [List.mem_cons, List.not_mem_nil, or_false] at hv
    rcases hv with rfl | rfl | rfl
    · by_cases h : (.lt : Ordering) = sy0
      exacts [.inl (g0 h), .inr (g0' h)]
    · by_cases h : (.eq : Ordering) = sy0
      exacts [.inl (g1 h), .inr (g1' h)]
    · by_cases h : (.gt : Ordering) = sy0
      exacts [.inl (g2 h), .inr (g2' h)]
  have hex : co ∈ [c0, c1, c2] := by
    rcases sy0 with _ | _ | _
    exacts [by rw [g0 rfl]; simp, by rw [g1 rfl]; simp, by rw [g2 rfl]; simp]
  refine ⟨_, hsend, ?_⟩
  rcases hoo with hoo | hoo
  · right
    have hsearch : searchMask W c.key (Arr3.toList (Arr3.shuffle ⟨c0, c1, c2⟩ k.sh1 k.sh2)) =
        .ok (some (if sy0 = .gt then e' else e)) := by
      refine searchMask_ok hne _ (fun v hv => ?_) ⟨co, (mem_shuffle _ _ _ _).2 hex, hoo⟩
      rcases hall v ((mem_shuffle _ _ _ _).1 hv) with rfl | h
      exacts [.inr hoo, .inl h]
    obtain ⟨T, t1, t2⟩ := randomPoint_rep (C := CC) hcc un
    have hT : Live W.env T.curve :=
      (isFinite_iff.2 ⟨_, fun h => hun (smulG_eq_zero_iff.1 h), t2⟩ : IsFinite W.env CC T).live
    have hset : ∃ P', T.setEncodedX W.env CC (if sy0 = .gt then e' else e) = .ok P' ∧
        Rep W.env P' (((if sy0 = .gt then k.rnd else z : ℤ) : F) • (G : Grp CC)) := by
      split_ifs
      exacts [e4' T hT, e4 T hT]
    obtain ⟨P', p1, p2⟩ := hset
    obtain ⟨r, r1, r2⟩ := add_rep hr p2
    refine ⟨{ c with result := r }, ?_, rfl, r2, ?_⟩
    · unfold Client.unmaskResult
      simp only [hsearch, R.ok_bind, Option.isSome_some, cassert, t1, p1, r1]
      simp
    · intro e'' h
      rw [huniq e'' h]
      rw [hk] at hoo
      exact ⟨co, hco, hoo⟩
  · left
    have hsearch : searchMask W c.key (Arr3.toList (Arr3.shuffle ⟨c0, c1, c2⟩ k.sh1 k.sh2)) = .ok none := by
      refine searchMask_none _ fun v hv => ?_
      rcases hall v ((mem_shuffle _ _ _ _).1 hv) with rfl | h
      exacts [hoo, h]
    constructor
    · unfold Client.unmaskResult
      simp only [hsearch, R.ok_bind]
      exact stop_eq (α := Client) W.env
    · intro h
      obtain ⟨ct, h1, h2⟩ := h _ (hpay sy0)
      rw [hco] at h1
      obtain rfl := Except.ok.inj h1
      rw [hk] at hoo
      rw [show W.unseal (K sy0 0) co = _ from hoo] at h2
      exact hne (Except.ok.inj h2).symm

/-! ## What an evaluation does not depend on -/

theorem pushKeys_frame {env : Env} (ks : List BitCoins) (s : Server) (ots : Sndr) (a b : InputL) :
    pushKeys env { s with ots := ots, Sl0 := a, Sl1 := b } ks =
      (pushKeys env s ks).map fun t => { t with ots := ots, Sl0 := a, Sl1 := b } := by
  induction ks generalizing s with
  | nil => rfl
  | cons k ks ih =>
    rw [pushKeys, pushKeys]
    cases Curve.getRandomScalar env CC s.curve k.ok with
    | error e => rfl
    | ok o =>
      rw [R.ok_bind, R.ok_bind]
      exact ih { s with k_lt := s.k_lt ++ [k.lt], k_eq := s.k_eq ++ [k.eq], k_gt := s.k_gt ++ [k.gt], ok := s.ok ++ [o] }

theorem bind_map {α β γ : Type} (x : R α) (f : α → β) (g : β → R γ) : (x.map f >>= g) = x >>= fun a => g (f a) := by
  cases x <;> rfl

theorem bind_congr' {α β : Type} (x : R α) (f g : α → R β) (h : ∀ a, x = .ok a → f a = g a) : (x >>= f) = x >>= g := by
  cases x with
  | error => rfl
  | ok a => exact h a rfl

theorem map_bind' {α β γ : Type} (x : R α) (f : α → R β) (g : β → γ) : (x >>= f).map g = x >>= fun a => (f a).map g := by
  cases x <;> rfl

theorem prepareTop_frame {env : Env} (s : Server) (ots : Sndr) (a b : InputL) :
    prepareTop env { s with ots := ots, Sl0 := a, Sl1 := b } = (prepareTop env s).map fun t => { t with ots := ots } := by
  unfold prepareTop
  cases s.theta.toNat.testBit 15
  · simp only [Bool.false_eq_true, if_false, map_bind']
    rfl
  · simp only [if_true, map_bind']
    rfl

theorem tableLoop_frame {W : World} (n : ℕ) (s : Server) (ots : Sndr) :
    tableLoop W n { s with ots := ots } = (tableLoop W n s).map fun t => { t with ots := ots } := by
  induction n generalizing s with
  | zero => rfl
  | succ n ih =>
    rw [tableLoop, tableLoop]
    simp only [map_bind']
    refine bind_congr' _ _ _ fun x hx => ?_
    refine bind_congr' _ _ _ fun y hy => ?_
    refine bind_congr' _ _ _ fun z hz => ?_
    exact ih { s with Si0 := y, Si1 := z }

theorem prepare_frame {W : World} (s : Server) (ots : Sndr) (a b : InputL) (k : PrepCoins) :
    Server.prepare W { s with ots := ots, Sl0 := a, Sl1 := b } k = (s.prepare W k).map fun t => { t with ots := ots } := by
  unfold Server.prepare
  simp only [map_bind']
  refine bind_congr' _ _ _ fun x hx => ?_
  refine bind_congr' _ _ _ fun y hy => ?_
  have := pushKeys_frame (env := W.env) k.bits { s with kopprf := x, r := y } ots a b
  simp only at this
  rw [this, bind_map]
  refine bind_congr' _ _ _ fun z hz => ?_
  rw [prepareTop_frame, bind_map]
  refine bind_congr' _ _ _ fun t ht => ?_
  exact tableLoop_frame _ _ _

theorem encMsgsZ_frame {env : Env} {s s' : Sndr} (h : s'.dme = s.dme) (pk : PKey) (m0 m1 : ℤ) (k0 k1 : EncCoins) :
    encMsgsZ env s' pk m0 m1 k0 k1 = encMsgsZ env s pk m0 m1 k0 k1 := by
  rcases s with ⟨d, c⟩
  rcases s' with ⟨d', c'⟩
  obtain rfl : d' = d := h
  rfl

theorem runOTRound_frame {W : World} (s : Server) {ots : Sndr} (h : ots.dme = s.ots.dme) (round : ℤ) (pk : PKey)
    (k : RoundCoins) :
    Server.runOTRound W { s with ots := ots } round pk k = s.runOTRound W round pk k := by
  unfold Server.runOTRound
  split_ifs
  · simp only [encMsgsZ_frame h]
  · simp only [encMsgsZ_frame h]

theorem start_frame {W : World} (c : Client) {otr : Recv} (h : otr.dme = c.otr.dme) (round coin : ℤ) :
    Client.start W { c with otr := otr } round coin = c.start W round coin := by
  rcases c with ⟨cu, ⟨d, sk, b⟩, x, r, k⟩
  rcases otr with ⟨d', sk', b'⟩
  obtain rfl : d' = d := h
  cases x <;> rfl

theorem runRounds_frame {W : World} (d : ℕ → RoundDraws) (n : ℕ) (s : Server) {ots : Sndr} (h : ots.dme = s.ots.dme)
    (c : Client) {otr : Recv} (h' : otr.dme = c.otr.dme) :
    runRounds W d (n + 1) { s with ots := ots } { c with otr := otr } = runRounds W d (n + 1) s c := by
  rw [runRounds, runRounds, start_frame c h']
  simp only [runOTRound_frame s h]

end Opprf
end Verif
