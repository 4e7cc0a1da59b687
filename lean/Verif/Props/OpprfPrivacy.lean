import Verif.Props.Opprf

/-!
# C69: what the OPPRF client's keys tell about its input
-/

namespace Verif
namespace Opprf

open Dme Ot Aes EC

/-- the public keys a client sends in the rounds `n` down to 1 when it is answered `r i` in round `i`, until a call of it does
not return -/
def sent (W : World) (r : ℕ → OtCtxts) (k : ℕ → ℤ) : ℕ → Client → List PKey
  | 0, _ => []
  | n + 1, c => match c.start W (n + 1 : ℕ) (k (n + 1)) with
    | .error _ => []
    | .ok (pk, c) => pk :: match c.finish W (n + 1 : ℕ) (r (n + 1)) with
      | .error _ => []
      | .ok c => sent W r k n c

/-- a client with input `x` and the receiver state of instance `d` -/
def Holds (d : Inst) (x : Msg) (c : Client) : Prop := c.otr.dme = d ∧ c.x = some x

theorem finish_holds {W : World} {c c' : Client} {n : ℤ} {m : OtCtxts} {d : Inst} {x : Msg} (h : Holds d x c)
    (e : c.finish W n m = .ok c') : Holds d x c' := by
  have tail : ∀ key : ℤ, (do
      let p ← decryptMsg W.env c.otr m.cprf
      let result ← c.result.add W.env CC p
      .ok { c with key := key, result := result }) = .ok c' → Holds d x c' := by
    intro key e
    obtain ⟨p, -, e⟩ := R.bind_eq_ok.1 e
    obtain ⟨q, -, e⟩ := R.bind_eq_ok.1 e
    obtain rfl := Except.ok.inj e
    exact h
  unfold Client.finish at e
  split_ifs at e
  · obtain ⟨key, -, e⟩ := R.bind_eq_ok.1 e
    exact tail key e
  · obtain ⟨f, -, e⟩ := R.bind_eq_ok.1 e
    obtain ⟨-, -, e⟩ := R.bind_eq_ok.1 e
    rcases f with _ | f
    · cases e
    · exact tail f e

/-- the key sent in round `n - i` -/
theorem sent_get {W : World} {r : ℕ → OtCtxts} {k : ℕ → ℤ} {d : Inst} {x : Msg} {n : ℕ} (hn : n ≤ 16) {c : Client}
    (h : Holds d x c) {i : ℕ} {pk : PKey} (e : (sent W r k n c)[i]? = some pk) :
    i < n ∧ ∃ kp, keyGen W.env d (branch (x.toNat.testBit (n - 1 - i))) (k (n - i)) = .ok kp ∧ kp.pk = pk := by
  induction n generalizing c i with
  | zero => simp [sent] at e
  | succ n ih =>
    rw [sent] at e
    cases hs : c.start W (n + 1 : ℕ) (k (n + 1)) with
    | error f => rw [hs] at e; simp at e
    | ok v =>
      obtain ⟨pk', c'⟩ := v
      rw [hs] at e
      simp only at e
      simp only [Client.start, h.2] at hs
      rw [if_neg (by push_cast; omega)] at hs
      obtain ⟨⟨pk'', o⟩, f1, f2⟩ := R.bind_eq_ok.1 hs
      obtain ⟨rfl, rfl⟩ := Prod.mk.inj (Except.ok.inj f2)
      rw [selectMsg] at f1
      obtain ⟨kp, f3, f4⟩ := R.bind_eq_ok.1 f1
      obtain ⟨rfl, rfl⟩ := Prod.mk.inj (Except.ok.inj f4)
      rw [h.1] at f3
      rcases i with _ | i
      · simp only [List.getElem?_cons_zero, Option.some.injEq] at e
        subst e
        refine ⟨Nat.succ_pos _, kp, ?_, rfl⟩
        simpa using f3
      · rw [List.getElem?_cons_succ] at e
        split at e
        · simp at e
        · rename_i c'' hf
          obtain ⟨a1, kp', a2, a3⟩ := ih (by omega) (finish_holds (c := _) (d := d) (x := x) (by exact ⟨h.1, rfl⟩) hf) e
          refine ⟨by omega, kp', ?_, a3⟩
          rwa [show n + 1 - 1 - (i + 1) = n - 1 - i by omega, show n + 1 - (i + 1) = n - i by omega]

theorem ctor_holds (a : Option Addr) (crs : Crs) (x : Msg) :
    Holds (ctorCrs a crs) x ((Client.ctor a crs).setMessage x) := ⟨rfl, rfl⟩

/-- the CRS that a client copies -/
theorem ctorCrs_rep {env : Env} {d : Inst} {g h : Branch → Grp CC} (r : RepCrs env d.crs g h) {a : Option Addr}
    (hl : Live env a) : RepCrs env (ctorCrs a d.crs).crs g h := by
  have hv : ∀ {P : Pt} {A : Grp CC}, Rep env P A → OnCurve CC P := fun hr => hr.valid.imp id fun h => ⟨h.1, h.2, h.3, h.4⟩
  obtain ⟨a1, b1⟩ := rep_setCurve (env := env) (hv (r.g .b0)) hl
  obtain ⟨a2, b2⟩ := rep_setCurve (env := env) (hv (r.g .b1)) hl
  obtain ⟨a3, b3⟩ := rep_setCurve (env := env) (hv (r.h .b0)) hl
  obtain ⟨a4, b4⟩ := rep_setCurve (env := env) (hv (r.h .b1)) hl
  exact r.congr ⟨b1, b2, b3, b4⟩ ⟨a1, a2, a3, a4⟩

/-- `y` to the branch -/
def expo (y : F) (b : Bool) : F := if b then y else 1

/-- C69 (part): the client's CRS comes from a decryption-mode instance with non-zero trapdoor.  For all inputs `x` and `x'` there
is a bijection of the client's draws under which the keys it sends are the same, whatever it is answered (even if the
answers differ), for as long as both runs go on.
Missing: the other mode, where the keys determine the input, and how long a run goes on, which depends on the input (both below). -/
theorem C69_input_hidden_partial (W : World) {c : Option Addr} (hl : LiveGen W.env c) {k : DecCoins} (hy : Coin k.y) (hy0 : k.y ≠ 0)
    {a : Option Addr} (hla : Live W.env a) (x x' : Msg) :
    Ends (ctorDec W.env c k) fun d => ∃ φ : (ℕ → ℤ) → ℕ → ℤ,
      Set.BijOn φ {q | ∀ i, Coin (q i)} {q | ∀ i, Coin (q i)} ∧ ∀ (q : ℕ → ℤ) (r r' : ℕ → OtCtxts) (i : ℕ) (pk pk' : PKey),
        (sent W r q 16 ((Client.ctor a d.crs).setMessage x))[i]? = some pk →
        (sent W r' (φ q) 16 ((Client.ctor a d.crs).setMessage x'))[i]? = some pk' →
        pk.beq W.env pk' = .ok true := by
  obtain ⟨d, e1, -, -, r⟩ := ctorDec_rep (env := W.env) hl k
  have hy' : (k.y : F) ≠ 0 := by rw [Ne, coin_zero_iff hy]; exact hy0
  have rc := ctorCrs_rep r hla
  set f : ℕ → F := fun i => expo (k.y : F) (x.toNat.testBit (i - 1)) / expo (k.y : F) (x'.toNat.testBit (i - 1)) with hf
  have hf0 : ∀ i, f i ≠ 0 := by
    intro i
    simp only [hf, expo]
    split_ifs <;> simp [hy']
  refine ⟨d, e1, fun q i => (((q i : F) * f i).val : ℤ), ⟨?_, ?_, ?_⟩, ?_⟩
  · intro q _ i; exact coin_val _
  · intro q hq q' hq' h
    funext i
    have h := congrFun h i
    simp only at h
    refine coin_cast_inj (hq i) (hq' i) (mul_right_cancel₀ (hf0 i) ?_)
    rw [← coin_val_cast ((q i : F) * f i), h, coin_val_cast]
  · intro z hz
    refine ⟨fun i => (((z i : F) / f i).val : ℤ), fun i => coin_val _, ?_⟩
    funext i
    simp only
    apply coin_cast_inj (coin_val _) (hz i)
    rw [coin_val_cast, coin_val_cast, div_mul_cancel₀ _ (hf0 i)]
  · intro q r1 r2 i pk pk' h1 h2
    obtain ⟨hi, kp, f1, rfl⟩ := sent_get le_rfl (ctor_holds a d.crs x) h1
    obtain ⟨-, kp', f2, rfl⟩ := sent_get le_rfl (ctor_holds a d.crs x') h2
    obtain ⟨pg, ph, g1, s1, s2⟩ := keyGen_rep (d := ctorCrs a d.crs) hla rc (branch (x.toNat.testBit (16 - 1 - i))) (q (16 - i))
    obtain ⟨pg', ph', g2, s1', s2'⟩ := keyGen_rep (d := ctorCrs a d.crs) hla rc (branch (x'.toNat.testBit (16 - 1 - i)))
      ((((q (16 - i) : ℤ) : F) * f (16 - i)).val : ℤ)
    obtain rfl := Except.ok.inj (g1.symm.trans f1)
    obtain rfl := Except.ok.inj (g2.symm.trans f2)
    rw [coin_val_cast] at s1' s2'
    have hexp : f (16 - i) = expo (k.y : F) (x.toNat.testBit (16 - 1 - i)) / expo (k.y : F) (x'.toNat.testBit (16 - 1 - i)) := by
      simp only [hf, show 16 - i - 1 = 16 - 1 - i by omega]
    have hmul : f (16 - i) * expo (k.y : F) (x'.toNat.testBit (16 - 1 - i)) = expo (k.y : F) (x.toNat.testBit (16 - 1 - i)) := by
      rw [hexp, div_mul_cancel₀]
      simp only [expo]
      split_ifs <;> simp [hy']
    simp only [PKey.beq, andR, rep_beq s1 s1', rep_beq s2 s2', R.ok_bind]
    generalize f (16 - i) = z at hmul ⊢
    generalize ((q (16 - i) : ℤ) : F) = u
    generalize (k.y : F) = y at *
    generalize (k.g0 : F) • (G : Grp CC) = A
    clear hexp g1 g2 f1 f2 h1 h2 s1 s2 s1' s2'
    cases hx : x.toNat.testBit (16 - 1 - i) <;> cases hx' : x'.toNat.testBit (16 - 1 - i) <;>
      simp only [hx, hx', expo, branch, if_true, if_false, mul_one, Bool.false_eq_true] at hmul ⊢
    · rw [hmul, mul_one]; simp
    · have h3 : u • A = (u * z) • y • A := by rw [← mul_smul, mul_assoc, hmul, mul_one]
      have h4 : ∀ e : F, u • e • A = (u * z) • e • y • A := by
        intro e
        rw [smul_comm (u * z) e, ← h3, smul_comm]
      simp [← h3, ← h4]
    · have h4 : ∀ e : F, u • e • y • A = (u * y) • e • A := by
        intro e; module
      rw [hmul, h4, mul_smul]; simp
    · have : z = 1 := mul_right_cancel₀ hy' (by rw [hmul, one_mul])
      rw [this, mul_one]; simp

/-- C69 is false in messy mode: with different trapdoors and finite bases, the keys of clients that draw no zero determine the
input, bit by bit. -/
theorem C69_messy_counterexample (W : World) {c : Option Addr} (hl : LiveGen W.env c) {k : MessyCoins}
    (h0 : Coin k.e0) (h1 : Coin k.e1) (h2 : Coin k.g0) (h3 : Coin k.g1) (he : k.e0 ≠ k.e1) (hg0 : k.g0 ≠ 0)
    (hg1 : k.g1 ≠ 0) {a : Option Addr} (hla : Live W.env a) (x x' : Msg) :
    Ends (ctorMessy W.env c k) fun d => ∀ q q' : ℕ → ℤ, (∀ i, Coin (q i) ∧ q i ≠ 0) → (∀ i, Coin (q' i)) → ∀ (r r' : ℕ → OtCtxts) (i : ℕ) (pk pk' : PKey),
        (sent W r q 16 ((Client.ctor a d.crs).setMessage x))[i]? = some pk →
        (sent W r' q' 16 ((Client.ctor a d.crs).setMessage x'))[i]? = some pk' →
        pk.beq W.env pk' = .ok true → x.toNat.testBit (15 - i) = x'.toNat.testBit (15 - i) := by
  obtain ⟨d, e1, -, -, -, r⟩ := ctorMessy_rep (env := W.env) hl k
  have rc := ctorCrs_rep r hla
  refine ⟨d, e1, fun q q' hq hq' r1 r2 i pk pk' m1 m2 hb => ?_⟩
  obtain ⟨hi, kp, f1, rfl⟩ := sent_get le_rfl (ctor_holds a d.crs x) m1
  obtain ⟨-, kp', f2, rfl⟩ := sent_get le_rfl (ctor_holds a d.crs x') m2
  obtain ⟨pg, ph, g1, s1, s2⟩ := keyGen_rep (d := ctorCrs a d.crs) hla rc (branch (x.toNat.testBit (16 - 1 - i))) (q (16 - i))
  obtain ⟨pg', ph', g2, s1', s2'⟩ := keyGen_rep (d := ctorCrs a d.crs) hla rc (branch (x'.toNat.testBit (16 - 1 - i))) (q' (16 - i))
  obtain rfl := Except.ok.inj (g1.symm.trans f1)
  obtain rfl := Except.ok.inj (g2.symm.trans f2)
  simp only [PKey.beq, andR, rep_beq s1 s1', rep_beq s2 s2', R.ok_bind] at hb
  split_ifs at hb with hc
  · rw [decide_eq_true_eq] at hc
    rw [Except.ok.injEq, decide_eq_true_eq] at hb
    have hq0 : ((q (16 - i) : ℤ) : F) ≠ 0 := by rw [Ne, coin_zero_iff (hq _).1]; exact (hq _).2
    have hne0 : (k.g0 : F) • (G : Grp CC) ≠ 0 := by
      rw [Ne, smul_eq_zero, coin_zero_iff h2]; exact fun h => h.elim hg0 G_ne_zero
    have hne1 : (k.g1 : F) • (G : Grp CC) ≠ 0 := by
      rw [Ne, smul_eq_zero, coin_zero_iff h3]; exact fun h => h.elim hg1 G_ne_zero
    have he' : (k.e0 : F) - (k.e1 : F) ≠ 0 := fun h => he (coin_cast_inj h0 h1 (sub_eq_zero.1 h))
    rw [show 15 - i = 16 - 1 - i from rfl]
    generalize ((q (16 - i) : ℤ) : F) = u at *
    generalize ((q' (16 - i) : ℤ) : F) = v at *
    generalize (k.g0 : F) • (G : Grp CC) = A at *
    generalize (k.g1 : F) • (G : Grp CC) = B at *
    generalize (k.e0 : F) = y0 at *
    generalize (k.e1 : F) = y1 at *
    have key : ∀ {P Q : Grp CC} {w z : F}, P ≠ 0 → w - z ≠ 0 → u • P = v • Q → u • w • P = v • z • Q → False := by
      intro P Q w z hP hw a1 a2
      have : (u * (w - z)) • P = 0 := by
        calc (u * (w - z)) • P = u • w • P - z • u • P := by module
          _ = 0 := by rw [a2, a1]; module
      rw [smul_eq_zero] at this
      rcases this with h | h
      · exact (mul_ne_zero hq0 hw) h
      · exact hP h
    cases hx : x.toNat.testBit (16 - 1 - i) <;> cases hx' : x'.toNat.testBit (16 - 1 - i) <;>
      simp only [hx, hx', branch, if_true, if_false, Bool.false_eq_true, Bool.true_eq_false] at hb hc ⊢
    · exact (key hne0 he' hc hb).elim
    · exact (key hne1 (by rw [← neg_sub]; exact neg_ne_zero.2 he') hc hb).elim
  · cases hb

/-- C69 is false for a server that watches whether the client goes on: if every entry it holds for branch 0 of a round opens with
the client's key and none for branch 1 does, the client's call returns exactly if the bit of its input is 0 (and the
draws are not degenerate). -/
theorem C69_abort_counterexample (W : World) {s : Server} {c : Client} (hR : Ready W.env ⟨c.otr, s.ots⟩) {x : Msg}
    (hx : c.x = some x) (hr : Valid W.env CC c.result) {n : ℕ} (hn : n < 15) {m0 m1 k : ℤ} {P Q : Pt}
    (hP : Valid W.env CC P) (hQ : Valid W.env CC Q) (h0 : s.Si0[n + 1]? = some ⟨m0, m0, m0, P⟩)
    (h1 : s.Si1[n + 1]? = some ⟨m1, m1, m1, Q⟩) (hm : ∀ m ∈ [m0, m1], 0 ≤ m ∧ (m + 1) * 1024 ≤ CC.prime ∧ Encodable m)
    (hk : k ≠ 0) (ho : W.unseal c.key m0 = .ok k) (hrej : W.unseal c.key m1 = .ok 0) (coin : ℤ) (kc : RoundCoins) :
    Ends (c.start W (n + 1 : ℕ) coin) fun a => Ends (s.runOTRound W (n + 1 : ℕ) a.1 kc) fun b =>
      FineMsg a.2 b.1 (x.toNat.testBit n) →
        ((∃ c', a.2.finish W (n + 1 : ℕ) b.1 = .ok c') ↔ x.toNat.testBit n = false) := by
  obtain ⟨pk, rc, e1, e2, hpt, hz⟩ := ot_round hR (branch (x.toNat.testBit n)) coin
  refine ⟨(pk, { c with otr := rc }), start_ok (c := c) hx (by omega) e1, ?_⟩
  obtain ⟨A, hA⟩ := valid_iff.1 hP
  obtain ⟨B, hB⟩ := valid_iff.1 hQ
  obtain ⟨Rn, hRn⟩ := valid_iff.1 hr
  obtain ⟨c0, f0, g0, d0⟩ := hz s.ots rfl m0 m1 kc.lt0 kc.lt1
  obtain ⟨c1, f1, g1, d1⟩ := hz { s.ots with c := c0 } rfl m0 m1 kc.eq0 kc.eq1
  obtain ⟨c2, f2, g2, d2⟩ := hz { s.ots with c := c1 } rfl m0 m1 kc.gt0 kc.gt1
  obtain ⟨p, f3, g3, d3⟩ := hpt { s.ots with c := c2 } rfl P Q _ _ hA hB kc.prf0 kc.prf1
  refine ⟨(⟨Arr3.shuffle ⟨c0, c1, c2⟩ kc.sh1 kc.sh2, p⟩, { s with ots := { s.ots with c := p } }), ?_, ?_⟩
  · unfold Server.runOTRound
    rw [if_neg (by omega)]
    have a0 : atShort s.Si0 ((n + 1 : ℕ) : ℤ) = .ok ⟨m0, m0, m0, P⟩ := by
      rw [atShort, if_neg (by omega), Int.toNat_natCast, at'_ok]; exact h0
    have a1 : atShort s.Si1 ((n + 1 : ℕ) : ℤ) = .ok ⟨m1, m1, m1, Q⟩ := by
      rw [atShort, if_neg (by omega), Int.toNat_natCast, at'_ok]; exact h1
    simp only [a0, a1, R.ok_bind, f0, f1, f2, f3]
  · intro hfine
    have hmem : ∀ v, v ∈ [c0, c1, c2] → decryptMsgDecode W.env rc v =
        .ok (pick (branch (x.toNat.testBit n)) m0 m1) := by
      intro v hv
      obtain ⟨q1, q2, q3⟩ := hm (pick (branch (x.toNat.testBit n)) m0 m1) (by
        rw [pick_branch]; split_ifs <;> simp)
      have hf : v ≠ [] → NonDegenerate rc v (branch (x.toNat.testBit n)) :=
        hfine v (List.mem_cons_of_mem _ ((mem_shuffle _ _ _ _).2 hv))
      simp only [List.mem_cons, List.not_mem_nil, or_false] at hv
      rcases hv with rfl | rfl | rfl
      · exact d0 q1 q2 q3 (hf g0)
      · exact d1 q1 q2 q3 (hf g1)
      · exact d2 q1 q2 q3 (hf g2)
    have hmem' : ∀ v ∈ (Arr3.shuffle ⟨c0, c1, c2⟩ kc.sh1 kc.sh2).toList, decryptMsgDecode W.env rc v =
        .ok (pick (branch (x.toNat.testBit n)) m0 m1) := fun v hv => hmem v ((mem_shuffle _ _ _ _).1 hv)
    obtain ⟨S, hS1, hS2⟩ := d3 (hfine p (by simp) g3)
    obtain ⟨res, -, ht⟩ := finish_tail (c := { c with otr := rc }) hRn hS1 hS2 k
    have hne : ¬ ((n + 1 : ℕ) : ℤ) = 16 := by omega
    rw [pick_branch] at hmem'
    cases hb : x.toNat.testBit n
    · simp only [hb, Bool.false_eq_true, if_false] at hmem'
      have hs : searchKey W { c with otr := rc } (Arr3.shuffle ⟨c0, c1, c2⟩ kc.sh1 kc.sh2).toList = .ok (some k) := by
        refine searchKey_ok hk _ (fun v hv => ⟨m0, hmem' v hv, .inr ho⟩) ⟨c0, ?_, m0, ?_, ho⟩
        · exact (mem_shuffle _ _ _ _).2 (by simp [Arr3.toList])
        · exact hmem' _ ((mem_shuffle _ _ _ _).2 (by simp [Arr3.toList]))
      simp only [iff_true]
      refine ⟨{ c with otr := rc, key := k, result := res }, ?_⟩
      unfold Client.finish
      rw [if_neg hne]
      simp only [hs, R.ok_bind]
      rw [cassert_true (r := .ok (some k).isSome) rfl, R.ok_bind]
      exact ht
    · simp only [hb, if_true] at hmem'
      have hs : searchKey W { c with otr := rc } (Arr3.shuffle ⟨c0, c1, c2⟩ kc.sh1 kc.sh2).toList = .ok none :=
        searchKey_none _ fun v hv => ⟨m1, hmem' v hv, hrej⟩
      simp only [Bool.true_eq_false, iff_false]
      rintro ⟨c', h⟩
      unfold Client.finish at h
      rw [if_neg hne] at h
      simp only [hs, R.ok_bind] at h
      obtain ⟨-, -, h⟩ := R.bind_eq_ok.1 h
      cases h

/-- draws and inputs meeting the hypotheses on the CRS -/
example : Coin 5 ∧ Coin 7 ∧ (5 : ℤ) ≠ 7 ∧ Coin 2 ∧ Coin 3 ∧ (2 : ℤ) ≠ 0 := by unfold Coin; decide

end Opprf
end Verif
