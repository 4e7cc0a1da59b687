import Verif.Props.OpprfSetup
import Verif.Props.OpprfSample

/-!
# C71: what one answer of the OPPRF server tells
-/

namespace Verif
namespace Opprf

open Dme Ot Aes EC

/-- the same points -/
def SameCt (c c' : Ctxt) : Prop := SamePoint c.u c'.u ∧ SamePoint c.mv c'.mv

/-- the same answer of the server -/
def SameMsg (m m' : OtCtxts) : Prop :=
  List.Forall₂ SameCt m.ctxt.e0 m'.ctxt.e0 ∧ List.Forall₂ SameCt m.ctxt.e1 m'.ctxt.e1 ∧
    List.Forall₂ SameCt m.ctxt.e2 m'.ctxt.e2 ∧ List.Forall₂ SameCt m.cprf m'.cprf

def encCoins : Set EncCoins := {k | Coin k.s ∧ Coin k.t}

/-- the draws of one answer -/
def roundCoins : Set RoundCoins :=
  {k | ∀ e ∈ [k.lt0, k.lt1, k.eq0, k.eq1, k.gt0, k.gt1, k.prf0, k.prf1], e ∈ encCoins}

/-- the servers hold the same entry for branch `b` in a round -/
def SameEntry (env : Env) (b : Branch) (s s' : Server) (round : ℤ) : Prop :=
  (round = 16 → pick b s.Sl0 s.Sl1 = pick b s'.Sl0 s'.Sl1 ∧
    ∀ P ∈ [s.Sl0.prf, s.Sl1.prf, s'.Sl0.prf, s'.Sl1.prf], Valid env CC P) ∧
  (round ≠ 16 → 0 ≤ round ∧ ∃ e0 e1 e0' e1', s.Si0[round.toNat]? = some e0 ∧ s.Si1[round.toNat]? = some e1 ∧
    s'.Si0[round.toNat]? = some e0' ∧ s'.Si1[round.toNat]? = some e1' ∧ pick b e0 e1 = pick b e0' e1' ∧
    ∀ P ∈ [e0.prf, e1.prf, e0'.prf, e1'.prf], Valid env CC P)

theorem samePoint_symm {P Q : Pt} (h : SamePoint P Q) : SamePoint Q P := by
  rcases h with ⟨h1, h2⟩ | ⟨h1, h2, h3, h4⟩
  · exact .inl ⟨h2, h1⟩
  · exact .inr ⟨h2, h1, h3.symm, h4.symm⟩

theorem samePoint_trans {P Q S : Pt} (h : SamePoint P Q) (h' : SamePoint Q S) : SamePoint P S := by
  rcases h with ⟨h1, h2⟩ | ⟨h1, h2, h3, h4⟩ <;> rcases h' with ⟨a1, a2⟩ | ⟨a1, a2, a3, a4⟩
  · exact .inl ⟨h1, a2⟩
  · rw [h2] at a1; cases a1
  · rw [h2] at a1; cases a1
  · exact .inr ⟨h1, a2, h3.trans a3, h4.trans a4⟩

theorem sameCt_refl (c : Ctxt) : SameCt c c := ⟨samePoint_refl _, samePoint_refl _⟩

/-- the coins that turn an encryption of `m` into one of `m'` on a branch that hides -/
theorem hides_bij {env : Env} {d : Inst} (hl : Live env d.curve) {g h : Branch → Grp CC} (hc : RepCrs env d.crs g h)
    {pk : PKey} (hpk : ValidKey env pk) {b : Branch} (hh : Hides env d pk b) {m m' : Pt} (hm : Valid env CC m) (hm' : Valid env CC m') :
    ∃ φ : EncCoins → EncCoins, Set.BijOn φ encCoins encCoins ∧ ∀ k ∈ encCoins, ∃ c c',
      enc env d pk b m k.s k.t = .ok c ∧ enc env d pk b m' (φ k).s (φ k).t = .ok c' ∧ SameCt c c' := by
  obtain ⟨A, hA⟩ := valid_iff.1 hpk.g
  obtain ⟨B, hB⟩ := valid_iff.1 hpk.h
  have main : ∀ {m m' : Pt}, Valid env CC m → Valid env CC m' → ∀ k : EncCoins, ∃ k' ∈ encCoins, ∃ c c',
      enc env d pk b m k.s k.t = .ok c ∧ enc env d pk b m' k'.s k'.t = .ok c' ∧ SameCt c c' := by
    intro m m' hm hm' k
    obtain ⟨M, hM⟩ := valid_iff.1 hm
    obtain ⟨c, v, f, ru, -, -, rm⟩ := enc_rep (pk := pk) hl hc hA hB hM b k.s k.t
    obtain ⟨st, ⟨⟨h1, h2⟩, c', e1, e2, e3⟩, -⟩ := hh c.u c.mv m' ru.valid rm.valid hm'
    exact ⟨⟨st.1, st.2⟩, ⟨h1, h2⟩, c, c', f, e1, samePoint_symm e2, samePoint_symm e3⟩
  choose φ h1 h2 using main hm hm'
  have uniq : ∀ {m : Pt}, Valid env CC m → ∀ {k k' : EncCoins}, k ∈ encCoins → k' ∈ encCoins → ∀ {c c' : Ctxt},
      enc env d pk b m k.s k.t = .ok c → enc env d pk b m k'.s k'.t = .ok c' → SameCt c c' → k = k' := by
    intro m hm k k' hk hk' c c' e e' hs
    obtain ⟨M, hM⟩ := valid_iff.1 hm
    obtain ⟨c2, v, f, ru, -, -, rm⟩ := enc_rep (pk := pk) hl hc hA hB hM b k'.s k'.t
    rw [e'] at f
    obtain rfl := Except.ok.inj f
    obtain ⟨st, -, hu⟩ := hh c'.u c'.mv m ru.valid rm.valid hm
    have a1 := hu (k.s, k.t) ⟨hk, c, e, hs⟩
    have a2 := hu (k'.s, k'.t) ⟨hk', c', e', sameCt_refl _⟩
    obtain ⟨a3, a4⟩ := Prod.mk.inj (a1.trans a2.symm)
    cases k; cases k'; simp only at a3 a4; subst a3 a4; rfl
  refine ⟨φ, ⟨fun k _ => h1 k, ?_, ?_⟩, fun k _ => h2 k⟩
  · intro k hk k' hk' he
    obtain ⟨c, c', e1, e2, e3⟩ := h2 k
    obtain ⟨c2, c2', e1', e2', e3'⟩ := h2 k'
    rw [← he, e2] at e2'
    obtain rfl := Except.ok.inj e2'
    exact uniq hm hk hk' e1 e1' ⟨samePoint_trans e3.1 (samePoint_symm e3'.1), samePoint_trans e3.2 (samePoint_symm e3'.2)⟩
  · intro k hk
    obtain ⟨k', hk', c, c', e1, e2, e3⟩ := main hm' hm k
    refine ⟨k', hk', ?_⟩
    obtain ⟨c2, c2', e1', e2', e3'⟩ := h2 k'
    rw [e2] at e1'
    obtain rfl := Except.ok.inj e1'
    exact uniq hm' (h1 k') hk e2' e1 ⟨samePoint_symm (samePoint_trans e3.1 e3'.1), samePoint_symm (samePoint_trans e3.2 e3'.2)⟩

/-- draws for the two branches -/
def pairCoins : Set (EncCoins × EncCoins) := {k | k.1 ∈ encCoins ∧ k.2 ∈ encCoins}

/-- one oblivious transfer whose visible messages agree -/
theorem pair_bij {env : Env} {d : Inst} (hl : Live env d.curve) {g h : Branch → Grp CC} (hc : RepCrs env d.crs g h)
    {pk : PKey} (hpk : ValidKey env pk) {b : Branch} (hh : Hides env d pk b) {m0 m1 m0' m1' : Pt}
    (hm : ∀ P ∈ [m0, m1, m0', m1'], Valid env CC P) (heq : pick b.other m0 m1 = pick b.other m0' m1') :
    ∃ φ : EncCoins × EncCoins → EncCoins × EncCoins, Set.BijOn φ pairCoins pairCoins ∧ ∀ k ∈ pairCoins, ∀ s s' : Sndr,
      s.dme = d → s'.dme = d → ∃ c c', encMsgs env s pk m0 m1 k.1 k.2 = .ok (c, { s with c := c }) ∧
        encMsgs env s' pk m0' m1' (φ k).1 (φ k).2 = .ok (c', { s' with c := c' }) ∧ List.Forall₂ SameCt c c' := by
  obtain ⟨A, hA⟩ := valid_iff.1 hpk.g
  obtain ⟨B, hB⟩ := valid_iff.1 hpk.h
  rcases b with _ | _
  · simp only [Branch.other, pick] at heq
    subst heq
    obtain ⟨φ, hb, h1⟩ := hides_bij hl hc hpk hh (hm m0 (by simp)) (hm m0' (by simp))
    refine ⟨fun k => (φ k.1, k.2), ⟨fun k hk => ⟨hb.mapsTo hk.1, hk.2⟩, ?_, ?_⟩, ?_⟩
    · intro k hk k' hk' he
      obtain ⟨a1, a2⟩ := Prod.mk.inj he
      exact Prod.ext (hb.injOn hk.1 hk'.1 a1) a2
    · intro k hk
      obtain ⟨k', hk', e⟩ := hb.surjOn hk.1
      exact ⟨(k', k.2), ⟨hk', hk.2⟩, by simp only [e]⟩
    · rintro k hk s s' rfl hs'
      obtain ⟨M, hM⟩ := valid_iff.1 (hm m1 (by simp))
      obtain ⟨c1, v, f, -⟩ := enc_rep (pk := pk) hl hc hA hB hM .b1 k.2.s k.2.t
      obtain ⟨c, c', e1, e2, e3⟩ := h1 k.1 hk.1
      exact ⟨[c, c1], [c', c1], by simp only [encMsgs, e1, f, R.ok_bind], by simp only [encMsgs, hs', e2, f, R.ok_bind],
        .cons e3 (.cons (sameCt_refl _) .nil)⟩
  · simp only [Branch.other, pick] at heq
    subst heq
    obtain ⟨φ, hb, h1⟩ := hides_bij hl hc hpk hh (hm m1 (by simp)) (hm m1' (by simp))
    refine ⟨fun k => (k.1, φ k.2), ⟨fun k hk => ⟨hk.1, hb.mapsTo hk.2⟩, ?_, ?_⟩, ?_⟩
    · intro k hk k' hk' he
      obtain ⟨a1, a2⟩ := Prod.mk.inj he
      exact Prod.ext a1 (hb.injOn hk.2 hk'.2 a2)
    · intro k hk
      obtain ⟨k', hk', e⟩ := hb.surjOn hk.2
      exact ⟨(k.1, k'), ⟨hk.1, hk'⟩, by simp only [e]⟩
    · rintro k hk s s' rfl hs'
      obtain ⟨M, hM⟩ := valid_iff.1 (hm m0 (by simp))
      obtain ⟨c1, v, f, -⟩ := enc_rep (pk := pk) hl hc hA hB hM .b0 k.1.s k.1.t
      obtain ⟨c, c', e1, e2, e3⟩ := h1 k.2 hk.2
      exact ⟨[c1, c], [c1, c'], by simp only [encMsgs, e1, f, R.ok_bind], by simp only [encMsgs, hs', e2, f, R.ok_bind],
        .cons (sameCt_refl _) (.cons e3 .nil)⟩

/-- the same for integers -/
theorem pair_bij_int {env : Env} {d : Inst} (hl : Live env d.curve) {g h : Branch → Grp CC} (hc : RepCrs env d.crs g h)
    {pk : PKey} (hpk : ValidKey env pk) {b : Branch} (hh : Hides env d pk b) {m0 m1 m0' m1' : ℤ}
    (heq : pick b.other m0 m1 = pick b.other m0' m1') :
    ∃ φ : EncCoins × EncCoins → EncCoins × EncCoins, Set.BijOn φ pairCoins pairCoins ∧ ∀ k ∈ pairCoins, ∀ s s' : Sndr,
      s.dme = d → s'.dme = d → ∃ c c', encMsgsZ env s pk m0 m1 k.1 k.2 = .ok (c, { s with c := c }) ∧
        encMsgsZ env s' pk m0' m1' (φ k).1 (φ k).2 = .ok (c', { s' with c := c' }) ∧ List.Forall₂ SameCt c c' := by
  have henc : ∀ m : ℤ, ∃ P, Valid env CC P ∧ encode env d m = .ok P := by
    intro m
    obtain ⟨-, P, -, -, -, p, -, -, q⟩ := encode_ok hl m
    exact ⟨P, .inr q, p⟩
  choose f hf1 hf2 using henc
  have hred : ∀ (s : Sndr), s.dme = d → ∀ (x y : ℤ) (k0 k1 : EncCoins),
      encMsgsZ env s pk x y k0 k1 = encMsgs env s pk (f x) (f y) k0 k1 := by
    rintro s rfl x y k0 k1
    simp only [encMsgsZ, encMsgs, encZ, hf2, R.ok_bind]
  obtain ⟨φ, hb, h1⟩ := pair_bij hl hc hpk hh (m0 := f m0) (m1 := f m1) (m0' := f m0') (m1' := f m1')
    (by simp [hf1]) (by
      have : ∀ (b : Branch) (x y : ℤ), pick b (f x) (f y) = f (pick b x y) := by rintro (_ | _) x y <;> rfl
      rw [this, this, heq])
  refine ⟨φ, hb, fun k hk s s' hs hs' => ?_⟩
  rw [hred s hs, hred s' hs']
  exact h1 k hk s s' hs hs'

theorem forall₂_shuffle {m m' : Arr3 (List Ctxt)} (h0 : List.Forall₂ SameCt m.e0 m'.e0) (h1 : List.Forall₂ SameCt m.e1 m'.e1)
    (h2 : List.Forall₂ SameCt m.e2 m'.e2) (r1 r2 : ℕ) :
    List.Forall₂ SameCt (m.shuffle r1 r2).e0 (m'.shuffle r1 r2).e0 ∧ List.Forall₂ SameCt (m.shuffle r1 r2).e1 (m'.shuffle r1 r2).e1 ∧
      List.Forall₂ SameCt (m.shuffle r1 r2).e2 (m'.shuffle r1 r2).e2 := by
  unfold Arr3.shuffle
  split_ifs <;> exact ⟨by assumption, by assumption, by assumption⟩

/-- four bijections of pairs of draws make one of all draws -/
theorem round_bij {f1 f2 f3 f4 : EncCoins × EncCoins → EncCoins × EncCoins} (h1 : Set.BijOn f1 pairCoins pairCoins)
    (h2 : Set.BijOn f2 pairCoins pairCoins) (h3 : Set.BijOn f3 pairCoins pairCoins) (h4 : Set.BijOn f4 pairCoins pairCoins) :
    Set.BijOn (fun k : RoundCoins => (⟨(f1 (k.lt0, k.lt1)).1, (f1 (k.lt0, k.lt1)).2, (f2 (k.eq0, k.eq1)).1, (f2 (k.eq0, k.eq1)).2,
      (f3 (k.gt0, k.gt1)).1, (f3 (k.gt0, k.gt1)).2, (f4 (k.prf0, k.prf1)).1, (f4 (k.prf0, k.prf1)).2, k.sh1, k.sh2⟩ : RoundCoins))
      roundCoins roundCoins := by
  have hmem : ∀ k : RoundCoins, k ∈ roundCoins ↔ (k.lt0, k.lt1) ∈ pairCoins ∧ (k.eq0, k.eq1) ∈ pairCoins ∧
      (k.gt0, k.gt1) ∈ pairCoins ∧ (k.prf0, k.prf1) ∈ pairCoins := by
    intro k
    simp [roundCoins, pairCoins, and_assoc]
  refine ⟨?_, ?_, ?_⟩
  · intro k hk
    obtain ⟨a1, a2, a3, a4⟩ := (hmem k).1 hk
    exact (hmem _).2 ⟨h1.mapsTo a1, h2.mapsTo a2, h3.mapsTo a3, h4.mapsTo a4⟩
  · intro k hk k' hk' he
    obtain ⟨a1, a2, a3, a4⟩ := (hmem k).1 hk
    obtain ⟨b1, b2, b3, b4⟩ := (hmem k').1 hk'
    simp only [RoundCoins.mk.injEq] at he
    obtain ⟨e1, e2, e3, e4, e5, e6, e7, e8, e9, e10⟩ := he
    obtain ⟨c1, c2⟩ := Prod.mk.inj (h1.injOn a1 b1 (Prod.ext e1 e2))
    obtain ⟨c3, c4⟩ := Prod.mk.inj (h2.injOn a2 b2 (Prod.ext e3 e4))
    obtain ⟨c5, c6⟩ := Prod.mk.inj (h3.injOn a3 b3 (Prod.ext e5 e6))
    obtain ⟨c7, c8⟩ := Prod.mk.inj (h4.injOn a4 b4 (Prod.ext e7 e8))
    cases k; cases k'
    simp_all
  · intro k hk
    obtain ⟨a1, a2, a3, a4⟩ := (hmem k).1 hk
    obtain ⟨⟨x1, y1⟩, z1, w1⟩ := h1.surjOn a1
    obtain ⟨⟨x2, y2⟩, z2, w2⟩ := h2.surjOn a2
    obtain ⟨⟨x3, y3⟩, z3, w3⟩ := h3.surjOn a3
    obtain ⟨⟨x4, y4⟩, z4, w4⟩ := h4.surjOn a4
    refine ⟨⟨x1, y1, x2, y2, x3, y3, x4, y4, k.sh1, k.sh2⟩, (hmem _).2 ⟨z1, z2, z3, z4⟩, ?_⟩
    simp only [w1, w2, w3, w4]

/-- C71 (part): the server's CRS comes from a messy-mode instance with different trapdoors and finite bases.  For every key a
client may send other than `(∞, ∞)` there is a branch (the one `FindMessy` names) such that the server's answer tells nothing
about its entries for that branch: two servers with the same entries for the other branch give the same answers, up to a
bijection of the server's draws.
Missing: the excluded keys and draws (C26), and what the visible entries tell, which rests on the cipher. -/
theorem C71_one_branch_partial (W : World) {c : Option Addr} (hl : LiveGen W.env c) {k : MessyCoins}
    (h0 : Coin k.e0) (h1 : Coin k.e1) (h2 : Coin k.g0) (h3 : Coin k.g1)
    (he : k.e0 ≠ k.e1) (hg0 : k.g0 ≠ 0) (hg1 : k.g1 ≠ 0) :
    Ends (ctorMessy W.env c k) fun d => ∀ pk, ValidKey W.env pk → ¬ (pk.g.inf = true ∧ pk.h.inf = true) →
      Ends (findMessy W.env d pk) fun b => ∀ s s' : Server, LiveGen W.env s.ots.dme.curve → ValidCrs W.env s.ots.dme.crs →
        SameCrs d.crs s.ots.dme.crs → s'.ots.dme = s.ots.dme → ∀ round, SameEntry W.env b.other s s' round →
        ∃ φ : RoundCoins → RoundCoins, Set.BijOn φ roundCoins roundCoins ∧ ∀ q ∈ roundCoins,
          Ends (s.runOTRound W round pk q) fun r => Ends (s'.runOTRound W round pk (φ q)) fun r' => SameMsg r.1 r'.1 := by
  obtain ⟨d, e1, hd, -, -, r⟩ := ctorMessy_rep (env := W.env) hl k
  obtain ⟨d', e1', hfm⟩ := C26_findMessy_partial W.env hl h0 h1 h2 h3 he hg0 hg1
  rw [e1] at e1'
  obtain rfl := Except.ok.inj e1'
  refine ⟨d, e1, fun pk hpk hni => ?_⟩
  obtain ⟨b, hb, hh⟩ := hfm pk hpk hni
  refine ⟨b, hb, fun s s' hls hcs hsame hdme round hent => ?_⟩
  have rs := r.congr hsame hcs
  obtain ⟨A, hA⟩ := valid_iff.1 hpk.g
  obtain ⟨B, hB⟩ := valid_iff.1 hpk.h
  have hh' : Hides W.env s.ots.dme pk b := by
    rw [hides_iff_det hls rs hA hB, dhPair_iff rs hA hB]
    rwa [hides_iff_det (by rwa [hd]) r hA hB, dhPair_iff r hA hB] at hh
  by_cases hr : round = 16
  · obtain ⟨a1, a2⟩ := hent.1 hr
    obtain ⟨f1, b1, g1⟩ := pair_bij_int hls.live rs hpk hh' (m0 := s.Sl0.k) (m1 := s.Sl1.k) (m0' := s'.Sl0.k) (m1' := s'.Sl1.k)
      (by
        have := congrArg InputL.k a1
        rcases b with _ | _ <;> exact this)
    obtain ⟨f4, b4, g4⟩ := pair_bij hls.live rs hpk hh' (m0 := s.Sl0.prf) (m1 := s.Sl1.prf) (m0' := s'.Sl0.prf) (m1' := s'.Sl1.prf) a2
      (by
        have := congrArg InputL.prf a1
        rcases b with _ | _ <;> exact this)
    refine ⟨_, round_bij b1 (Set.bijOn_id _) (Set.bijOn_id _) b4, fun q hq => ?_⟩
    have m1 : (q.lt0, q.lt1) ∈ pairCoins := ⟨hq _ (by simp), hq _ (by simp)⟩
    have m4 : (q.prf0, q.prf1) ∈ pairCoins := ⟨hq _ (by simp), hq _ (by simp)⟩
    obtain ⟨c, c', x1, x2, x3⟩ := g1 _ m1 s.ots s'.ots rfl hdme
    obtain ⟨p, p', y1, y2, y3⟩ := g4 _ m4 { s.ots with c := c } { s'.ots with c := c' } rfl hdme
    refine ⟨(⟨⟨c, [], []⟩, p⟩, { s with ots := { s.ots with c := p } }), ?_,
      (⟨⟨c', [], []⟩, p'⟩, { s' with ots := { s'.ots with c := p' } }), ?_, x3, .nil, .nil, y3⟩
    · unfold Server.runOTRound
      rw [if_pos hr]
      simp only [x1, y1, R.ok_bind]
    · unfold Server.runOTRound
      rw [if_pos hr]
      simp only [x2, y2, R.ok_bind]
  · obtain ⟨hr0, i0, i1, i0', i1', t0, t1, t0', t1', a1, a2⟩ := hent.2 hr
    have hint : ∀ F : InputI → ℤ, pick b.other (F i0) (F i1) = pick b.other (F i0') (F i1') := by
      intro F
      have := congrArg F a1
      rcases b with _ | _ <;> exact this
    obtain ⟨f1, b1, g1⟩ := pair_bij_int hls.live rs hpk hh' (hint InputI.k_lt)
    obtain ⟨f2, b2, g2⟩ := pair_bij_int hls.live rs hpk hh' (hint InputI.k_eq)
    obtain ⟨f3, b3, g3⟩ := pair_bij_int hls.live rs hpk hh' (hint InputI.k_gt)
    obtain ⟨f4, b4, g4⟩ := pair_bij hls.live rs hpk hh' (m0 := i0.prf) (m1 := i1.prf) (m0' := i0'.prf) (m1' := i1'.prf) a2
      (by
        have := congrArg InputI.prf a1
        rcases b with _ | _ <;> exact this)
    refine ⟨_, round_bij b1 b2 b3 b4, fun q hq => ?_⟩
    obtain ⟨c0, c0', x1, x2, x3⟩ := g1 (q.lt0, q.lt1) ⟨hq _ (by simp), hq _ (by simp)⟩ s.ots s'.ots rfl hdme
    obtain ⟨c1, c1', y1, y2, y3⟩ := g2 (q.eq0, q.eq1) ⟨hq _ (by simp), hq _ (by simp)⟩ { s.ots with c := c0 } { s'.ots with c := c0' } rfl hdme
    obtain ⟨c2, c2', z1, z2, z3⟩ := g3 (q.gt0, q.gt1) ⟨hq _ (by simp), hq _ (by simp)⟩ { s.ots with c := c1 } { s'.ots with c := c1' } rfl hdme
    obtain ⟨p, p', w1, w2, w3⟩ := g4 (q.prf0, q.prf1) ⟨hq _ (by simp), hq _ (by simp)⟩ { s.ots with c := c2 } { s'.ots with c := c2' } rfl hdme
    obtain ⟨s1, s2, s3⟩ := forall₂_shuffle (m := ⟨c0, c1, c2⟩) (m' := ⟨c0', c1', c2'⟩) x3 y3 z3 q.sh1 q.sh2
    have hat : ∀ (v : List InputI) (e : InputI), v[round.toNat]? = some e → atShort v round = .ok e := by
      intro v e h
      rw [atShort, if_neg (by omega), at'_ok]; exact h
    refine ⟨(⟨Arr3.shuffle ⟨c0, c1, c2⟩ q.sh1 q.sh2, p⟩, { s with ots := { s.ots with c := p } }), ?_,
      (⟨Arr3.shuffle ⟨c0', c1', c2'⟩ q.sh1 q.sh2, p'⟩, { s' with ots := { s'.ots with c := p' } }), ?_, s1, s2, s3, w3⟩
    · unfold Server.runOTRound
      rw [if_neg hr]
      simp only [hat _ _ t0, hat _ _ t1, x1, y1, z1, w1, R.ok_bind]
    · unfold Server.runOTRound
      rw [if_neg hr]
      simp only [hat _ _ t0', hat _ _ t1', x2, y2, z2, w2, R.ok_bind]

/-- the two points of a table entry differ by a multiple of the secret -/
theorem entries_prf {W : World} {s : Server} {i : ℕ} {x0 x1 : InputI} (h : entries W s i = .ok (x0, x1)) :
    ∃ g, s.ga.smulZ W.env CC (2 ^ i) = .ok g ∧ g.add W.env CC x0.prf = .ok x1.prf := by
  unfold entries at h
  obtain ⟨lt, -, h⟩ := R.bind_eq_ok.1 h
  obtain ⟨eq, -, h⟩ := R.bind_eq_ok.1 h
  obtain ⟨gt, -, h⟩ := R.bind_eq_ok.1 h
  obtain ⟨lt', -, h⟩ := R.bind_eq_ok.1 h
  obtain ⟨eq', -, h⟩ := R.bind_eq_ok.1 h
  obtain ⟨gt', -, h⟩ := R.bind_eq_ok.1 h
  obtain ⟨o, -, h⟩ := R.bind_eq_ok.1 h
  split_ifs at h <;>
  · obtain ⟨a, -, h⟩ := R.bind_eq_ok.1 h
    obtain ⟨b, -, h⟩ := R.bind_eq_ok.1 h
    obtain ⟨c, -, h⟩ := R.bind_eq_ok.1 h
    obtain ⟨p, e1, h⟩ := R.bind_eq_ok.1 h
    obtain ⟨a', -, h⟩ := R.bind_eq_ok.1 h
    obtain ⟨b', -, h⟩ := R.bind_eq_ok.1 h
    obtain ⟨c', -, h⟩ := R.bind_eq_ok.1 h
    obtain ⟨g, e2, h⟩ := R.bind_eq_ok.1 h
    obtain ⟨ro, e3, h⟩ := R.bind_eq_ok.1 h
    obtain ⟨q, e4, h⟩ := R.bind_eq_ok.1 h
    obtain ⟨rfl, rfl⟩ := Prod.mk.inj (Except.ok.inj h)
    rw [e1] at e3
    obtain rfl := Except.ok.inj e3
    exact ⟨g, e2, e4⟩

/-- C71 is false for the key `(∞, ∞)`, which the server does not reject: its answer then carries both points in the clear, for all
draws, and their difference is its secret times 2^i (in round 1 the secret itself).  This holds in both modes and after any
history of completed calls. -/
theorem C71_infinite_key_counterexample {W : World} {a : Option Addr} (ha : LiveGen W.env a) {crs : Crs}
    (hcrs : OnCurve CC crs.g0 ∧ OnCurve CC crs.g1 ∧ OnCurve CC crs.h0 ∧ OnCurve CC crs.h1) {theta : Msg} {g : ℤ} {s0 s : Server}
    (h0 : Server.ctor W.env a theta crs g = .ok s0) (ops : List SCall) (hop : ∀ ga, SCall.secret ga ∈ ops → OnCurve CC ga)
    (hs : runAll (SCall.run W) s0 ops = .ok s) {k : PrepCoins} {s' : Server} (hp : s.prepare W k = .ok s') {i : ℕ} (hi : i < 15)
    (q : RoundCoins) :
    Ends (s'.runOTRound W (i + 1 : ℕ) ⟨Pt.infty CC, Pt.infty CC⟩ q) fun r => ∃ c0 c1, r.1.cprf = [c0, c1] ∧
      EqP W.env CC (do let x ← s.ga.smulZ W.env CC (2 ^ i); x.add W.env CC c0.mv) (.ok c1.mv) := by
  have hsnd := calls_sound ops (ctor_sound ha hcrs h0) hop hs
  have hsnd' : Sound W.env s' := call_sound (op := .prepare k) hsnd (by simp) hp
  obtain ⟨e0, e1, t0, t1, gg, hg1, hg2⟩ : ∃ e0 e1, s'.Si0[i + 1]? = some e0 ∧ s'.Si1[i + 1]? = some e1 ∧
      ∃ g, s.ga.smulZ W.env CC (2 ^ i) = .ok g ∧ g.add W.env CC e0.prf = .ok e1.prf := by
    unfold Server.prepare at hp
    obtain ⟨Q, -, hp⟩ := R.bind_eq_ok.1 hp
    obtain ⟨B, -, hp⟩ := R.bind_eq_ok.1 hp
    obtain ⟨s1, h1, hp⟩ := R.bind_eq_ok.1 hp
    obtain ⟨s2, h2, h3⟩ := R.bind_eq_ok.1 hp
    have ht1 : s1.ga = s.ga := by
      obtain ⟨os, -, rfl⟩ := pushKeys_inv _ h1
      rfl
    have ht2 : s2.ga = s.ga := by
      obtain ⟨⟨a, b, rfl⟩, -⟩ := prepareTop_inv h2
      exact ht1
    obtain ⟨-, u2, -⟩ := tableLoop_inv 15 h3
    obtain ⟨x0, x1, v1, v2, v3⟩ := u2 i hi
    have := entries_prf v1
    rw [ht2] at this
    exact ⟨x0, x1, v2, v3, this⟩
  have hv0 : Valid W.env CC e0.prf := hsnd'.tab _ (List.mem_append_left _ (List.mem_of_getElem? t0))
  have hv1 : Valid W.env CC e1.prf := hsnd'.tab _ (List.mem_append_right _ (List.mem_of_getElem? t1))
  obtain ⟨E0, hE0⟩ := valid_iff.1 hv0
  obtain ⟨E1, hE1⟩ := valid_iff.1 hv1
  obtain ⟨gm, hm, r⟩ := hsnd'.crs.rep
  have hinf := rep_infty (env := W.env) (C := CC)
  have hZ : ∀ (sd : Sndr), sd.dme = s'.ots.dme → ∀ (x y : ℤ) (k0 k1 : EncCoins), ∃ c,
      encMsgsZ W.env sd ⟨Pt.infty CC, Pt.infty CC⟩ x y k0 k1 = .ok (c, { sd with c := c }) := by
    intro sd hd x y k0 k1
    have hl : Live W.env sd.dme.curve := by rw [hd]; exact hsnd'.live
    have rs : RepCrs W.env sd.dme.crs gm hm := by rw [hd]; exact r
    obtain ⟨-, P0, -, -, -, p0, -, -, q0⟩ := encode_ok hl x
    obtain ⟨-, P1, -, -, -, p1, -, -, q1⟩ := encode_ok hl y
    obtain ⟨M0, hM0⟩ := valid_iff.1 (.inr q0)
    obtain ⟨M1, hM1⟩ := valid_iff.1 (.inr q1)
    obtain ⟨c0, -, f0, -⟩ := enc_rep (pk := ⟨Pt.infty CC, Pt.infty CC⟩) hl rs hinf hinf hM0 .b0 k0.s k0.t
    obtain ⟨c1, -, f1, -⟩ := enc_rep (pk := ⟨Pt.infty CC, Pt.infty CC⟩) hl rs hinf hinf hM1 .b1 k1.s k1.t
    exact ⟨[c0, c1], by simp only [encMsgsZ, encZ, p0, p1, f0, f1, R.ok_bind]⟩
  obtain ⟨c0, f0⟩ := hZ s'.ots rfl e0.k_lt e1.k_lt q.lt0 q.lt1
  obtain ⟨c1, f1⟩ := hZ { s'.ots with c := c0 } rfl e0.k_eq e1.k_eq q.eq0 q.eq1
  obtain ⟨c2, f2⟩ := hZ { s'.ots with c := c1 } rfl e0.k_gt e1.k_gt q.gt0 q.gt1
  obtain ⟨p0, -, f3, -, -, -, rm0⟩ := enc_rep (pk := ⟨Pt.infty CC, Pt.infty CC⟩) (d := s'.ots.dme) hsnd'.live r hinf hinf hE0 .b0
    q.prf0.s q.prf0.t
  obtain ⟨p1, -, f4, -, -, -, rm1⟩ := enc_rep (pk := ⟨Pt.infty CC, Pt.infty CC⟩) (d := s'.ots.dme) hsnd'.live r hinf hinf hE1 .b1
    q.prf1.s q.prf1.t
  simp only [smul_zero, zero_add] at rm0 rm1
  refine ⟨(⟨Arr3.shuffle ⟨c0, c1, c2⟩ q.sh1 q.sh2, [p0, p1]⟩, { s' with ots := { s'.ots with c := [p0, p1] } }), ?_, p0, p1, rfl, ?_⟩
  · unfold Server.runOTRound
    rw [if_neg (by omega)]
    have a0 : atShort s'.Si0 ((i + 1 : ℕ) : ℤ) = .ok e0 := by
      rw [atShort, if_neg (by omega), Int.toNat_natCast, at'_ok]; exact t0
    have a1 : atShort s'.Si1 ((i + 1 : ℕ) : ℤ) = .ok e1 := by
      rw [atShort, if_neg (by omega), Int.toNat_natCast, at'_ok]; exact t1
    simp only [a0, a1, R.ok_bind, f0, f1, f2, encMsgs, f3, f4]
  · obtain ⟨A, hA⟩ := valid_iff.1 hsnd.ga
    obtain ⟨g', b1, b2⟩ := smulI_rep hA (2 ^ i)
    rw [hg1] at b1
    obtain rfl := Except.ok.inj b1
    obtain ⟨y, d1, d2⟩ := add_rep b2 hE0
    rw [hg2] at d1
    obtain rfl := Except.ok.inj d1
    obtain ⟨z, w1, w2⟩ := add_rep b2 rm0
    rw [hg1, R.ok_bind]
    refine ⟨z, p1.mv, w1, rfl, ?_⟩
    rw [rep_beq w2 rm1, rep_unique hE1 d2]
    simp

namespace Sample

/-- servers with the same entries for branch 1 and different ones for branch 0 -/
def srvP : Server := { srv0 with Si0 := List.replicate 16 ⟨1, 2, 3, ga⟩, Si1 := List.replicate 16 ⟨4, 5, 6, ga⟩ }

def srvQ : Server := { srv0 with Si0 := List.replicate 16 ⟨7, 8, 9, inf⟩, Si1 := List.replicate 16 ⟨4, 5, 6, ga⟩ }

example : SameEntry W.env .b1 srvP srvQ 3 ∧ ¬ SameEntry W.env .b0 srvP srvQ 3 := by
  constructor
  · refine ⟨by norm_num, fun _ => ⟨by norm_num, _, _, _, _, rfl, rfl, rfl, rfl, rfl, ?_⟩⟩
    simp only [List.mem_cons, List.not_mem_nil, or_false, forall_eq_or_imp, forall_eq]
    exact ⟨parties.ga, parties.ga, inf_valid _, parties.ga⟩
  · rintro ⟨-, h⟩
    obtain ⟨-, e0, e1, e0', e1', h1, h2, h3, h4, h5, -⟩ := h (by norm_num)
    obtain rfl : (⟨1, 2, 3, ga⟩ : InputI) = e0 := Option.some.inj h1
    obtain rfl : (⟨7, 8, 9, inf⟩ : InputI) = e0' := Option.some.inj h3
    simp [pick] at h5

/-- the secret from one answer -/
example : (do
    let s ← srv0.prepare W draws.prep
    let r ← s.runOTRound W 1 ⟨inf, inf⟩ rc
    match r.1.cprf with
    | [c0, c1] => do
      let d ← c1.mv.sub W.env CC c0.mv
      d.beq W.env CC ga
    | _ => .ok false) = .ok true := by decide +kernel

end Sample

end Opprf
end Verif
