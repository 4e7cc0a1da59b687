import Verif.Props.Dme

/-!
# C88: which common reference strings the constructors produce, and instances without a trapdoor
-/

namespace Verif
namespace Dme

open EC

/-- every group element is a multiple of a non-zero one by exactly one coin -/
theorem coin_unique {B : Grp CC} (hB : B ≠ 0) (A : Grp CC) :
    ∃ k : ℤ, Coin k ∧ (k : F) • B = A ∧ ∀ j : ℤ, Coin j → (j : F) • B = A → j = k := by
  obtain ⟨x, hx⟩ := exists_smul hB A
  refine ⟨x.val, coin_val x, by rw [coin_val_cast, hx], fun j hj h => ?_⟩
  rw [hx, smul_inj hB] at h
  exact coin_cast_inj hj (coin_val x) (by rw [coin_val_cast, h])

theorem sameCrs_iff {env : Env} {c d : Crs} {g h g' h' : Branch → Grp CC} (r : RepCrs env c g h)
    (s : RepCrs env d g' h') :
    SameCrs c d ↔ (g .b0 = g' .b0 ∧ g .b1 = g' .b1 ∧ h .b0 = h' .b0 ∧ h .b1 = h' .b1) := by
  have e1 : SamePoint c.g0 d.g0 ↔ _ := samePoint_iff (r.g .b0) (s.g .b0)
  have e2 : SamePoint c.g1 d.g1 ↔ _ := samePoint_iff (r.g .b1) (s.g .b1)
  have e3 : SamePoint c.h0 d.h0 ↔ _ := samePoint_iff (r.h .b0) (s.h .b0)
  have e4 : SamePoint c.h1 d.h1 ↔ _ := samePoint_iff (r.h .b1) (s.h .b1)
  constructor
  · rintro ⟨a, b, c, d⟩
    exact ⟨e1.1 a, e2.1 b, e3.1 c, e4.1 d⟩
  · rintro ⟨a, b, c, d⟩
    exact ⟨e1.2 a, e2.2 b, e3.2 c, e4.2 d⟩

theorem ctorRandom_rep {env : Env} {c : Option Addr} (hl : LiveGen env c) (a b x y : ℤ) :
    ∃ d, ctorRandom env c a b x y = .ok d ∧ d.curve = c ∧ d.e0 = Fld.ofZ (0 : F) ∧ d.e1 = Fld.ofZ (0 : F) ∧
      d.y = Fld.ofZ (0 : F) ∧
      RepCrs env d.crs
        (fun i => match i with | .b0 => (a : F) • (G : Grp CC) | .b1 => (x : F) • (G : Grp CC))
        (fun i => match i with | .b0 => (b : F) • (G : Grp CC) | .b1 => (y : F) • (G : Grp CC)) := by
  obtain ⟨P, a1, a2⟩ := randomPoint_rep (C := CC) hl a
  obtain ⟨Q, b1, b2⟩ := randomPoint_rep (C := CC) hl b
  obtain ⟨S, c1, c2⟩ := randomPoint_rep (C := CC) hl x
  obtain ⟨T, d1, d2⟩ := randomPoint_rep (C := CC) hl y
  refine ⟨_, by simp only [ctorRandom, R.ok_bind, a1, b1, c1, d1]; rfl, rfl, Fld.zero_eq, Fld.zero_eq,
    Fld.zero_eq, ?_, ?_⟩
  · rintro (_ | _)
    · exact a2
    · exact c2
  · rintro (_ | _)
    · exact b2
    · exact d2

/-- the trapdoors of a messy-mode instance that are not drawn -/
theorem ctorMessy_y {env : Env} {c : Option Addr} {k : MessyCoins} {d : Inst} (h : ctorMessy env c k = .ok d) :
    d.y = Fld.ofZ (0 : F) := by
  simp only [ctorMessy, R.bind_eq_ok] at h
  obtain ⟨_, -, _, -, _, -, _, -, _, -, _, -, h⟩ := h
  obtain rfl := Except.ok.inj h
  exact Fld.zero_eq

theorem ctorDec_e {env : Env} {c : Option Addr} {k : DecCoins} {d : Inst} (h : ctorDec env c k = .ok d) :
    d.e0 = Fld.ofZ (0 : F) ∧ d.e1 = Fld.ofZ (0 : F) := by
  simp only [ctorDec, R.bind_eq_ok] at h
  obtain ⟨_, -, _, -, _, -, _, -, _, -, _, -, h⟩ := h
  obtain rfl := Except.ok.inj h
  exact ⟨Fld.zero_eq, Fld.zero_eq⟩

/-- C88: `DME_DDH()` draws the CRS uniformly from all quadruples of points: every draw gives a valid CRS, and every
valid CRS comes from exactly one draw of four coins. -/
theorem C88_random (env : Env) {c : Option Addr} (hl : LiveGen env c) :
    (∀ a b x y : ℤ, Ends (ctorRandom env c a b x y) fun d => d.curve = c ∧ ValidCrs env d.crs) ∧
    ∀ crs : Crs, ValidCrs env crs → ∃! k : ℤ × ℤ × ℤ × ℤ,
      (Coin k.1 ∧ Coin k.2.1 ∧ Coin k.2.2.1 ∧ Coin k.2.2.2) ∧
      Ends (ctorRandom env c k.1 k.2.1 k.2.2.1 k.2.2.2) fun d => SameCrs d.crs crs := by
  constructor
  · intro a b x y
    obtain ⟨d, e, hd, -, -, -, r⟩ := ctorRandom_rep (env := env) hl a b x y
    exact ⟨d, e, hd, r.valid⟩
  · intro crs hv
    obtain ⟨g, h, s⟩ := hv.rep
    have hG : (G : Grp CC) ≠ 0 := G_ne_zero
    have key : ∀ k : ℤ × ℤ × ℤ × ℤ, (Ends (ctorRandom env c k.1 k.2.1 k.2.2.1 k.2.2.2) fun d => SameCrs d.crs crs) ↔
        ((k.1 : F) • (G : Grp CC) = g .b0 ∧ (k.2.2.1 : F) • (G : Grp CC) = g .b1 ∧
          (k.2.1 : F) • (G : Grp CC) = h .b0 ∧ (k.2.2.2 : F) • (G : Grp CC) = h .b1) := by
      intro k
      obtain ⟨d, e, hd, -, -, -, r⟩ := ctorRandom_rep (env := env) hl k.1 k.2.1 k.2.2.1 k.2.2.2
      rw [← sameCrs_iff r s]
      constructor
      · rintro ⟨d', h1, h2⟩
        rw [e] at h1
        obtain rfl := Except.ok.inj h1
        exact h2
      · intro h1
        exact ⟨d, e, h1⟩
    obtain ⟨a, a1, a2, a3⟩ := coin_unique hG (g .b0)
    obtain ⟨b, b1, b2, b3⟩ := coin_unique hG (h .b0)
    obtain ⟨x, x1, x2, x3⟩ := coin_unique hG (g .b1)
    obtain ⟨y, y1, y2, y3⟩ := coin_unique hG (h .b1)
    refine ⟨(a, b, x, y), ⟨⟨a1, b1, x1, y1⟩, (key _).2 ⟨a2, x2, b2, y2⟩⟩, ?_⟩
    rintro k ⟨⟨k1, k2, k3, k4⟩, hk⟩
    rw [key] at hk
    obtain ⟨h1, h2, h3, h4⟩ := hk
    ext
    · exact a3 _ k1 h1
    · exact b3 _ k2 h3
    · exact x3 _ k3 h2
    · exact y3 _ k4 h4

/-- C88: the messy-mode constructor draws the CRS uniformly from the quadruples of points with finite `g0`, `g1`: each
of those comes from exactly one draw of its four coins.  A CRS with infinite `g_b` can only come out if `h_b` is
infinite too. -/
theorem C88_messy (env : Env) {c : Option Addr} (hl : LiveGen env c) (crs : Crs) (hv : ValidCrs env crs) :
    ((∃ k, Ends (ctorMessy env c k) fun d => SameCrs d.crs crs) ↔
      ∀ b, (crs.g b).inf = true → (crs.h b).inf = true) ∧
    (crs.g0.inf = false → crs.g1.inf = false → ∃! k : MessyCoins,
      (Coin k.e0 ∧ Coin k.e1 ∧ Coin k.g0 ∧ Coin k.g1) ∧ Ends (ctorMessy env c k) fun d => SameCrs d.crs crs) := by
  obtain ⟨g, h, s⟩ := hv.rep
  have hG : (G : Grp CC) ≠ 0 := G_ne_zero
  have key : ∀ k : MessyCoins, (Ends (ctorMessy env c k) fun d => SameCrs d.crs crs) ↔
      ((k.g0 : F) • (G : Grp CC) = g .b0 ∧ (k.g1 : F) • (G : Grp CC) = g .b1 ∧
        (k.e0 : F) • (k.g0 : F) • (G : Grp CC) = h .b0 ∧ (k.e1 : F) • (k.g1 : F) • (G : Grp CC) = h .b1) := by
    intro k
    obtain ⟨d, e, hd, -, -, r⟩ := ctorMessy_rep (env := env) hl k
    rw [← sameCrs_iff r s]
    constructor
    · rintro ⟨d', h1, h2⟩
      rw [e] at h1
      obtain rfl := Except.ok.inj h1
      exact h2
    · intro h1
      exact ⟨d, e, h1⟩
  obtain ⟨a, a1, a2, a3⟩ := coin_unique hG (g .b0)
  obtain ⟨x, x1, x2, x3⟩ := coin_unique hG (g .b1)
  have hfin : ∀ b, (crs.g b).inf = false → g b ≠ 0 := by
    intro b hb h0
    rw [(rep_inf (s.g b)).2 h0] at hb
    simp at hb
  constructor
  · constructor
    · rintro ⟨k, hk⟩ b hb
      rw [key] at hk
      obtain ⟨h1, h2, h3, h4⟩ := hk
      rw [rep_inf (s.g b)] at hb
      rw [rep_inf (s.h b)]
      rcases b with _ | _
      · rw [← h3, h1, hb]; simp
      · rw [← h4, h2, hb]; simp
    · intro hb
      have hex : ∀ b, ∃ e : ℤ, (e : F) • g b = h b := by
        intro b
        by_cases h0 : g b = 0
        · refine ⟨0, ?_⟩
          rw [(rep_inf (s.h b)).1 (hb b ((rep_inf (s.g b)).2 h0))]
          simp
        · obtain ⟨e, -, he, -⟩ := coin_unique h0 (h b)
          exact ⟨e, he⟩
      obtain ⟨e, he⟩ := hex .b0
      obtain ⟨f, hf⟩ := hex .b1
      exact ⟨⟨e, f, a, x⟩, (key _).2 ⟨a2, x2, by simp only [a2, he], by simp only [x2, hf]⟩⟩
  · intro f0 f1
    obtain ⟨b, b1, b2, b3⟩ := coin_unique (hfin .b0 f0) (h .b0)
    obtain ⟨y, y1, y2, y3⟩ := coin_unique (hfin .b1 f1) (h .b1)
    refine ⟨⟨b, y, a, x⟩, ⟨⟨b1, y1, a1, x1⟩, (key _).2 ⟨a2, x2, by simp only [a2, b2], by simp only [x2, y2]⟩⟩, ?_⟩
    rintro ⟨e0, e1, g0, g1⟩ ⟨⟨k1, k2, k3, k4⟩, hk⟩
    rw [key] at hk
    obtain ⟨h1, h2, h3, h4⟩ := hk
    simp only at h1 h2 h3 h4 k1 k2 k3 k4
    rw [h1] at h3
    rw [h2] at h4
    rw [a3 _ k3 h1, x3 _ k4 h2, b3 _ k1 h3, y3 _ k2 h4]

/-- C88: the decryption-mode constructor draws the CRS uniformly from the Diffie-Hellman quadruples with finite `g0`:
a valid CRS with finite `g0` comes out exactly if `h0 = g0*e` and `h1 = g1*e` for some `e`, and then for exactly one
draw of the three coins. -/
theorem C88_dec (env : Env) {c : Option Addr} (hl : LiveGen env c) (crs : Crs) (hv : ValidCrs env crs)
    (hg : crs.g0.inf = false) :
    ((∃ k, Ends (ctorDec env c k) fun d => SameCrs d.crs crs) ↔
      ∃ e : ℤ, EqP env CC (crs.g0.smulZ env CC e) (.ok crs.h0) ∧ EqP env CC (crs.g1.smulZ env CC e) (.ok crs.h1)) ∧
    ((∃ k, Ends (ctorDec env c k) fun d => SameCrs d.crs crs) → ∃! k : DecCoins,
      (Coin k.y ∧ Coin k.g0 ∧ Coin k.e) ∧ Ends (ctorDec env c k) fun d => SameCrs d.crs crs) := by
  obtain ⟨g, h, s⟩ := hv.rep
  have hG : (G : Grp CC) ≠ 0 := G_ne_zero
  have key : ∀ k : DecCoins, (Ends (ctorDec env c k) fun d => SameCrs d.crs crs) ↔
      ((k.g0 : F) • (G : Grp CC) = g .b0 ∧ (k.y : F) • (k.g0 : F) • (G : Grp CC) = g .b1 ∧
        (k.e : F) • (k.g0 : F) • (G : Grp CC) = h .b0 ∧
        (k.e : F) • (k.y : F) • (k.g0 : F) • (G : Grp CC) = h .b1) := by
    intro k
    obtain ⟨d, e, hd, -, r⟩ := ctorDec_rep (env := env) hl k
    rw [← sameCrs_iff r s]
    constructor
    · rintro ⟨d', h1, h2⟩
      rw [e] at h1
      obtain rfl := Except.ok.inj h1
      exact h2
    · intro h1
      exact ⟨d, e, h1⟩
  have h0 : g .b0 ≠ 0 := by
    intro h0
    have := (rep_inf (s.g .b0)).2 h0
    rw [show crs.g .b0 = crs.g0 from rfl, hg] at this
    simp at this
  obtain ⟨a, a1, a2, a3⟩ := coin_unique hG (g .b0)
  obtain ⟨y, y1, y2, y3⟩ := coin_unique h0 (g .b1)
  obtain ⟨f, f1, f2, f3⟩ := coin_unique h0 (h .b0)
  have hdh : (∃ k, Ends (ctorDec env c k) fun d => SameCrs d.crs crs) ↔
      ∃ e : ℤ, (e : F) • g .b0 = h .b0 ∧ (e : F) • g .b1 = h .b1 := by
    constructor
    · rintro ⟨k, hk⟩
      rw [key] at hk
      obtain ⟨h1, h2, h3, h4⟩ := hk
      exact ⟨k.e, by rw [← h3, h1], by rw [← h4, h2]⟩
    · rintro ⟨e, h1, h2⟩
      exact ⟨⟨y, a, e⟩, (key _).2 ⟨a2, by simp only [a2, y2], by simp only [a2, h1], by simp only [a2, y2, h2]⟩⟩
  refine ⟨?_, ?_⟩
  · rw [hdh]
    refine exists_congr fun e => ?_
    exact and_congr (eqP_res_iff (smulI_rep (s.g .b0) e) (s.h .b0)).symm
      (eqP_res_iff (smulI_rep (s.g .b1) e) (s.h .b1)).symm
  · intro hk
    rw [hdh] at hk
    obtain ⟨e, h1, h2⟩ := hk
    have hef : (e : F) = (f : F) := (smul_inj h0).1 (h1.trans f2.symm)
    rw [hef] at h2
    refine ⟨⟨y, a, f⟩, ⟨⟨y1, a1, f1⟩, (key _).2 ⟨a2, by simp only [a2, y2], by simp only [a2, f2],
      by simp only [a2, y2, h2]⟩⟩, ?_⟩
    rintro ⟨y', g', e'⟩ ⟨⟨k1, k2, k3⟩, hk⟩
    rw [key] at hk
    obtain ⟨h1, h2, h3, h4⟩ := hk
    simp only at h1 h2 h3 h4 k1 k2 k3
    rw [h1] at h2 h3
    rw [y3 _ k1 h2, a3 _ k2 h1, f3 _ k3 h3]

theorem trapKeyGen_zero {env : Env} {d : Inst} {g h : Branch → Grp CC} (hl : Live env d.curve)
    (r : RepCrs env d.crs g h) (hy : d.y = Fld.ofZ (0 : F)) (coin : ℤ) :
    trapKeyGen env d coin = .error .undefInverse := by
  obtain ⟨pg, a1, a2⟩ := smulF_rep (r.g .b0) (coin : F)
  obtain ⟨ph, b1, b2⟩ := smulF_rep (r.h .b0) (coin : F)
  have a1' : d.crs.g0.smul env CC (Fld.ofZ (coin : F)) = .ok pg := a1
  have b1' : d.crs.h0.smul env CC (Fld.ofZ (coin : F)) = .ok ph := b1
  simp only [trapKeyGen, getRandomScalar_ok hl, R.ok_bind, a1', b1', hy, Fld.div_ofZ_zero, R.error_bind]

theorem findMessy_zero {env : Env} {d : Inst} (he : d.e0 = Fld.ofZ (0 : F)) {pk : PKey} (hp : ValidKey env pk) :
    findMessy env d pk = .ok (if pk.h.inf then .b1 else .b0) := by
  obtain ⟨A, hA⟩ := valid_iff.1 hp.g
  obtain ⟨B, hB⟩ := valid_iff.1 hp.h
  rw [findMessy_rep he hA hB]
  congr 1
  have h0 : (0 : F) • A = 0 := zero_smulG A
  rw [h0]
  exact if_congr (rep_inf hB).symm rfl rfl

/-- C88: on an instance that holds no decryption trapdoor (`DME_DDH()`, `DME_DDH(crs)` or messy mode) `TrapKeyGen`
divides by zero, for every draw. -/
theorem C88_no_dec_trapdoor (env : Env) {c : Option Addr} (hl : LiveGen env c) (coin : ℤ) :
    (∀ a b x y : ℤ, Ends (ctorRandom env c a b x y) fun d => trapKeyGen env d coin = .error .undefInverse) ∧
    (∀ k, Ends (ctorMessy env c k) fun d => trapKeyGen env d coin = .error .undefInverse) ∧
    (∀ crs, ValidCrs env (ctorCrs c crs).crs → trapKeyGen env (ctorCrs c crs) coin = .error .undefInverse) := by
  refine ⟨fun a b x y => ?_, fun k => ?_, fun crs hv => ?_⟩
  · obtain ⟨d, e, hd, -, -, hy, r⟩ := ctorRandom_rep (env := env) hl a b x y
    exact ⟨d, e, trapKeyGen_zero (by rw [hd]; exact hl.live) r hy coin⟩
  · obtain ⟨d, e, hd, -, -, r⟩ := ctorMessy_rep (env := env) hl k
    exact ⟨d, e, trapKeyGen_zero (by rw [hd]; exact hl.live) r (ctorMessy_y e) coin⟩
  · obtain ⟨g, h, r⟩ := hv.rep
    exact trapKeyGen_zero (d := ctorCrs c crs) hl.live r (Fld.zero_eq) coin

/-- C88: on an instance that holds no messy trapdoor (`DME_DDH()`, `DME_DDH(crs)` or decryption mode) `FindMessy`
does not look at the CRS: it names branch 1 if `pk.h` is infinity and branch 0 otherwise. -/
theorem C88_no_messy_trapdoor (env : Env) {c : Option Addr} (hl : LiveGen env c) {pk : PKey}
    (hp : ValidKey env pk) :
    (∀ a b x y : ℤ, Ends (ctorRandom env c a b x y) fun d =>
      findMessy env d pk = .ok (if pk.h.inf then .b1 else .b0)) ∧
    (∀ k, Ends (ctorDec env c k) fun d => findMessy env d pk = .ok (if pk.h.inf then .b1 else .b0)) ∧
    (∀ crs, findMessy env (ctorCrs c crs) pk = .ok (if pk.h.inf then .b1 else .b0)) := by
  refine ⟨fun a b x y => ?_, fun k => ?_, fun crs => ?_⟩
  · obtain ⟨d, e, hd, he, -, -, r⟩ := ctorRandom_rep (env := env) hl a b x y
    exact ⟨d, e, findMessy_zero he hp⟩
  · obtain ⟨d, e, hd, -, r⟩ := ctorDec_rep (env := env) hl k
    exact ⟨d, e, findMessy_zero (ctorDec_e e).1 hp⟩
  · exact findMessy_zero (d := ctorCrs c crs) (Fld.zero_eq) hp

/-- Consequence: on an instance made from a CRS, `FindMessy` names the receiver's own branch for every key generated
for branch 0 with a non-zero secret, if `h0` is finite. -/
theorem C88_no_messy_trapdoor_counterexample (env : Env) {c : Option Addr} (hl : LiveGen env c) (crs : Crs)
    (hv : ValidCrs env (ctorCrs c crs).crs) (hh : crs.h0.inf = false) {sk : ℤ} (hsk : Coin sk) (h0 : sk ≠ 0) :
    Ends (keyGen env (ctorCrs c crs) .b0 sk) fun kp => findMessy env (ctorCrs c crs) kp.pk = .ok .b0 := by
  obtain ⟨g, h, r⟩ := hv.rep
  obtain ⟨pg, ph, e2, r1, r2⟩ := keyGen_rep (d := ctorCrs c crs) hl.live r .b0 sk
  refine ⟨_, e2, ?_⟩
  change findMessy env (ctorCrs c crs) ⟨pg, ph⟩ = .ok .b0
  rw [findMessy_zero (d := ctorCrs c crs) (pk := ⟨pg, ph⟩) (Fld.zero_eq) ⟨r1.valid, r2.valid⟩, if_neg]
  simp only
  rw [rep_inf r2, smul_eq_zero, coin_zero_iff hsk]
  rintro (h1 | h1)
  · exact h0 h1
  · have := (rep_inf (r.h .b0)).2 h1
    rw [show ((ctorCrs c crs).crs.h .b0).inf = crs.h0.inf from rfl, hh] at this
    simp at this

/-- a CRS of the decryption mode is not one that `DME_DDH()` misses, and the hypotheses of the theorems above are met -/
example : Ends (ctorDec tenv (some 0) ⟨5, 2, 3⟩) fun d => ValidCrs tenv d.crs ∧ d.crs.g0.inf = false ∧
    Ends (ctorMessy tenv (some 0) ⟨3, 3, 2, 10⟩) fun d1 => d1.crs = d.crs ∧
    Ends (ctorRandom tenv (some 0) 2 6 10 30) fun d2 => d2.crs = d.crs := by
  obtain ⟨d, e, hd, hy, r⟩ := ctorDec_rep (env := tenv) env0_liveGen ⟨5, 2, 3⟩
  have h1 : (do let d ← ctorDec tenv (some 0) ⟨5, 2, 3⟩
                let d1 ← ctorMessy tenv (some 0) ⟨3, 3, 2, 10⟩
                let d2 ← ctorRandom tenv (some 0) 2 6 10 30
                .ok (d.crs.g0.inf, decide (d1.crs = d.crs), decide (d2.crs = d.crs))) =
      (.ok (false, true, true) : R (Bool × Bool × Bool)) := by decide +kernel
  have e' : ctorDec tenv (some 0) ⟨5, 2, 3⟩ = .ok d := e
  rw [e'] at h1
  simp only [R.ok_bind, R.bind_eq_ok] at h1
  obtain ⟨d1, e1, d2, e2, h1⟩ := h1
  simp only [Except.ok.injEq, Prod.mk.injEq, decide_eq_true_eq] at h1
  exact ⟨d, e', r.valid, h1.1, d1, e1, h1.2.1, d2, e2, h1.2.2⟩

end Dme
end Verif
