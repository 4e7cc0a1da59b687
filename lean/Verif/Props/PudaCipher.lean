import Verif.Props.PudaForge

/-!
# C99: what one message of a PUDA user and its ciphertext tell about all others
-/

namespace Verif
namespace Puda

open EC

/-- What somebody without keys computes from the ciphertext `c1` of a known message `m1` at timestamp `t1`: the point
that masks the messages of the same user at timestamp `t`, `(c1 + g1 * (-m1)) * (t / t1)`. -/
def maskAt (env : Env) (pp : Param) (c1 : Pt) (m1 t1 t : ℤ) : R Pt := do
  let y ← pp.g1.smulZ env CC (-m1)
  let d ← c1.add env CC y
  let q ← (Fld.mk' CC.fn t).div env CC.fn (Fld.mk' CC.fn t1)
  d.smul env CC q

/-- a ciphertext of `m` made from such a mask -/
def encFrom (env : Env) (pp : Param) (mask : Pt) (m : ℤ) : R Pt := do
  let y ← pp.g1.smulZ env CC m
  mask.add env CC y

/-- what is left of a ciphertext without such a mask -/
def openWith (env : Env) (c mask : Pt) : R Pt := do
  let n ← mask.smulZ env CC (-1)
  c.add env CC n

variable {env : Env}

theorem maskAt_rep {pp : Param} {h : F} (r : RepParam env pp (h • (G : Grp CC))) (ek : F) (m1 : Msg) {t1 : ℤ}
    (ht : (t1 : F) ≠ 0) (t : ℤ) : ∃ c1 w, enc env pp (Fld.ofZ ek) m1 t1 = .ok c1 ∧
      maskAt env pp c1 m1.val t1 t = .ok w ∧ Rep env w (ek • (t : F) • h • (G : Grp CC)) := by
  obtain ⟨c1, e1, e2⟩ := enc_rep r ek m1 t1
  obtain ⟨y, f1, f2⟩ := smulI_rep r.g1 (-(m1.val : ℤ))
  obtain ⟨d, g1, g2⟩ := add_rep e2 f2
  obtain ⟨w, h1, h2⟩ := smulF_rep g2 ((t : F) / (t1 : F))
  refine ⟨c1, w, e1, by simp only [maskAt, Fld.mk'_eq, f1, R.ok_bind, g1, Fld.div_ofZ env _ ht, h1], ?_⟩
  convert h2 using 1
  simp only [smul_smul, ← add_smul]
  congr 1
  push_cast
  field_simp
  ring

theorem openWith_rep {c w : Pt} {A B : Grp CC} (hA : Rep env c A) (hB : Rep env w B) :
    ∃ x, openWith env c w = .ok x ∧ Rep env x (A - B) := by
  obtain ⟨k, hk⟩ : ∃ k : ℤ, k = -1 := ⟨_, rfl⟩
  obtain ⟨n, g1, g2⟩ := smulI_rep hB k
  obtain ⟨x, h1, h2⟩ := add_rep hA g2
  rw [hk] at g1 h2
  refine ⟨x, R.bind_eq_ok.2 ⟨n, g1, h1⟩, ?_⟩
  convert h2 using 1
  push_cast
  module

/-- C99 is false: whoever knows one message of a user and its ciphertext at one timestamp (not 0) makes, without any key,
the ciphertext of **every** message at **every** timestamp, the one `Enc` gives under the user's key. -/
theorem C99_forge_counterexample (env : Env) {pp : Param} (hl1 : LiveGen env pp.curve1) (hl2 : LiveGen env pp.curve2)
    (k : Coins) (ek : ℤ) (m1 : Msg) {t1 : ℤ} (ht : ¬ CC.order ∣ t1) :
    Ends (setup env pp k) fun s => Ends (enc env s.1 (Fld.mk' CC.fn ek) m1 t1) fun c1 => ∀ (m : Msg) (t : ℤ),
      Ends (maskAt env s.1 c1 m1.val t1 t) fun w =>
        EqP env CC (encFrom env s.1 w m.val) (enc env s.1 (Fld.mk' CC.fn ek) m t) := by
  obtain ⟨pp', v1, v2, e1, r, -, -⟩ := setup_rep hl1 hl2 k
  have ht' : (t1 : F) ≠ 0 := by rw [Ne, ZMod.intCast_zmod_eq_zero_iff_dvd]; exact ht
  obtain ⟨c1, -, f1, -⟩ := maskAt_rep r (ek : F) m1 ht' 0
  refine ⟨_, e1, c1, by rw [Fld.mk'_eq]; exact f1, fun m t => ?_⟩
  obtain ⟨c1', w, f1', f2, f3⟩ := maskAt_rep r (ek : F) m1 ht' t
  obtain rfl := Except.ok.inj (f1.symm.trans f1')
  obtain ⟨y, g1, g2⟩ := smulI_rep r.g1 (m.val : ℤ)
  obtain ⟨x, h1, h2⟩ := add_rep f3 g2
  obtain ⟨c, i1, i2⟩ := enc_rep r (ek : F) m t
  refine ⟨w, f2, ?_⟩
  rw [Fld.mk'_eq]
  refine eqP_of_rep ⟨x, R.bind_eq_ok.2 ⟨y, g1, h1⟩, h2⟩ ⟨c, i1, i2⟩ (by push_cast; rfl)

/-- C99 is false: with one known message of a user and its ciphertext at a timestamp other than 0, `compute_dlog` reads
every message (but 65535) of that user at every timestamp. -/
theorem C99_read_counterexample (env : Env) {pp : Param} (hl1 : LiveGen env pp.curve1) (hl2 : LiveGen env pp.curve2)
    (k : Coins) (ek : ℤ) (m1 : Msg) {t1 : ℤ} (ht : ¬ CC.order ∣ t1) :
    Ends (setup env pp k) fun s => Ends (enc env s.1 (Fld.mk' CC.fn ek) m1 t1) fun c1 => ∀ (m : Msg) (t : ℤ),
      m.val < 65535 → Ends (enc env s.1 (Fld.mk' CC.fn ek) m t) fun c => Ends (maskAt env s.1 c1 m1.val t1 t) fun w =>
        Ends (openWith env c w) fun x => computeDlog env s.1 x = .ok m := by
  obtain ⟨pp', v1, v2, e1, r, -, -⟩ := setup_rep hl1 hl2 k
  have ht' : (t1 : F) ≠ 0 := by rw [Ne, ZMod.intCast_zmod_eq_zero_iff_dvd]; exact ht
  obtain ⟨c1, -, f1, -⟩ := maskAt_rep r (ek : F) m1 ht' 0
  refine ⟨_, e1, c1, by rw [Fld.mk'_eq]; exact f1, fun m t hm => ?_⟩
  obtain ⟨c1', w, f1', f2, f3⟩ := maskAt_rep r (ek : F) m1 ht' t
  obtain rfl := Except.ok.inj (f1.symm.trans f1')
  obtain ⟨c, i1, i2⟩ := enc_rep r (ek : F) m t
  obtain ⟨x, h3, h2⟩ := openWith_rep i2 f3
  rw [add_sub_cancel_left] at h2
  have h4 : computeDlog env pp' x = .ok m := by
    rw [computeDlog_ok r (x := ((m.val : ℕ) : F)) h2]
    have hv : ((m.val : ℕ) : F).val = m.val := ZMod.val_cast_of_lt (lt_trans m.isLt (by decide))
    rw [hv, if_pos hm]
    exact congrArg _ (Fin.ext (Nat.mod_eq_of_lt m.isLt))
  rw [← Fld.mk'_eq] at i1
  exact ⟨c, i1, w, f2, x, h3, h4⟩

/-- from the ciphertext of 7 at timestamp 3: a ciphertext of 9 at timestamp 6 that is the user's own -/
example : ¬ CC.order ∣ (3 : ℤ) ∧ (do
    let (pp, ks) ← setup env0 (ctor (some 0) (some 0)) ⟨77, 5, [(11, 12)]⟩
    let c1 ← enc env0 pp (ks.ekv.headD (Fld.zero CC.fn)) 7 3
    let c ← enc env0 pp (Fld.mk' CC.fn 11) 9 6
    let w ← maskAt env0 pp c1 7 3 6
    let c' ← encFrom env0 pp w 9
    c.beq env0 CC c') = .ok true := by decide +kernel

end Puda
end Verif
