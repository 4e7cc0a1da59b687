import Verif.Props.PudaPair
import Verif.Props.PudaForge

/-!
# C116: what the holder of the verification key can do with tags

`CURVE1` and `CURVE2` are the same curve with the same default generator (`includes/puda.hpp:13-20`), so `vk_2 = g2 * a` is
`g1 * a`, the point that `Tag` multiplies by the message.
-/

namespace Verif
namespace Puda

open EC

/-- what the holder of `vk` makes of a tag: `tag + vk_2 * d` -/
def shiftTag (env : Env) (vk : VerifKey) (T : Pt) (d : ℤ) : R Pt := do
  let y ← vk.vk2.smulZ env CC d
  T.add env CC y

/-- what the holder of `vk` computes to test the guesses `g1`, `g2` of the messages whose tags, made at `t1`, `t2`, are `T1`, `T2`:
whether `T1 * t2 + vk_2 * (t1 * g2) == T2 * t1 + vk_2 * (t2 * g1)` -/
def testTags (env : Env) (vk : VerifKey) (T1 T2 : Pt) (t1 t2 : ℤ) (g1 g2 : Msg) : R Bool := do
  let a ← T1.smulZ env CC t2
  let b ← vk.vk2.smulZ env CC (t1 * g2.val)
  let x ← a.add env CC b
  let a ← T2.smulZ env CC t1
  let b ← vk.vk2.smulZ env CC (t2 * g1.val)
  let y ← a.add env CC b
  x.beq env CC y

/-- C116 is false: the holder of the verification key turns the tag of any user at any timestamp into the tag `Tag` gives for any other
message; only the difference of the messages has to be known. -/
theorem C116_user_counterexample (env : Env) {pp : Param} (hl1 : LiveGen env pp.curve1) (hl2 : LiveGen env pp.curve2) (k : Coins) :
    Ends (setup env pp k) fun s => ∀ sk ∈ s.2.skv, ∀ (m m' : Msg) (t : ℤ), Ends (tag env s.1 sk m t) fun T =>
      EqP env CC (shiftTag env s.2.vk T (m'.val - m.val)) (tag env s.1 sk m' t) := by
  obtain ⟨qq, v1, v2, e1, r, -, hv2⟩ := setup_rep hl1 hl2 k
  refine ⟨_, e1, fun sk hs m m' t => ?_⟩
  obtain ⟨u, -, rfl⟩ := List.mem_map.1 hs
  obtain ⟨T, f1, f2⟩ := tag_rep r (((k.a : F)).val : ℤ) (u.2 : F) m t
  obtain ⟨T', g1, g2⟩ := tag_rep r (((k.a : F)).val : ℤ) (u.2 : F) m' t
  obtain ⟨y, a1, a2⟩ := smulI_rep hv2 ((m'.val : ℤ) - m.val)
  obtain ⟨z, b1, b2⟩ := add_rep f2 a2
  refine ⟨T, f1, eqP_of_rep ⟨z, R.bind_eq_ok.2 ⟨y, a1, b1⟩, b2⟩ ⟨T', g1, g2⟩ ?_⟩
  rw [Int.cast_natCast, ZMod.natCast_zmod_val]
  push_cast
  module

/-- C116 is false: from any tag that satisfies the verification equation for some sum, the holder of the verification key makes one that
satisfies it for every other sum at the same timestamp. -/
theorem C116_counterexample (env : Env) {pp : Param} (hl1 : LiveGen env pp.curve1) (hl2 : LiveGen env pp.curve2) (k : Coins)
    {A : Type} [AddCommGroup A] {e : Pt → Pt → A} (he : Pairing env e) :
    Ends (setup env pp k) fun s => ∀ (T : Pt) (sum d t : ℤ), Valid env CC T → VerifEq env e s.1 s.2.vk sum T t →
      Ends (shiftTag env s.2.vk T d) fun T' => VerifEq env e s.1 s.2.vk (sum + d) T' t := by
  obtain ⟨qq, v1, v2, e1, r, hv1, hv2⟩ := setup_rep hl1 hl2 k
  refine ⟨_, e1, fun T sum d t hT hv => ?_⟩
  obtain ⟨X, hX⟩ := valid_iff.1 hT
  obtain ⟨y, a1, a2⟩ := smulI_rep hv2 d
  obtain ⟨z, b1, b2⟩ := add_rep hX a2
  refine ⟨z, R.bind_eq_ok.2 ⟨y, a1, b1⟩, ?_⟩
  obtain ⟨ht, gs, h1, h2, h3⟩ := hv
  obtain ⟨ht', i1, i2⟩ := smulI_rep r.hash t
  obtain rfl := Except.ok.inj (h1.symm.trans i1)
  obtain ⟨gs', j1, j2⟩ := smulI_rep r.g1 sum
  obtain rfl := Except.ok.inj (h2.symm.trans j1)
  obtain ⟨gw, n1, n2⟩ := smulI_rep r.g1 (sum + d)
  refine ⟨ht, gw, h1, n1, ?_⟩
  obtain ⟨E, hE⟩ := he.hom hl1
  rw [hE _ _ _ _ hX r.g2, hE _ _ _ _ i2 hv1, hE _ _ _ _ j2 hv2] at h3
  rw [hE _ _ _ _ b2 r.g2, hE _ _ _ _ i2 hv1, hE _ _ _ _ n2 hv2, map_add, AddMonoidHom.add_apply, h3, add_assoc, ← hom_smul₂ E (k.a : F),
    ← hom_smul₂ E (k.a : F), ← AddMonoidHom.add_apply, ← map_add]
  congr 3
  push_cast
  module

/-- C116 is false: with the verification key the tags of one user at two timestamps tell `t2 * m1 - t1 * m2`, whatever the keys (the
secret `a` not 0). -/
theorem C116_test_counterexample (env : Env) {pp : Param} (hl1 : LiveGen env pp.curve1) (hl2 : LiveGen env pp.curve2) {k : Coins}
    (ha : ¬ CC.order ∣ k.a) {t1 t2 : ℤ} (h1 : -2 ^ 31 ≤ t1) (h2 : t1 < 2 ^ 31) (h3 : -2 ^ 31 ≤ t2) (h4 : t2 < 2 ^ 31) :
    Ends (setup env pp k) fun s => ∀ sk ∈ s.2.skv, ∀ m1 m2 : Msg, Ends (tag env s.1 sk m1 t1) fun T1 =>
      Ends (tag env s.1 sk m2 t2) fun T2 => ∀ g1 g2 : Msg, Ends (testTags env s.2.vk T1 T2 t1 t2 g1 g2) fun b =>
        (b = true ↔ t2 * m1.val - t1 * m2.val = t2 * g1.val - t1 * g2.val) := by
  obtain ⟨qq, v1, v2, e1, r, -, hv2⟩ := setup_rep hl1 hl2 k
  refine ⟨_, e1, fun sk hs m1 m2 => ?_⟩
  obtain ⟨u, -, rfl⟩ := List.mem_map.1 hs
  obtain ⟨c1, f1, f2⟩ := tag_rep r (((k.a : F)).val : ℤ) (u.2 : F) m1 t1
  obtain ⟨c2, f1', f2'⟩ := tag_rep r (((k.a : F)).val : ℤ) (u.2 : F) m2 t2
  rw [Int.cast_natCast, ZMod.natCast_zmod_val] at f2 f2'
  refine ⟨c1, f1, c2, f1', fun g1 g2 => ?_⟩
  obtain ⟨a, a1, a2⟩ := smulI_rep f2 t2
  obtain ⟨b, b1, b2⟩ := smulI_rep hv2 (t1 * g2.val)
  obtain ⟨x, x1, x2⟩ := add_rep a2 b2
  obtain ⟨a', a1', a2'⟩ := smulI_rep f2' t1
  obtain ⟨b', b1', b2'⟩ := smulI_rep hv2 (t2 * g1.val)
  obtain ⟨y, y1, y2⟩ := add_rep a2' b2'
  refine ⟨_, by simp only [testTags, a1, b1, x1, a1', b1', y1, R.ok_bind]; exact rep_beq x2 y2, ?_⟩
  beta_reduce
  rw [decide_eq_true_eq]
  have hz := small_zero (cross_small h1 h2 h3 h4 m1 m2 g1 g2)
  have ha' : (k.a : F) ≠ 0 := by rw [Ne, ZMod.intCast_zmod_eq_zero_iff_dvd]; exact ha
  rw [show (t2 * m1.val - t1 * m2.val = t2 * g1.val - t1 * g2.val) ↔
    t2 * ((m1.val : ℤ) - g1.val) - t1 * ((m2.val : ℤ) - g2.val) = 0 by constructor <;> intro h <;> linarith, ← hz,
    ← smul_eq_zero_iff_left (smul_ne_zero ha' (G_ne_zero (C := CC))), ← sub_eq_zero (a := (_ : Grp CC))]
  push_cast
  refine Eq.congr_left ?_
  module

/-- the tag of 7 at timestamp 3 made into that of 1000, and the messages 7 and 900 read from tags at successive times in seconds -/
example : ¬ CC.order ∣ (5 : ℤ) ∧ (do
    let (pp, ks) ← setup env0 (ctor (some 0) (some 0)) ⟨77, 5, [(11, 12), (13, 14)]⟩
    let sk := ks.skv.headD ⟨0, Fld.zero CC.fn⟩
    let T ← tag env0 pp sk 7 3
    let T' ← shiftTag env0 ks.vk T 993
    let T'' ← tag env0 pp sk 1000 3
    let e ← T'.beq env0 CC T''
    let c1 ← tag env0 pp sk 7 1700000000
    let c2 ← tag env0 pp sk 900 1700000001
    let a ← testTags env0 ks.vk c1 c2 1700000000 1700000001 7 900
    let b ← testTags env0 ks.vk c1 c2 1700000000 1700000001 8 901
    .ok (e, a, b)) = .ok (true, true, false) := ⟨by decide, by decide +kernel⟩

end Puda
end Verif
