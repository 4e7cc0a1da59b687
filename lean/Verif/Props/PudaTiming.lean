import Verif.Model.TimingPuda
import Verif.Props.PudaMore

/-!
# C118: what the time of `Agg` tells
-/

namespace Verif
namespace Puda

open EC

theorem dlogLoopT_fst (env : Env) (pp : Param) (c : Pt) (left i : ℕ) :
    (dlogLoopT env pp c left i).map Prod.fst = dlogLoop env pp c left i := by
  induction left generalizing i with
  | zero => rfl
  | succ left ih =>
    rw [dlogLoopT, dlogLoop]
    rcases pp.g1.smulZ env CC i with e | x
    · rfl
    rw [R.ok_bind, R.ok_bind]
    rcases x.beq env CC c with e | b
    · rfl
    rw [R.ok_bind, R.ok_bind, ← ih (i + 1)]
    cases b
    · rw [if_neg (by simp), if_neg (by simp)]
      cases dlogLoopT env pp c left (i + 1) <;> rfl
    · rfl

/-- **C118**: counting does not change the result, whatever it is. -/
theorem C118_same (env : Env) (pp : Param) (ak : Fld) (cs tags : List Pt) (t : ℤ) :
    (aggT env pp ak cs tags t).map Prod.fst = agg env pp ak cs tags t := by
  unfold aggT agg
  rcases sumLoop env (Pt.infty CC) cs with e | c
  · rfl
  rcases sumLoop env (Pt.infty CC) tags with e | tg
  · rfl
  simp only [R.ok_bind]
  rcases pp.hash.smulZ env CC t with e | ht
  · rfl
  simp only [R.ok_bind]
  rcases ht.smul env CC ak with e | x
  · rfl
  simp only [R.ok_bind]
  rcases c.add env CC x with e | c'
  · rfl
  simp only [R.ok_bind]
  rw [computeDlog, ← dlogLoopT_fst]
  cases dlogLoopT env pp c' 65535 0 <;> rfl

theorem dlogLoopT_ok {env : Env} {pp : Param} {H : Grp CC} (r : RepParam env pp H) {c : Pt} {x : F}
    (hc : Rep env c (x • (G : Grp CC))) (left i : ℕ) (hi : i + left ≤ 65535) (hx : i ≤ x.val) :
    dlogLoopT env pp c left i =
      .ok (if x.val < i + left then (Fin.ofNat 65536 x.val, x.val - i + 1) else (0, left)) := by
  induction left generalizing i with
  | zero => simp [dlogLoopT, Nat.not_lt.2 hx]
  | succ left ih =>
    obtain ⟨z, e1, e2⟩ := smulI_rep r.g1 (i : ℤ)
    have hfn : 65536 < CC.fn := by decide
    have hiff : ((i : ℤ) : F) • (G : Grp CC) = x • (G : Grp CC) ↔ x.val = i := by
      rw [smul_inj G_ne_zero, Int.cast_natCast]
      constructor
      · rintro h
        rw [← h, ZMod.val_natCast, Nat.mod_eq_of_lt (by omega)]
      · intro h
        rw [← h, ZMod.natCast_zmod_val]
    simp only [dlogLoopT, e1, R.ok_bind, rep_beq e2 hc, hiff, decide_eq_true_eq]
    by_cases h : x.val = i
    · rw [if_pos h, if_pos (by omega), h, Nat.sub_self]
    · rw [if_neg h, ih (i + 1) (by omega) (by omega), R.ok_bind]
      by_cases h' : x.val < i + (left + 1)
      · rw [if_pos h', if_pos (by omega)]
        exact congrArg (fun n => Except.ok (_, n)) (by omega)
      · rw [if_neg h', if_neg (by omega)]

/-- **C118** (that the time of `Agg` does not depend on the messages) is false: for any number of users, any draws and timestamp and
with the ciphertexts in any order, the number of iterations is the sum of the messages (modulo the group order) plus 1 when that is
below 65535, and 65535 otherwise. -/
theorem C118_counterexample (env : Env) {pp : Param} (hl1 : LiveGen env pp.curve1) (hl2 : LiveGen env pp.curve2) (k : Coins)
    (ms : List Msg) (hlen : k.users.length = ms.length) (t : ℤ) {tags : List Pt} (htags : ∀ x ∈ tags, Valid env CC x) :
    Ends (setup env pp k) fun s => Ends (encAll env s.1 t (s.2.ekv.zip ms)) fun cs =>
      ∀ cs', cs'.Perm cs → Ends (aggT env s.1 s.2.ak cs' tags t) fun res =>
        (res.2 : ℤ) = if ((ms.map Fin.val).sum : ℤ) % CC.order < 65535 then ((ms.map Fin.val).sum : ℤ) % CC.order + 1 else 65535 := by
  obtain ⟨pp', v1, v2, e1, r, -, -⟩ := setup_rep hl1 hl2 k
  refine ⟨_, e1, ?_⟩
  obtain ⟨cs, As, e2, h2, h3⟩ := encAll_rep r t k.users ms hlen
  refine ⟨cs, e2, fun cs' hp => ?_⟩
  obtain ⟨As', h4, h5⟩ : ∃ As', List.Forall₂ (Rep env) cs' As' ∧ As'.Perm As :=
    List.perm_comp_forall₂ hp h2
  obtain ⟨Ts, h6⟩ : ∃ Ts : List (Grp CC), List.Forall₂ (Rep env) tags Ts := by
    clear hlen e1 e2 h2 h3 hp h4 h5
    induction tags with
    | nil => exact ⟨[], .nil⟩
    | cons x xs ih =>
      obtain ⟨T, hT⟩ := valid_iff.1 (htags x (by simp))
      obtain ⟨Ts, hTs⟩ := ih (fun y hy => htags y (by simp [hy]))
      exact ⟨T :: Ts, .cons hT hTs⟩
  obtain ⟨c, a1, a2⟩ := sumLoop_rep (rep_infty (env := env) (C := CC)) h4
  obtain ⟨tg, b1, b2⟩ := sumLoop_rep (rep_infty (env := env) (C := CC)) h6
  obtain ⟨ht, c1, c2⟩ := smulI_rep r.hash t
  obtain ⟨y, d1, d2⟩ := smulF_rep c2 (-(k.users.map fun u : ℤ × ℤ => (u.1 : F)).sum)
  obtain ⟨z, f1, f2⟩ := add_rep a2 d2
  rw [zero_add, show As'.sum + -(k.users.map fun u : ℤ × ℤ => (u.1 : F)).sum • (t : F) • (_ : Grp CC) =
    ((total ms : ℕ) : F) • (G : Grp CC) by rw [h5.sum_eq, h3]; module] at f2
  refine ⟨_, by simp only [aggT, a1, b1, c1, d1, f1, R.ok_bind, dlogLoopT_ok r f2 65535 0 (by omega) (by omega)]; rfl, ?_⟩
  have ho : CC.order = (CC.fn : ℤ) := by decide
  rw [ho, ZMod.val_natCast]
  change (((if total ms % CC.fn < 0 + 65535 then (Fin.ofNat 65536 (total ms % CC.fn), total ms % CC.fn - 0 + 1) else
    ((0 : Msg), 65535) : Msg × ℕ).2 : ℕ) : ℤ) = _
  change _ = if ((total ms : ℕ) : ℤ) % _ < _ then ((total ms : ℕ) : ℤ) % _ + 1 else _
  rw [← Int.natCast_mod]
  generalize total ms % CC.fn = v
  by_cases h : v < 65535
  · rw [if_pos (by omega), if_pos (by omega)]
    push_cast
    omega
  · rw [if_neg (by omega), if_neg (by omega)]
    rfl

/-- **C118**: the time tells what the result does not: `Agg` returns 0 both for the sum 0 and for a sum that is out of reach, after
one iteration and after 65535. -/
theorem C118_zero_counterexample (env : Env) {pp : Param} (hl1 : LiveGen env pp.curve1) (hl2 : LiveGen env pp.curve2) (k : Coins)
    (ms : List Msg) (hlen : k.users.length = ms.length) (hu : ms.length < 2 ^ 200) (t : ℤ) {tags : List Pt}
    (htags : ∀ x ∈ tags, Valid env CC x) :
    Ends (setup env pp k) fun s => Ends (encAll env s.1 t (s.2.ekv.zip ms)) fun cs =>
      ∀ cs', cs'.Perm cs → Ends (aggT env s.1 s.2.ak cs' tags t) fun res => res.1.1 = 0 →
        (res.2 = 1 ∧ ∀ m ∈ ms, m = 0) ∨ (res.2 = 65535 ∧ 65535 ≤ (ms.map Fin.val).sum) := by
  obtain ⟨s, e1, cs, e2, h⟩ := C118_counterexample env hl1 hl2 k ms hlen t htags
  obtain ⟨s', e1', cs', e2', h'⟩ := C37_exact env hl1 hl2 k ms hlen t htags
  obtain rfl := Except.ok.inj (e1.symm.trans e1')
  obtain rfl := Except.ok.inj (e2.symm.trans e2')
  refine ⟨s, e1, cs, e2, fun ds hd => ?_⟩
  obtain ⟨res, f1, f2⟩ := h ds hd
  obtain ⟨res', g1, g2⟩ := h' ds hd
  refine ⟨res, f1, fun h0 => ?_⟩
  have hs := C118_same env s.1 s.2.ak ds tags t
  rw [f1, g1] at hs
  obtain rfl : res.1 = res' := Except.ok.inj hs
  have hb : (ms.map Fin.val).sum ≤ ms.length * 65535 := by
    clear hlen hu h h' f2 g2 e1 e2 e1' e2' hd f1 g1 hs
    induction ms with
    | nil => simp
    | cons m ms ih =>
      rw [List.map_cons, List.sum_cons, List.length_cons, add_mul, one_mul]
      have := m.isLt
      omega
  have ho : ((ms.map Fin.val).sum : ℤ) % CC.order = ((ms.map Fin.val).sum : ℤ) := by
    refine Int.emod_eq_of_lt (Int.natCast_nonneg _) ?_
    have h1 : (2 : ℤ) ^ 200 * 65535 < CC.order := by decide
    have h2 : (ms.length : ℤ) < 2 ^ 200 := by exact_mod_cast hu
    have h3 : ((ms.map Fin.val).sum : ℤ) ≤ ms.length * 65535 := by exact_mod_cast hb
    linarith
  rw [ho] at f2
  change ((res.1.1.val : ℕ) : ℤ) = if ((ms.map Fin.val).sum : ℤ) % _ < _ then ((ms.map Fin.val).sum : ℤ) % _ else 0 at g2
  rw [ho, h0] at g2
  change ((0 : ℕ) : ℤ) = _ at g2
  by_cases hlt : ((ms.map Fin.val).sum : ℤ) < 65535
  · rw [if_pos hlt] at f2 g2
    refine .inl ⟨by omega, fun m hm => ?_⟩
    have hz : (ms.map Fin.val).sum = 0 := by omega
    have := List.sum_eq_zero_iff.1 hz m.val (List.mem_map_of_mem hm)
    exact Fin.ext this
  · rw [if_neg hlt] at f2
    exact .inr ⟨by omega, by omega⟩

/-- two users who send 2 and 3: six iterations -/
example : (do
    let (pp, ks) ← setup env0 (ctor (some 0) (some 0)) ⟨77, 5, [(11, 12), (13, 14)]⟩
    let cs ← encAll env0 pp 9 (ks.ekv.zip [2, 3])
    let r ← aggT env0 pp ks.ak cs [] 9
    .ok (r.1.1, r.2)) = .ok (5, 6) := by decide +kernel

end Puda
end Verif
