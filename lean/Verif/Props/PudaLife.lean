import Verif.Props.Puda
import Verif.Props.CurveCopy

/-!
# C119: a copy of a `Puda` object whose original is gone

`Puda` declares no copy constructor (`includes/puda.hpp:66-82`), so the implicit one copies `pp` with the two pointers and the
curve pointers inside the points.  In the model the copy of a `Param` is the same value.
-/

namespace Verif
namespace Puda

open EC

/-- the heap after `~Puda()` (`src/puda/puda.cpp:14-18`) of an object with the curve objects at `a` and `b` -/
def dtor (env : Env) (a b : Addr) : Env := (env.free a).free b

theorem dtor_dead (env : Env) (a b : Addr) : ¬ Live (dtor env a b) (some a) := by
  rintro ⟨x, o, h, h'⟩
  obtain rfl := Option.some.inj h
  simp [dtor, Env.free] at h'

/-- the generator stored by `Setup` refers to the first curve object -/
theorem setup_g1 {env : Env} {pp : Param} {a : Addr} (h1 : pp.curve1 = some a) (ha : env.heap a = some ⟨a⟩) {k : Coins} {s : Param × Keys}
    (h : setup env pp k = .ok s) : s.1.g1 = Pt.ofZ CC CC.gx CC.gy (some a) := by
  rw [setup, h1, getDefaultGen_some ha, R.ok_bind] at h
  obtain ⟨g2, -, h⟩ := R.bind_eq_ok.1 h
  obtain ⟨hs, -, h⟩ := R.bind_eq_ok.1 h
  obtain ⟨af, -, h⟩ := R.bind_eq_ok.1 h
  obtain ⟨q, -, h⟩ := R.bind_eq_ok.1 h
  obtain ⟨v1, -, h⟩ := R.bind_eq_ok.1 h
  obtain ⟨v2, -, h⟩ := R.bind_eq_ok.1 h
  obtain rfl := Except.ok.inj h
  rfl

theorem gen_dead (env : Env) (a b : Addr) {z : ℤ} (h : 2 ≤ z) (hz : z < CC.order) :
    Faults ((Pt.ofZ CC CC.gx CC.gy (some a)).smulZ (dtor env a b) CC z) :=
  smul_dead rfl (dtor_dead env a b) (by rw [mk'_value_of_lt (.inr rfl) (by omega) hz]; exact h)

theorem Faults.bind {α β : Type} {x : R α} (h : Faults x) (f : α → R β) : Faults (x >>= f) := by
  obtain ⟨e, rfl⟩ := h
  exact ⟨e, rfl⟩

theorem Faults.after {α β : Type} {x : R α} {f : α → R β} (h : ∀ y, Faults (f y)) : Faults (x >>= f) := by
  rcases x with e | y
  · exact ⟨e, rfl⟩
  · exact h y

/-- C119 is false: after the original has been destroyed, `Enc` on the copy is use after free for all messages but 0 and 1, whatever
the key and the timestamp, in both builds. -/
theorem C119_enc_counterexample (env : Env) {pp : Param} {a b : Addr} (h1 : pp.curve1 = some a) (ha : env.heap a = some ⟨a⟩)
    (hl2 : LiveGen env pp.curve2) (k : Coins) :
    Ends (setup env pp k) fun s => ∀ (ek : Fld) (m : Msg) (t : ℤ), 2 ≤ m.val → Faults (enc (dtor env a b) s.1 ek m t) := by
  obtain ⟨qq, v1, v2, e1, -⟩ := setup_rep ⟨a, _, h1, ha, _, ha⟩ hl2 k
  have hg := setup_g1 h1 ha e1
  refine ⟨_, e1, fun ek m t hm => ?_⟩
  refine Faults.after fun ht => Faults.after fun x => Faults.bind ?_ _
  change Faults (qq.g1.smulZ _ _ _)
  rw [show qq.g1 = _ from hg]
  refine gen_dead env a b (by omega) ?_
  have := m.isLt
  have : (65536 : ℤ) < CC.order := by decide
  omega

/-- C119 is false: so is `Tag` on the copy for all users, messages and timestamps, unless the drawn `a` is 0 or 1. -/
theorem C119_tag_counterexample (env : Env) {pp : Param} {a b : Addr} (h1 : pp.curve1 = some a) (ha : env.heap a = some ⟨a⟩)
    (hl2 : LiveGen env pp.curve2) (k : Coins) (hk : 2 ≤ k.a % CC.order) :
    Ends (setup env pp k) fun s => ∀ sk ∈ s.2.skv, ∀ (m : Msg) (t : ℤ), Faults (tag (dtor env a b) s.1 sk m t) := by
  obtain ⟨qq, v1, v2, e1, -⟩ := setup_rep ⟨a, _, h1, ha, _, ha⟩ hl2 k
  have hg := setup_g1 h1 ha e1
  refine ⟨_, e1, fun sk hs m t => ?_⟩
  obtain ⟨u, -, rfl⟩ := List.mem_map.1 hs
  refine Faults.after fun ht => Faults.after fun x => Faults.bind ?_ _
  change Faults (qq.g1.smulZ _ _ _)
  rw [show qq.g1 = _ from hg]
  have hv : (((k.a : F)).val : ℤ) = k.a % CC.order := by
    rw [ZMod.val_intCast]
    rfl
  change Faults (Pt.smulZ _ _ _ (((k.a : F)).val : ℤ))
  rw [hv]
  exact gen_dead env a b hk (Int.emod_lt_of_pos _ (by decide))

/-- C119 is false: `Agg` on the copy never returns a sum above 1, whatever it is given: it is use after free or the number is 0 or 1. -/
theorem C119_agg_counterexample (env : Env) {pp : Param} {a b : Addr} (h1 : pp.curve1 = some a) (ha : env.heap a = some ⟨a⟩)
    (hl2 : LiveGen env pp.curve2) (k : Coins) :
    Ends (setup env pp k) fun s => ∀ (ak : Fld) (cs tags : List Pt) (t : ℤ) (r : Msg × Pt),
      agg (dtor env a b) s.1 ak cs tags t = .ok r → r.1.val ≤ 1 := by
  obtain ⟨qq, v1, v2, e1, -⟩ := setup_rep ⟨a, _, h1, ha, _, ha⟩ hl2 k
  have hg : qq.g1 = _ := setup_g1 h1 ha e1
  refine ⟨_, e1, fun ak cs tags t r h => ?_⟩
  obtain ⟨c, -, h⟩ := R.bind_eq_ok.1 h
  obtain ⟨tg, -, h⟩ := R.bind_eq_ok.1 h
  obtain ⟨ht, -, h⟩ := R.bind_eq_ok.1 h
  obtain ⟨x, -, h⟩ := R.bind_eq_ok.1 h
  obtain ⟨c', -, h⟩ := R.bind_eq_ok.1 h
  obtain ⟨m, h', h⟩ := R.bind_eq_ok.1 h
  obtain rfl := Except.ok.inj h
  have step : ∀ left i, i ≤ 2 → dlogLoop (dtor env a b) qq c' (left + 1) i = .ok m →
      (i = 2 → False) ∧ (m = Fin.ofNat 65536 i ∨ dlogLoop (dtor env a b) qq c' left (i + 1) = .ok m) := by
    intro left i hi h
    rw [dlogLoop] at h
    obtain ⟨x, f1, h⟩ := R.bind_eq_ok.1 h
    obtain ⟨e, -, h⟩ := R.bind_eq_ok.1 h
    refine ⟨fun h2 => ?_, ?_⟩
    · rw [hg, h2] at f1
      obtain ⟨er, he⟩ := gen_dead env a b (z := ((2 : ℕ) : ℤ)) (by norm_num) (by decide)
      rw [he] at f1
      cases f1
    · cases e
      · exact .inr h
      · exact .inl (Except.ok.inj h).symm
  obtain ⟨-, s1⟩ := step 65534 0 (by omega) h'
  rcases s1 with rfl | h'
  · exact Nat.le_of_ble_eq_true rfl
  obtain ⟨-, s1⟩ := step 65533 1 (by omega) h'
  rcases s1 with rfl | h'
  · exact Nat.le_of_ble_eq_true rfl
  exact ((step 65532 2 (by omega) h').1 rfl).elim

/-- the heap of the example: two curve objects -/
def twoCurves (ndebug : Bool) : Env := ⟨ndebug, fun x => if x = 0 ∨ x = 1 then some ⟨x⟩ else none⟩

/-- with the object alive the copy gives the ciphertext of 7; with the object destroyed it is use after free, without assertions too -/
example : (do
    let (pp, ks) ← setup (twoCurves true) (ctor (some 0) (some 1)) ⟨77, 5, [(11, 12), (13, 14)]⟩
    let c ← enc (twoCurves true) pp (ks.ekv.headD (Fld.zero CC.fn)) 7 1
    .ok (c.inf, (enc (dtor (twoCurves true) 0 1) pp (ks.ekv.headD (Fld.zero CC.fn)) 7 1).map Pt.inf)) =
      .ok (false, .error .useAfterFree) ∧ (2 : ℤ) ≤ 5 % CC.order := ⟨by decide +kernel, by decide⟩

end Puda
end Verif
