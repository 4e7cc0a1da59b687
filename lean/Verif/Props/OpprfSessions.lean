import Verif.Props.OpprfView
import Verif.Props.OpprfTwice

/-!
# C97 for any number of sessions of one server
-/

namespace Verif
namespace Opprf

open Dme Ot Aes EC

/-- one session of a server: the draws of `prepareKeysAndInputs`, the input of the client, and the draw of the `clean()` at its end -/
structure OneSession where
  prep : PrepCoins
  x : Msg
  gk : ℤ

/-- `prepareKeysAndInputs()` and `clean()` in turn; the result is the input of the client and the prepared server of each session -/
def serveAll (W : World) : Server → List OneSession → R (List (Msg × Server))
  | _, [] => .ok []
  | s, e :: l => do
    let t ← s.prepare W e.prep
    let s ← t.clean W.env e.gk
    let ts ← serveAll W s l
    .ok ((e.x, t) :: ts)

/-- the client of a session sees the same: keys, sealed keys, points on the path of its input, and the mask -/
def SameSession (env : Env) (p p' : Msg × Server) : Prop :=
  p'.1 = p.1 ∧ SameEntries env p.1 p.2 p'.2 ∧ EqP env CC (maskOf env p.2) (maskOf env p'.2)

/-- draws of a session that differ in `kopprf` and the scalars only, these being in the range of `getRandomScalar` -/
def Redrawn (e e' : OneSession) : Prop :=
  (SameKeys e.prep e'.prep ∧ Coin e'.prep.kopprf ∧ ∀ b ∈ e'.prep.bits, Coin b.ok) ∧ e'.x = e.x ∧ e'.gk = e.gk

theorem sessions_aux {W : World} {ga' : Pt} (hga : Valid W.env CC ga') (l : List OneSession)
    (hl : ∀ e ∈ l, e.prep.bits.length = 16 ∧ Sealable W e.prep ∧ ¬ CC.order ∣ e.prep.r) {s : Server} (hs : Fresh W.env s) (a b : InputL) :
    Ends (serveAll W s l) fun ts => ∃! l', List.Forall₂ Redrawn l l' ∧
      Ends (serveAll W { s with ga := ga', Sl0 := a, Sl1 := b } l') fun ts' => List.Forall₂ (SameSession W.env) ts ts' := by
  induction l generalizing s a b with
  | nil =>
    refine ⟨[], rfl, [], ⟨.nil, [], rfl, .nil⟩, ?_⟩
    rintro l' ⟨h, -⟩
    exact List.forall₂_nil_left_iff.1 h
  | cons e l ih =>
    obtain ⟨hb, hk, hr⟩ := hl e (by simp)
    obtain ⟨t, h1, k', ⟨⟨h2, t', h3, h4⟩, h5⟩⟩ := C97_hides hs hga hb hk hr e.x
    have live : ∀ {c : Option Addr} (z : ℤ), c = s.curve → ∃ g, Curve.getRandomPoint W.env CC c z = .ok g := by
      rintro c z rfl
      obtain ⟨g, hg, -⟩ := randomPoint_rep (C := CC) hs.curve z
      exact ⟨g, hg⟩
    obtain ⟨g, hg⟩ := live e.gk rfl
    -- the state after a session
    have after : ∀ {u v : Server} {k : PrepCoins}, u.prepare W k = .ok v → u.curve = s.curve →
        v.clean W.env e.gk = .ok { u with kopprf := Pt.infty CC, r := Pt.infty CC, gk := g, Sl0 := v.Sl0, Sl1 := v.Sl1, Si0 := List.replicate 16 .default, Si1 := List.replicate 16 .default, k_lt := [], k_eq := [], k_gt := [], ok := [] } := by
      intro u v k hv hu
      obtain ⟨Q, B, os, l0, l1, a, b, -, rfl⟩ := prepare_inv hv
      unfold Server.clean
      simp only [hu, hg, R.ok_bind]
    have frame : ∀ {k : PrepCoins}, Server.prepare W { s with ga := ga', Sl0 := a, Sl1 := b } k = Server.prepare W { s with ga := ga' } k := by
      intro k
      have := prepare_frame (W := W) { s with ga := ga' } s.ots a b k
      simp only at this
      rw [this]
      rcases hp : Server.prepare W { s with ga := ga' } k with err | v
      · rfl
      · obtain ⟨Q, B, os, l0, l1, a, b, -, rfl⟩ := prepare_inv hp
        rfl
    have hs1 : Fresh W.env { s with kopprf := Pt.infty CC, r := Pt.infty CC, gk := g, Sl0 := t.Sl0, Sl1 := t.Sl1, Si0 := List.replicate 16 .default, Si1 := List.replicate 16 .default, k_lt := [], k_eq := [], k_gt := [], ok := [] } :=
      ⟨hs.curve, hs.ga, ⟨rfl, rfl, rfl, rfl⟩, by simp, by simp⟩
    have ih' := fun a b => ih (fun e he => hl e (List.mem_cons_of_mem _ he)) hs1 a b
    obtain ⟨ts, i1, l', ⟨⟨i2, ts', i3, i4⟩, i5⟩⟩ := ih' t'.Sl0 t'.Sl1
    refine ⟨(e.x, t) :: ts, by simp only [serveAll, h1, R.ok_bind, after h1 rfl, i1], ⟨k', e.x, e.gk⟩ :: l',
      ⟨.cons ⟨h2, rfl, rfl⟩ i2, (e.x, t') :: ts', ?_, .cons ⟨rfl, h4⟩ i4⟩, ?_⟩
    · have h6 := after h3 rfl
      simp only [serveAll, frame, h3, R.ok_bind, h6]
      have i3' := i3
      simp only at i3' ⊢
      rw [i3', R.ok_bind]
    · rintro l'' ⟨j1, ts'', j2, j3⟩
      obtain ⟨e'', m'', j4, j5, rfl⟩ := List.forall₂_cons_left_iff.1 j1
      obtain ⟨q1, q2, q3⟩ := j4
      simp only [serveAll, frame] at j2
      obtain ⟨t'', p1, j2⟩ := R.bind_eq_ok.1 j2
      obtain ⟨s'', p2, j2⟩ := R.bind_eq_ok.1 j2
      obtain ⟨us, p3, j2⟩ := R.bind_eq_ok.1 j2
      obtain rfl := Except.ok.inj j2
      obtain ⟨r1, r2⟩ := List.forall₂_cons.1 j3
      have hk' : e''.prep = k' := h5 _ ⟨q1, t'', p1, r1.2⟩
      rw [hk', h3] at p1
      obtain rfl := Except.ok.inj p1
      rw [q3, after h3 rfl] at p2
      obtain rfl := Except.ok.inj p2
      have := i5 m'' ⟨j5, us, p3, r2⟩
      rw [this, ← hk', ← q2, ← q3]

/-- C97 for any number of sessions of one server, `clean()` at the end of each: whatever the inputs `x` of the clients, nothing but
`kopprf + ga * x` of each session is told.  For every other secret exactly one choice of `kopprf` and the scalars of all sessions (with all
keys and each `r`, not infinity, as they are) shows the clients of all sessions the same. -/
theorem C97_sessions {W : World} {s : Server} (hs : Fresh W.env s) {ga' : Pt} (hga : Valid W.env CC ga') (l : List OneSession)
    (hl : ∀ e ∈ l, e.prep.bits.length = 16 ∧ Sealable W e.prep ∧ ¬ CC.order ∣ e.prep.r) :
    Ends (serveAll W s l) fun ts => ts.length = l.length ∧ ∃! l', List.Forall₂ Redrawn l l' ∧
      Ends (serveAll W { s with ga := ga' } l') fun ts' => List.Forall₂ (SameSession W.env) ts ts' := by
  obtain ⟨ts, h1, l', ⟨h2, ts', h3, h4⟩, h5⟩ := sessions_aux hga l hl hs s.Sl0 s.Sl1
  refine ⟨ts, h1, ?_, l', ⟨h2, ts', h3, h4⟩, h5⟩
  clear h2 h3 h4 h5 hl hs
  induction l generalizing s ts with
  | nil =>
    obtain rfl := Except.ok.inj h1
    rfl
  | cons e l ih =>
    rw [serveAll] at h1
    obtain ⟨t, -, h1⟩ := R.bind_eq_ok.1 h1
    obtain ⟨s', -, h1⟩ := R.bind_eq_ok.1 h1
    obtain ⟨us, h2, h1⟩ := R.bind_eq_ok.1 h1
    obtain rfl := Except.ok.inj h1
    rw [List.length_cons, List.length_cons, ih _ h2]

/-- three sessions of the sample server with the inputs 700, 700 and 1001 -/
example : Ends (serveAll Sample.W Sample.srv0 [⟨Sample.draws.prep, 700, 4⟩, ⟨Sample.draws.prep, 700, 5⟩, ⟨Sample.draws.prep, 1001, 6⟩]) fun ts =>
    ts.length = 3 ∧ ∃! l', List.Forall₂ Redrawn [⟨Sample.draws.prep, 700, 4⟩, ⟨Sample.draws.prep, 700, 5⟩, ⟨Sample.draws.prep, 1001, 6⟩] l' ∧
      Ends (serveAll Sample.W { Sample.srv0 with ga := Sample.inf } l') fun ts' => List.Forall₂ (SameSession Sample.W.env) ts ts' :=
  C97_sessions Sample.fresh (valid_iff.2 ⟨0, rep_infty⟩) _ (by
    intro e he
    simp only [List.mem_cons, List.not_mem_nil, or_false] at he
    rcases he with rfl | rfl | rfl <;> exact ⟨by decide, Sample.sealable, by decide⟩)

end Opprf
end Verif
