import Verif.Props.Ot

/-!
# C102: what an aggregate of OT answers tells
-/

namespace Verif
namespace Ot

open EC Dme

attribute [local irreducible] Rep

variable {env : Env}

/-- the same pair of points -/
def SameCtxt (c d : Ctxt) : Prop := SamePoint c.u d.u ∧ SamePoint c.mv d.mv

/-- two answers of an oblivious transfer with the same points -/
def SamePair (c d : List Ctxt) : Prop :=
  ∃ c0 c1 d0 d1, c = [c0, c1] ∧ d = [d0, d1] ∧ SameCtxt c0 d0 ∧ SameCtxt c1 d1

/-- the message and the draws of an answer on a branch -/
def Answer.m (a : Answer) (b : Branch) : Pt := pick b a.m0 a.m1
def Answer.k (a : Answer) (b : Branch) : EncCoins := pick b a.k0 a.k1

/-- the sum of the draws of all answers on a branch, reduced to a draw -/
def sumCoins (b : Branch) (as : List Answer) : EncCoins :=
  ⟨(as.map fun a => (a.k b).s).sum % CC.order, (as.map fun a => (a.k b).t).sum % CC.order⟩

/-- the group elements behind one component of an answer -/
def ansU (g h : Branch → Grp CC) (b : Branch) (a : Answer) : Grp CC := ((a.k b).s : F) • g b + ((a.k b).t : F) • h b

def ansV (A B : Grp CC) (M : Answer → Branch → Grp CC) (b : Branch) (a : Answer) : Grp CC :=
  ((a.k b).s : F) • A + ((a.k b).t : F) • B + M a b

section
variable {crs : Crs} {g h : Branch → Grp CC} {pk : PKey} {A B : Grp CC}

theorem answer_rep (r : RepCrs env crs g h) (hA : Rep env pk.g A) (hB : Rep env pk.h B) {a : Answer}
    (ha : ReadyAns env crs a) {M : Answer → Branch → Grp CC} (hM : ∀ b, Rep env (a.m b) (M a b)) :
    ∃ c : Branch → Ctxt, ∃ s, encMsgs env a.sndr pk a.m0 a.m1 a.k0 a.k1 = .ok ([c .b0, c .b1], s) ∧
      ∀ b, Rep env (c b).u (ansU g h b a) ∧ Rep env (c b).mv (ansV A B M b a) := by
  have rs := r.congr ha.same ha.vcrs
  obtain ⟨c0, -, f0, u0, -, -, v0⟩ := enc_rep ha.live rs hA hB (hM .b0) .b0 a.k0.s a.k0.t
  obtain ⟨c1, -, f1, u1, -, -, v1⟩ := enc_rep ha.live rs hA hB (hM .b1) .b1 a.k1.s a.k1.t
  simp only [Answer.m, pick] at f0 f1
  refine ⟨fun b => pick b c0 c1, { a.sndr with c := [c0, c1] }, by simp only [encMsgs, f0, f1, R.ok_bind, pick], ?_⟩
  rintro (_ | _)
  · exact ⟨u0, v0⟩
  · exact ⟨u1, v1⟩

theorem aggLoop_rep (r : RepCrs env crs g h) (hA : Rep env pk.g A) (hB : Rep env pk.h B)
    {M : Answer → Branch → Grp CC} (as : List Answer) (has : ∀ a ∈ as, ReadyAns env crs a)
    (hM : ∀ a ∈ as, ∀ b, Rep env (a.m b) (M a b)) (c : Branch → Ctxt) (U V : Branch → Grp CC)
    (hc : ∀ b, Rep env (c b).u (U b) ∧ Rep env (c b).mv (V b)) :
    ∃ cs, ∃ d : Branch → Ctxt, answers env pk as = .ok cs ∧ aggLoop env (c .b0) (c .b1) cs = .ok [d .b0, d .b1] ∧
      ∀ b, Rep env (d b).u (U b + (as.map (ansU g h b)).sum) ∧ Rep env (d b).mv (V b + (as.map (ansV A B M b)).sum) := by
  induction as generalizing c U V with
  | nil => exact ⟨[], c, rfl, rfl, by simpa using hc⟩
  | cons a as ih =>
    obtain ⟨x, s, e1, hx⟩ := answer_rep r hA hB (has a (by simp)) (hM a (by simp))
    have hev : ∀ b, ∃ e, eval env (c b) (x b) = .ok e ∧ Rep env e.u (U b + ansU g h b a) ∧
        Rep env e.mv (V b + ansV A B M b a) := fun b => eval_rep (hc b).1 (hc b).2 (hx b).1 (hx b).2
    choose d hd1 hd2 using hev
    obtain ⟨cs, d', h1, h2, h3⟩ := ih (fun a ha => has a (by simp [ha])) (fun a ha => hM a (by simp [ha])) d _ _ hd2
    refine ⟨[x .b0, x .b1] :: cs, d', by simp only [answers, e1, h1, R.ok_bind], ?_, fun b => ?_⟩
    · simp only [aggLoop, index_pair, R.ok_bind, hd1, h2]
    · simpa only [List.map_cons, List.sum_cons, add_assoc] using h3 b

/-- the aggregate of a non-empty list of answers -/
theorem aggregate_rep (r : RepCrs env crs g h) (hA : Rep env pk.g A) (hB : Rep env pk.h B)
    {M : Answer → Branch → Grp CC} {as : List Answer} (hne : as ≠ []) (has : ∀ a ∈ as, ReadyAns env crs a)
    (hM : ∀ a ∈ as, ∀ b, Rep env (a.m b) (M a b)) (old : List Ctxt) :
    ∃ cs, ∃ d : Branch → Ctxt, answers env pk as = .ok cs ∧ aggregate env old cs = .ok [d .b0, d .b1] ∧
      ∀ b, Rep env (d b).u (as.map (ansU g h b)).sum ∧ Rep env (d b).mv (as.map (ansV A B M b)).sum := by
  obtain ⟨a, as, rfl⟩ := List.exists_cons_of_ne_nil hne
  obtain ⟨x, s, e1, hx⟩ := answer_rep r hA hB (has a (by simp)) (hM a (by simp))
  obtain ⟨cs, d, h1, h2, h3⟩ := aggLoop_rep r hA hB as (fun a ha => has a (by simp [ha]))
    (fun a ha => hM a (by simp [ha])) x _ _ hx
  refine ⟨[x .b0, x .b1] :: cs, d, by simp only [answers, e1, h1, R.ok_bind], ?_, fun b => ?_⟩
  · simp only [aggregate, index_pair, R.ok_bind, h2]
  · simpa only [List.map_cons, List.sum_cons] using h3 b

theorem sum_ansU (b : Branch) (as : List Answer) : (as.map (ansU g h b)).sum =
    (((as.map fun a => (a.k b).s).sum : ℤ) : F) • g b + (((as.map fun a => (a.k b).t).sum : ℤ) : F) • h b := by
  induction as with
  | nil =>
    simp only [List.map_nil, List.sum_nil, Int.cast_zero]
    module
  | cons a as ih =>
    simp only [List.map_cons, List.sum_cons, ih, ansU]
    push_cast
    module

theorem sum_ansV (M : Answer → Branch → Grp CC) (b : Branch) (as : List Answer) : (as.map (ansV A B M b)).sum =
    (((as.map fun a => (a.k b).s).sum : ℤ) : F) • A + (((as.map fun a => (a.k b).t).sum : ℤ) : F) • B +
      (as.map fun a => M a b).sum := by
  induction as with
  | nil =>
    simp only [List.map_nil, List.sum_nil, Int.cast_zero]
    module
  | cons a as ih =>
    simp only [List.map_cons, List.sum_cons, ih, ansV]
    push_cast
    module

end

theorem ReadyAns.rep {crs : Crs} {as : List Answer} (has : ∀ a ∈ as, ReadyAns env crs a) :
    ∃ M : Answer → Branch → Grp CC, ∀ a ∈ as, ∀ b, Rep env (a.m b) (M a b) := by
  have : ∀ (a : Answer) (b : Branch), ∃ X : Grp CC, a ∈ as → Rep env (a.m b) X := by
    intro a b
    by_cases ha : a ∈ as
    · have hv : Valid env CC (a.m b) := by
        cases b
        · exact (has a ha).m0
        · exact (has a ha).m1
      obtain ⟨X, hX⟩ := valid_iff.1 hv
      exact ⟨X, fun _ => hX⟩
    · exact ⟨0, fun h => absurd h ha⟩
  choose M hM using this
  exact ⟨M, fun a ha b => hM a b ha⟩

theorem sumPts_rep {m : Pt} {X : Grp CC} (hm : Rep env m X) {as : List Answer} {b : Branch}
    {M : Answer → Branch → Grp CC} (hM : ∀ a ∈ as, Rep env (a.m b) (M a b)) :
    ∃ m', sumPts env m (as.map fun a => a.m b) = .ok m' ∧ Rep env m' (X + (as.map fun a => M a b).sum) := by
  induction as generalizing m X with
  | nil => exact ⟨m, rfl, by simpa using hm⟩
  | cons a as ih =>
    obtain ⟨m1, q1, q2⟩ := add_rep hm (hM a (by simp))
    obtain ⟨m', h1, h2⟩ := ih q2 fun a ha => hM a (by simp [ha])
    exact ⟨m', by simp only [List.map_cons, sumPts, q1, R.ok_bind, h1], by
      simpa only [List.map_cons, List.sum_cons, add_assoc] using h2⟩

/-- the sum of the messages on a branch -/
def sumMsgs (env : Env) (b : Branch) (as : List Answer) : R Pt := sumPts env (Pt.infty CC) (as.map fun a => a.m b)

theorem cast_coin (k : ℤ) : ((k % CC.order : ℤ) : F) = k := by
  rw [ZMod.intCast_eq_intCast_iff]
  exact Int.mod_modEq k _

/-- C102: the aggregate of any number `≥ 1` of answers to a key, valid or made by KeyGen or not, is the answer of one sender
to the sums of the messages, with the sums of the draws. -/
theorem C102_one_answer {crs : Crs} (hc : ValidCrs env crs) {pk : PKey} (hpk : ValidKey env pk) {as : List Answer}
    (hne : as ≠ []) (has : ∀ a ∈ as, ReadyAns env crs a) {s : Sndr} (hl : Live env s.dme.curve)
    (hs : ValidCrs env s.dme.crs) (hsame : SameCrs crs s.dme.crs) (old : List Ctxt) :
    Ends (answers env pk as) fun cs => Ends (aggregate env old cs) fun c =>
      Ends (sumMsgs env .b0 as) fun m0 => Ends (sumMsgs env .b1 as) fun m1 =>
        Ends (encMsgs env s pk m0 m1 (sumCoins .b0 as) (sumCoins .b1 as)) fun e => SamePair c e.1 := by
  obtain ⟨g, h, r⟩ := hc.rep
  obtain ⟨A, hA⟩ := valid_iff.1 hpk.g
  obtain ⟨B, hB⟩ := valid_iff.1 hpk.h
  obtain ⟨M, hM⟩ := ReadyAns.rep has
  obtain ⟨cs, d, h1, h2, h3⟩ := aggregate_rep r hA hB hne has hM old
  obtain ⟨m0, p1, p2⟩ := sumPts_rep (b := .b0) rep_infty fun a ha => hM a ha .b0
  obtain ⟨m1, q1, q2⟩ := sumPts_rep (b := .b1) rep_infty fun a ha => hM a ha .b1
  rw [zero_add] at p2 q2
  have rs := r.congr hsame hs
  obtain ⟨c0, -, f0, u0, -, -, v0⟩ := enc_rep hl rs hA hB p2 .b0 (sumCoins .b0 as).s (sumCoins .b0 as).t
  obtain ⟨c1, -, f1, u1, -, -, v1⟩ := enc_rep hl rs hA hB q2 .b1 (sumCoins .b1 as).s (sumCoins .b1 as).t
  refine ⟨cs, h1, _, h2, m0, p1, m1, q1, ([c0, c1], { s with c := [c0, c1] }),
    by simp only [encMsgs, f0, f1, R.ok_bind], d .b0, d .b1, c0, c1, rfl, rfl, ⟨?_, ?_⟩, ⟨?_, ?_⟩⟩
  · rw [samePoint_iff (h3 .b0).1 u0, sum_ansU, sumCoins, cast_coin, cast_coin]
  · rw [samePoint_iff (h3 .b0).2 v0, sum_ansV, sumCoins, cast_coin, cast_coin]
  · rw [samePoint_iff (h3 .b1).1 u1, sum_ansU, sumCoins, cast_coin, cast_coin]
  · rw [samePoint_iff (h3 .b1).2 v1, sum_ansV, sumCoins, cast_coin, cast_coin]

/-- the sums of the messages agree -/
def SameSums (env : Env) (as bs : List Answer) : Prop :=
  ∀ b, EqP env CC (sumMsgs env b as) (sumMsgs env b bs)

/-- C102: for the same sums of messages and the same draws the aggregate is the same, whatever the single messages and
whoever the senders. -/
theorem C102_only_sums {crs : Crs} (hc : ValidCrs env crs) {pk : PKey} (hpk : ValidKey env pk) {as bs : List Answer}
    (hne : as ≠ []) (hne' : bs ≠ []) (has : ∀ a ∈ as, ReadyAns env crs a) (hbs : ∀ a ∈ bs, ReadyAns env crs a)
    (hk : ∀ b, sumCoins b as = sumCoins b bs) (hm : SameSums env as bs) (old old' : List Ctxt) :
    Ends (answers env pk as) fun cs => Ends (aggregate env old cs) fun c =>
      Ends (answers env pk bs) fun cs' => Ends (aggregate env old' cs') fun c' => SamePair c c' := by
  obtain ⟨g, h, r⟩ := hc.rep
  obtain ⟨A, hA⟩ := valid_iff.1 hpk.g
  obtain ⟨B, hB⟩ := valid_iff.1 hpk.h
  obtain ⟨M, hM⟩ := ReadyAns.rep has
  obtain ⟨N, hN⟩ := ReadyAns.rep hbs
  obtain ⟨cs, d, h1, h2, h3⟩ := aggregate_rep r hA hB hne has hM old
  obtain ⟨cs', d', h1', h2', h3'⟩ := aggregate_rep r hA hB hne' hbs hN old'
  have hsum : ∀ b, (as.map fun a => M a b).sum = (bs.map fun a => N a b).sum := by
    intro b
    obtain ⟨m, p1, p2⟩ := sumPts_rep (b := b) (rep_infty (env := env)) fun a ha => hM a ha b
    obtain ⟨n, q1, q2⟩ := sumPts_rep (b := b) (rep_infty (env := env)) fun a ha => hN a ha b
    have := (eqP_res_iff ⟨m, p1, p2⟩ q2).1 (by simpa only [sumMsgs, q1] using hm b)
    simpa only [zero_add] using this
  have hcoin : ∀ b, (((as.map fun a => (a.k b).s).sum : ℤ) : F) = ((bs.map fun a => (a.k b).s).sum : ℤ) ∧
      (((as.map fun a => (a.k b).t).sum : ℤ) : F) = ((bs.map fun a => (a.k b).t).sum : ℤ) := by
    intro b
    have := hk b
    rw [sumCoins, sumCoins, EncCoins.mk.injEq] at this
    exact ⟨by rw [← cast_coin, this.1, cast_coin], by rw [← cast_coin, this.2, cast_coin]⟩
  have hu : ∀ b, SameCtxt (d b) (d' b) := fun b => by
    refine ⟨?_, ?_⟩
    · rw [samePoint_iff (h3 b).1 (h3' b).1, sum_ansU, sum_ansU, (hcoin b).1, (hcoin b).2]
    · rw [samePoint_iff (h3 b).2 (h3' b).2, sum_ansV, sum_ansV, (hcoin b).1, (hcoin b).2, hsum]
  exact ⟨cs, h1, _, h2, cs', h1', _, h2', _, _, _, _, rfl, rfl, hu .b0, hu .b1⟩

/-- the same answer with other draws on a branch -/
def Answer.withCoins (a : Answer) (b : Branch) (st : ℤ × ℤ) : Answer :=
  { a with k0 := pick b ⟨st.1, st.2⟩ a.k0, k1 := pick b a.k1 ⟨st.1, st.2⟩ }

theorem rep_shift {P Q S : Pt} {X Y Z : Grp CC} (hP : Rep env P X) (hQ : Rep env Q Y) (hS : Rep env S Z) :
    ∃ T, Rep env T (X - Y + Z) := by
  obtain ⟨Q', -, hQ'⟩ := smulI_rep hQ (-1)
  obtain ⟨D, -, hD⟩ := add_rep hP hQ'
  obtain ⟨T, -, hT⟩ := add_rep hD hS
  refine ⟨T, ?_⟩
  convert hT using 1
  module

/-- C102: one sender whose own answer hides its message on a branch is enough: whatever the other senders answer, in
whatever order, the aggregate on that branch takes every value, for every message of that sender, for exactly one
choice of its draws. -/
theorem C102_one_hides {crs : Crs} (hc : ValidCrs env crs) {pk : PKey} (hpk : ValidKey env pk) {l1 l2 : List Answer}
    {a : Answer} (has : ∀ x ∈ l1 ++ a :: l2, ReadyAns env crs x) {b : Branch} (hh : Hides env a.sndr.dme pk b)
    (old : List Ctxt) {u mv : Pt} (hu : Valid env CC u) (hmv : Valid env CC mv) :
    ∃! st : ℤ × ℤ, (Coin st.1 ∧ Coin st.2) ∧ ∃ cs c ct, answers env pk (l1 ++ a.withCoins b st :: l2) = .ok cs ∧
      aggregate env old cs = .ok c ∧ index c b = .ok ct ∧ SamePoint ct.u u ∧ SamePoint ct.mv mv := by
  obtain ⟨g, h, r⟩ := hc.rep
  obtain ⟨A, hA⟩ := valid_iff.1 hpk.g
  obtain ⟨B, hB⟩ := valid_iff.1 hpk.h
  obtain ⟨U, hU⟩ := valid_iff.1 hu
  obtain ⟨V, hV⟩ := valid_iff.1 hmv
  have hready : ∀ st, ∀ x ∈ l1 ++ a.withCoins b st :: l2, ReadyAns env crs x := by
    intro st x hx
    simp only [List.mem_append, List.mem_cons] at hx
    rcases hx with hx | rfl | hx
    · exact has x (by simp [hx])
    · obtain ⟨q1, q2, q3, q4, q5⟩ := has a (by simp)
      exact ⟨q1, q2, q3, q4, q5⟩
    · exact has x (by simp [hx])
  obtain ⟨N, hN⟩ := ReadyAns.rep has
  -- the group elements of the messages do not depend on the draws
  let M : Answer → Branch → Grp CC := fun x b' =>
    if h : ∃ y ∈ l1 ++ a :: l2, y.m b' = x.m b' then N h.choose b' else 0
  have hM : ∀ x b', (∃ y ∈ l1 ++ a :: l2, y.m b' = x.m b') → Rep env (x.m b') (M x b') := by
    intro x b' hx
    simp only [M, dif_pos hx]
    have := hN _ hx.choose_spec.1 b'
    rwa [show hx.choose.m b' = x.m b' from hx.choose_spec.2] at this
  have hM1 : ∀ st, ∀ x ∈ l1 ++ a.withCoins b st :: l2, ∀ b', Rep env (x.m b') (M x b') := by
    intro st x hx b'
    refine hM x b' ?_
    simp only [List.mem_append, List.mem_cons] at hx
    rcases hx with hx | rfl | hx
    · exact ⟨x, by simp [hx], rfl⟩
    · exact ⟨a, by simp, rfl⟩
    · exact ⟨x, by simp [hx], rfl⟩
  have hMa : ∀ st b', M (a.withCoins b st) b' = M a b' := fun st b' => rfl
  have hka : ∀ st, (a.withCoins b st).k b = ⟨st.1, st.2⟩ := by
    intro st
    cases b <;> rfl
  have ra := has a (by simp)
  have rs := r.congr ra.same ra.vcrs
  have hma : Rep env (a.m b) (M a b) := hM a b ⟨a, by simp, rfl⟩
  obtain ⟨cs0, d0, -, -, h30⟩ := aggregate_rep r hA hB (by simp) (hready (0, 0)) (hM1 (0, 0)) old
  obtain ⟨x0, s0, -, hx0⟩ := answer_rep (a := a.withCoins b (0, 0)) (M := M) r hA hB
    (hready (0, 0) _ (by simp)) (hM1 (0, 0) _ (by simp))
  obtain ⟨u', hu'⟩ := rep_shift hU (h30 b).1 (hx0 b).1
  obtain ⟨mv', hmv'⟩ := rep_shift hV (h30 b).2 (hx0 b).2
  have hiff : ∀ st : ℤ × ℤ, (∃ cs c ct, answers env pk (l1 ++ a.withCoins b st :: l2) = .ok cs ∧
      aggregate env old cs = .ok c ∧ index c b = .ok ct ∧ SamePoint ct.u u ∧ SamePoint ct.mv mv) ↔
      ∃ c, enc env a.sndr.dme pk b (a.m b) st.1 st.2 = .ok c ∧ SamePoint c.u u' ∧ SamePoint c.mv mv' := by
    intro st
    obtain ⟨cs, d, h1, h2, h3⟩ := aggregate_rep r hA hB (by simp) (hready st) (hM1 st) old
    obtain ⟨c, -, f, fu, -, -, fv⟩ := enc_rep ra.live rs hA hB hma b st.1 st.2
    have hi : index [d .b0, d .b1] b = .ok (d b) := by rw [index_pair]; cases b <;> rfl
    have e1 : SamePoint (d b).u u ↔ SamePoint c.u u' := by
      rw [samePoint_iff (h3 b).1 hU, samePoint_iff fu hu']
      simp only [List.map_append, List.map_cons, List.sum_append, List.sum_cons, ansU, hka]
      push_cast
      constructor
      · intro h
        rw [← h]
        module
      · intro h
        rw [h]
        module
    have e2 : SamePoint (d b).mv mv ↔ SamePoint c.mv mv' := by
      rw [samePoint_iff (h3 b).2 hV, samePoint_iff fv hmv']
      simp only [List.map_append, List.map_cons, List.sum_append, List.sum_cons, ansV, hka, hMa]
      constructor
      · intro h
        rw [← h]
        module
      · intro h
        have : (st.1 : F) • A + (st.2 : F) • B + M a b = _ := h
        rw [this]
        module
    constructor
    · rintro ⟨cs', c', ct, k1, k2, k3, k4, k5⟩
      rw [h1] at k1
      obtain rfl := Except.ok.inj k1
      rw [h2] at k2
      obtain rfl := Except.ok.inj k2
      rw [hi] at k3
      obtain rfl := Except.ok.inj k3
      exact ⟨c, f, e1.1 k4, e2.1 k5⟩
    · rintro ⟨c', k1, k2, k3⟩
      rw [f] at k1
      obtain rfl := Except.ok.inj k1
      exact ⟨cs, _, _, h1, h2, hi, e1.2 k2, e2.2 k3⟩
  simp only [hiff]
  exact hh u' mv' (a.m b) hu'.valid hmv'.valid hma.valid

/-! Two senders on the CRS `((G, 2G), (3G, 4G))` and the key `(5G, 6G)`, which is no Diffie-Hellman pair, so both branches
stay hidden. -/

def tans (k0 k1 s0 t0 s1 t1 : ℤ) : Answer := ⟨Sndr.ctor tinst, tpt k0, tpt k1, ⟨s0, t0⟩, ⟨s1, t1⟩⟩

theorem tinst_valid : ValidCrs tenv tinst.crs :=
  ⟨(tinst_crs.g .b0).valid, (tinst_crs.g .b1).valid, (tinst_crs.h .b0).valid, (tinst_crs.h .b1).valid⟩

theorem tans_ready (k0 k1 s0 t0 s1 t1 : ℤ) : ReadyAns tenv tinst.crs (tans k0 k1 s0 t0 s1 t1) :=
  ⟨env0_liveGen.live, tinst_valid, (sameCrs_refl _), (tpt_rep k0).valid, (tpt_rep k1).valid⟩

theorem tpk_valid : ValidKey tenv ⟨tpt 5, tpt 6⟩ := ⟨(tpt_rep 5).valid, (tpt_rep 6).valid⟩

/-- the hypotheses of `C102_one_answer` -/
example (old : List Ctxt) := C102_one_answer tinst_valid tpk_valid
  (as := [tans 13 14 3 4 5 6, tans 15 16 7 8 9 10]) (by simp)
  (by simp only [List.mem_cons, List.not_mem_nil, or_false]; rintro a (rfl | rfl) <;> exact tans_ready ..)
  (s := Sndr.ctor tinst) env0_liveGen.live tinst_valid (sameCrs_refl _) old

/-- the hypotheses of `C102_only_sums`: the messages `13G, 15G` and `14G, 16G` against `8G, 20G` and `1G, 29G` -/
example (old old' : List Ctxt) := C102_only_sums tinst_valid tpk_valid
  (as := [tans 13 14 3 4 5 6, tans 15 16 7 8 9 10]) (bs := [tans 8 1 4 4 5 6, tans 20 29 6 8 9 10]) (by simp) (by simp)
  (by simp only [List.mem_cons, List.not_mem_nil, or_false]; rintro a (rfl | rfl) <;> exact tans_ready ..)
  (by simp only [List.mem_cons, List.not_mem_nil, or_false]; rintro a (rfl | rfl) <;> exact tans_ready ..)
  (by rintro (_ | _) <;> rfl)
  (by
    have key : ∀ a b c d : ℤ, a + b = c + d → EqP tenv CC (sumPts tenv (Pt.infty CC) [tpt a, tpt b])
        (sumPts tenv (Pt.infty CC) [tpt c, tpt d]) := by
      intro a b c d h
      have hs : ∀ a b : ℤ, ∃ P, sumPts tenv (Pt.infty CC) [tpt a, tpt b] = .ok P ∧
          Rep tenv P (((a + b : ℤ) : F) • (G : Grp CC)) := by
        intro a b
        obtain ⟨P, h1, h2⟩ := add_rep rep_infty (tpt_rep a)
        obtain ⟨Q, h3, h4⟩ := add_rep h2 (tpt_rep b)
        refine ⟨Q, by simp only [sumPts, h1, h3, R.ok_bind], ?_⟩
        convert h4 using 1
        push_cast
        module
      exact eqP_of_rep (hs a b) (hs c d) (by rw [h])
    rintro (_ | _)
    · exact key 13 15 8 20 rfl
    · exact key 14 16 1 29 rfl)
  old old'

/-- the hypotheses of `C102_one_hides`, the hiding sender standing between two others -/
example (old : List Ctxt) := C102_one_hides tinst_valid tpk_valid (l1 := [tans 13 14 3 4 5 6]) (l2 := [tans 15 16 7 8 9 10])
  (a := tans 1 2 0 0 0 0)
  (by simp only [List.mem_cons, List.mem_append, List.not_mem_nil, or_false]
      rintro a (rfl | rfl | rfl) <;> exact tans_ready ..)
  (b := .b0)
  (by
    change Hides tenv tinst _ _
    rw [hides_iff_det (d := tinst) env0_liveGen tinst_crs (tpt_rep 5) (tpt_rep 6),
      dhPair_iff tinst_crs (tpt_rep 5) (tpt_rep 6)]
    constructor
    · rintro ⟨k, h1, h2⟩
      simp only [smul_smul] at h1 h2
      rw [smul_inj G_ne_zero] at h1 h2
      have : ((9 : ℤ) : F) = ((0 : ℤ) : F) := by push_cast at h1 h2 ⊢; linear_combination 3 * h1 - h2
      exact absurd (coin_cast_inj ⟨by decide, by decide⟩ zero_coin this) (by decide)
    · rintro ⟨h1, -⟩
      have h1' : ((1 : ℤ) : F) • (G : Grp CC) = 0 := h1
      rw [Int.cast_one, one_smul] at h1'
      exact G_ne_zero h1')
  old (u := tpt 21) (mv := tpt 22) (tpt_rep 21).valid (tpt_rep 22).valid

end Ot
end Verif
