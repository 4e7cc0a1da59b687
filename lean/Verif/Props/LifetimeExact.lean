import Mathlib.Algebra.BigOperators.Group.Finset.Basic
import Mathlib.Algebra.BigOperators.Intervals
import Verif.Props.Lifetime

/-!
# C56: exactly which programs free every curve object once
-/

namespace Verif.Life

/-- What a C++ compiler and the scoping rules guarantee: an object is constructed under an unused name and with the
number of members its class has (`cls i` is that number for the object named `i`), only live objects are copied,
assigned to or destroyed, copying and assigning is between objects of the same class, and in the end all objects are
destroyed.  `alive` tells which names are in use at the beginning. -/
def WellFormed (cls : ℕ → ℕ) : (ℕ → Bool) → List Op → Prop
  | alive, [] => ∀ i, alive i = false
  | alive, .construct i n :: ops => alive i = false ∧ n = cls i ∧ WellFormed cls (fun k => if k = i then true else alive k) ops
  | alive, .copy i j :: ops => alive i = true ∧ alive j = false ∧ cls i = cls j ∧
      WellFormed cls (fun k => if k = j then true else alive k) ops
  | alive, .assign i j :: ops => alive i = true ∧ alive j = true ∧ cls i = cls j ∧ WellFormed cls alive ops
  | alive, .destroy i :: ops => alive i = true ∧ WellFormed cls (fun k => if k = i then false else alive k) ops

/-- an operation that is neither a copy nor an assignment between different objects -/
def Op.harmless : Op → Prop
  | .construct _ _ => True
  | .destroy _ => True
  | .copy _ _ => False
  | .assign i j => i = j

/-- number of curve pointers of an object -/
def len : Option Obj → ℕ
  | none => 0
  | some o => o.length

/-- number of curve pointers of all objects with names below `N` -/
def owners (N : ℕ) (s : St) : ℕ := ∑ i ∈ Finset.range N, len (s.objs i)

/-- the names used by an operation are below `N` -/
def Op.below (N : ℕ) : Op → Prop
  | .construct i _ => i < N
  | .destroy i => i < N
  | .copy i j => i < N ∧ j < N
  | .assign i j => i < N ∧ j < N

theorem Op.below_mono {N M : ℕ} (h : N ≤ M) {op : Op} (hop : op.below N) : op.below M := by
  cases op <;> simp only [Op.below] at hop ⊢ <;> omega

theorem exists_bound (ops : List Op) : ∃ N, ∀ op ∈ ops, op.below N := by
  induction ops with
  | nil => exact ⟨0, by simp⟩
  | cons op ops ih =>
    obtain ⟨N, hN⟩ := ih
    obtain ⟨M, hM⟩ : ∃ M, op.below M := by
      cases op with
      | construct i n => exact ⟨i + 1, Nat.lt_succ_self i⟩
      | destroy i => exact ⟨i + 1, Nat.lt_succ_self i⟩
      | copy i j => exact ⟨i + j + 1, by simp only [Op.below]; omega⟩
      | assign i j => exact ⟨i + j + 1, by simp only [Op.below]; omega⟩
    refine ⟨max N M, fun o ho => ?_⟩
    rcases List.mem_cons.1 ho with rfl | ho
    · exact Op.below_mono (le_max_right _ _) hM
    · exact Op.below_mono (le_max_left _ _) (hN o ho)

theorem owners_set {N : ℕ} (s : St) {i : ℕ} (hi : i < N) (x : Option Obj) :
    owners N (s.set i x) + len (s.objs i) = owners N s + len x := by
  have hm : i ∈ Finset.range N := Finset.mem_range.2 hi
  rw [owners, owners, ← Finset.add_sum_erase _ _ hm, ← Finset.add_sum_erase _ _ hm]
  have h : ∑ k ∈ (Finset.range N).erase i, len ((s.set i x).objs k) = ∑ k ∈ (Finset.range N).erase i, len (s.objs k) := by
    refine Finset.sum_congr rfl fun k hk => ?_
    simp [St.set, Finset.ne_of_mem_erase hk]
  rw [h]
  simp [St.set]
  omega

theorem freeAll_some : ∀ {as heap h' : List Addr}, freeAll heap as = .ok h' →
    h'.length + as.length = heap.length ∧ (∀ a ∈ h', a ∈ heap) ∧ ∀ a ∈ heap, a ∉ as → a ∈ h'
  | [], heap, h', e => by
    obtain rfl := Except.ok.inj e
    simp
  | b :: as, heap, h', e => by
    rw [freeAll] at e
    split_ifs at e with hb
    obtain ⟨h1, h2, h3⟩ := freeAll_some e
    have hl := List.length_erase_add_one hb
    refine ⟨by simp only [List.length_cons]; omega, fun a ha => List.mem_of_mem_erase (h2 a ha), fun a ha hn => ?_⟩
    rw [List.mem_cons, not_or] at hn
    exact h3 a ((List.mem_erase_of_ne hn.1).2 ha) hn.2

/-- the state agrees with the names in use and with the classes of the objects -/
structure Typed (cls : ℕ → ℕ) (alive : ℕ → Bool) (s : St) : Prop where
  names : ∀ i, (s.objs i).isSome = alive i
  size : ∀ i o, s.objs i = some o → o.length = cls i
  bound : ∀ a ∈ s.heap, a < s.next

/-- more pointers than curve objects, or as many and a curve object without owner -/
def Doomed (N : ℕ) (s : St) : Prop :=
  s.heap.length < owners N s ∨
    (s.heap.length ≤ owners N s ∧ ∃ a ∈ s.heap, ∀ k o, s.objs k = some o → a ∉ o)

theorem typed_set {cls : ℕ → ℕ} {alive : ℕ → Bool} {s : St} (h : Typed cls alive s) {i : ℕ} {o : Obj} (ho : o.length = cls i) :
    Typed cls (fun k => if k = i then true else alive k) (s.set i (some o)) := by
  refine ⟨fun k => ?_, fun k p hk => ?_, h.bound⟩
  · simp only [St.set]
    split_ifs
    · rfl
    · exact h.names k
  · simp only [St.set] at hk
    split_ifs at hk with hki
    · obtain rfl := Option.some.inj hk
      rw [hki, ho]
    · exact h.size k p hk

theorem typed_unset {cls : ℕ → ℕ} {alive : ℕ → Bool} {s : St} (h : Typed cls alive s) {i : ℕ} {heap : List Addr}
    (hh : ∀ a ∈ heap, a ∈ s.heap) :
    Typed cls (fun k => if k = i then false else alive k) ({ s with heap := heap }.set i none) := by
  refine ⟨fun k => ?_, fun k p hk => ?_, fun a ha => h.bound a (hh a ha)⟩
  · simp only [St.set]
    split_ifs
    · rfl
    · exact h.names k
  · simp only [St.set] at hk
    split_ifs at hk with hki
    exact h.size k p hk

theorem typed_construct {cls : ℕ → ℕ} {alive : ℕ → Bool} {s : St} (h : Typed cls alive s) (i : ℕ) :
    Typed cls (fun k => if k = i then true else alive k)
      ({ s with heap := (List.range (cls i)).map (s.next + ·) ++ s.heap, next := s.next + cls i }.set i
        (some ((List.range (cls i)).map (s.next + ·)))) := by
  refine typed_set (s := { s with heap := (List.range (cls i)).map (s.next + ·) ++ s.heap, next := s.next + cls i })
    ⟨h.names, h.size, fun a ha => ?_⟩ (by simp)
  rcases List.mem_append.1 ha with h' | h'
  · exact (fresh_mem.1 h').2
  · exact Nat.lt_of_lt_of_le (h.bound a h') (Nat.le_add_right _ _)

theorem Typed.some {cls : ℕ → ℕ} {alive : ℕ → Bool} {s : St} (h : Typed cls alive s) {i : ℕ} (hi : alive i = true) :
    ∃ o, s.objs i = some o := Option.isSome_iff_exists.1 (by rw [h.names, hi])

theorem Typed.none {cls : ℕ → ℕ} {alive : ℕ → Bool} {s : St} (h : Typed cls alive s) {i : ℕ} (hi : alive i = false) :
    s.objs i = none := by
  rw [← Option.not_isSome_iff_eq_none, h.names, hi]
  simp

/-- a doomed program does not return -/
theorem doomed_run {cls : ℕ → ℕ} {N : ℕ} : ∀ {ops : List Op} {alive : ℕ → Bool} {s : St}, WellFormed cls alive ops →
    (∀ op ∈ ops, op.below N) → Typed cls alive s → Doomed N s → ∀ s', run s ops ≠ .ok s'
  | [], alive, s, hw, _, ht, hd, s', _ => by
    have h0 : ∀ i, s.objs i = none := fun i => ht.none (hw i)
    have h1 : owners N s = 0 := Finset.sum_eq_zero fun i _ => by rw [h0 i]; rfl
    rcases hd with hd | ⟨hd, a, ha, -⟩
    · omega
    · have := List.length_pos_of_mem ha
      omega
  | op :: ops, alive, s, hw, hb, ht, hd, s', hr => by
    have hbo := hb op (by simp)
    have hbs : ∀ op ∈ ops, op.below N := fun o ho => hb o (by simp [ho])
    rw [run] at hr
    cases op with
    | construct i n =>
      obtain ⟨h1, rfl, h3⟩ := hw
      rw [step, ht.none h1] at hr
      refine doomed_run h3 hbs (typed_construct ht i) ?_ s' hr
      have e := owners_set (N := N)
        { s with heap := (List.range (cls i)).map (s.next + ·) ++ s.heap, next := s.next + cls i } hbo
        (some ((List.range (cls i)).map (s.next + ·)))
      rw [show ({ s with heap := (List.range (cls i)).map (s.next + ·) ++ s.heap, next := s.next + cls i } : St).objs i
        = none from ht.none h1] at e
      have e' : owners N { s with heap := (List.range (cls i)).map (s.next + ·) ++ s.heap, next := s.next + cls i } =
        owners N s := rfl
      rw [e'] at e
      simp only [len, List.length_map, List.length_range, Nat.add_zero] at e
      rcases hd with hd | ⟨hd, a, ha, hn⟩
      · left
        rw [e]
        simp only [St.set, List.length_append, List.length_map, List.length_range]
        omega
      · right
        refine ⟨?_, a, List.mem_append_right _ ha, fun k o hk hak => ?_⟩
        · rw [e]
          simp only [St.set, List.length_append, List.length_map, List.length_range]
          omega
        · simp only [St.set] at hk
          split_ifs at hk
          · obtain rfl := Option.some.inj hk
            exact absurd (ht.bound a ha) (Nat.not_lt.2 (fresh_mem.1 hak).1)
          · exact hn k o hk hak
    | copy i j =>
      obtain ⟨h1, h2, h3, h4⟩ := hw
      obtain ⟨o, ho⟩ := ht.some h1
      rw [step, ho, ht.none h2] at hr
      refine doomed_run h4 hbs (typed_set ht (by rw [ht.size i o ho, h3])) ?_ s' hr
      have e := owners_set (N := N) s hbo.2 (some o)
      rw [ht.none h2] at e
      simp only [len, Nat.add_zero] at e
      rcases hd with hd | ⟨hd, a, ha, hn⟩
      · left
        rw [e]
        simp only [St.set]
        omega
      · right
        refine ⟨by rw [e]; simp only [St.set]; omega, a, ha, fun k p hk => ?_⟩
        simp only [St.set] at hk
        split_ifs at hk
        · obtain rfl := Option.some.inj hk
          exact hn i _ ho
        · exact hn k p hk
    | assign i j =>
      obtain ⟨h1, h2, h3, h4⟩ := hw
      obtain ⟨o, ho⟩ := ht.some h1
      obtain ⟨o', ho'⟩ := ht.some h2
      rw [step, ho, ho'] at hr
      have ht' := typed_set ht (i := j) (o := o) (by rw [ht.size i o ho, h3])
      have ha : (fun k => if k = j then true else alive k) = alive := by
        funext k
        split_ifs with hk
        · rw [hk, h2]
        · rfl
      rw [ha] at ht'
      refine doomed_run h4 hbs ht' ?_ s' hr
      have e := owners_set (N := N) s hbo.2 (some o)
      rw [ho'] at e
      simp only [len, ht.size i o ho, ht.size j o' ho', h3] at e
      have e' : owners N (s.set j (some o)) = owners N s := by omega
      rcases hd with hd | ⟨hd, a, ha, hn⟩
      · left
        rw [e']
        exact hd
      · right
        refine ⟨by rw [e']; exact hd, a, ha, fun k p hk => ?_⟩
        simp only [St.set] at hk
        split_ifs at hk
        · obtain rfl := Option.some.inj hk
          exact hn i _ ho
        · exact hn k p hk
    | destroy i =>
      obtain ⟨h1, h4⟩ := hw
      obtain ⟨o, ho⟩ := ht.some h1
      rw [step, ho] at hr
      simp only at hr
      rcases hf : freeAll s.heap o with e | h'
      · rw [hf] at hr
        cases hr
      · rw [hf] at hr
        obtain ⟨f1, f2, f3⟩ := freeAll_some hf
        refine doomed_run h4 hbs (typed_unset ht f2) ?_ s' hr
        have e := owners_set (N := N) { s with heap := h' } hbo none
        rw [show ({ s with heap := h' } : St).objs i = some o from ho] at e
        have e' : owners N { s with heap := h' } = owners N s := rfl
        rw [e'] at e
        simp only [len, Nat.add_zero] at e
        rcases hd with hd | ⟨hd, a, ha, hn⟩
        · left
          simp only [St.set] at e ⊢
          omega
        · right
          refine ⟨by simp only [St.set] at e ⊢; omega, a, f3 a ha (hn i o ho), fun k p hk => ?_⟩
          simp only [St.set] at hk
          split_ifs at hk
          exact hn k p hk

/-- from a sound state with as many pointers as curve objects, a program with a copy or an assignment does not return -/
theorem sound_run {cls : ℕ → ℕ} (hcls : ∀ i, 1 ≤ cls i) {N : ℕ} : ∀ {ops : List Op} {alive : ℕ → Bool} {s : St},
    WellFormed cls alive ops → (∀ op ∈ ops, op.below N) → Typed cls alive s → Sound s → owners N s = s.heap.length →
    ((∃ s', run s ops = .ok s') ↔ ∀ op ∈ ops, op.harmless) ∧ ∀ s', run s ops = .ok s' → s'.heap = []
  | [], alive, s, hw, _, ht, _, hc => by
    refine ⟨by simp [run], fun s' e => ?_⟩
    obtain rfl := Except.ok.inj e
    have h1 : owners N s = 0 := Finset.sum_eq_zero fun i _ => by rw [ht.none (hw i)]; rfl
    exact List.length_eq_zero_iff.1 (by omega)
  | op :: ops, alive, s, hw, hb, ht, hs, hc => by
    have hbo := hb op (by simp)
    have hbs : ∀ op ∈ ops, op.below N := fun o ho => hb o (by simp [ho])
    simp only [List.forall_mem_cons]
    cases op with
    | construct i n =>
      obtain ⟨h1, rfl, h3⟩ := hw
      obtain ⟨s1, e1, hs1, -⟩ := step_sound hs (op := .construct i (cls i)) trivial
      rw [step, ht.none h1] at e1
      have e2 := Except.ok.inj e1
      have hstep : run s (.construct i (cls i) :: ops) = run s1 ops := by
        rw [run, step, ht.none h1]
        simp only
        rw [e2]
        rfl
      rw [hstep]
      have e := owners_set (N := N)
        { s with heap := (List.range (cls i)).map (s.next + ·) ++ s.heap, next := s.next + cls i } hbo
        (some ((List.range (cls i)).map (s.next + ·)))
      rw [show ({ s with heap := (List.range (cls i)).map (s.next + ·) ++ s.heap, next := s.next + cls i } : St).objs i
        = none from ht.none h1] at e
      have e' : owners N { s with heap := (List.range (cls i)).map (s.next + ·) ++ s.heap, next := s.next + cls i } =
        owners N s := rfl
      rw [e'] at e
      simp only [len, List.length_map, List.length_range, Nat.add_zero] at e
      have ih := sound_run hcls h3 hbs (s := s1) (by rw [← e2]; exact typed_construct ht i) hs1 (by
        rw [← e2, e, hc]
        simp only [St.set, List.length_append, List.length_map, List.length_range]
        omega)
      exact ⟨ih.1.trans (by simp [Op.harmless]), ih.2⟩
    | copy i j =>
      obtain ⟨h1, h2, h3, h4⟩ := hw
      obtain ⟨o, ho⟩ := ht.some h1
      suffices hno : ∀ s', run s (.copy i j :: ops) ≠ .ok s' from
        ⟨iff_of_false (fun ⟨s', e⟩ => hno s' e) (by simp [Op.harmless]), fun s' e => absurd e (hno s')⟩
      intro s' hr
      rw [run, step, ho, ht.none h2] at hr
      refine doomed_run h4 hbs (typed_set ht (by rw [ht.size i o ho, h3])) (.inl ?_) s' hr
      have e := owners_set (N := N) s hbo.2 (some o)
      rw [ht.none h2] at e
      simp only [len, Nat.add_zero] at e
      have := ht.size i o ho
      have := hcls i
      rw [e]
      simp only [St.set]
      omega
    | assign i j =>
      obtain ⟨h1, h2, h3, h4⟩ := hw
      obtain ⟨o, ho⟩ := ht.some h1
      obtain ⟨o', ho'⟩ := ht.some h2
      by_cases hij : i = j
      · subst hij
        obtain rfl : o = o' := by rw [ho] at ho'; exact Option.some.inj ho'
        have hset : s.set i (some o) = s := by
          simp only [St.set]
          congr 1
          funext k
          split_ifs with hk
          · rw [hk, ho]
          · rfl
        have hstep : run s (.assign i i :: ops) = run s ops := by
          rw [run, step, ho]
          simp only
          rw [hset]
          rfl
        rw [hstep]
        have ih := sound_run hcls h4 hbs ht hs hc
        exact ⟨ih.1.trans (by simp [Op.harmless]), ih.2⟩
      · suffices hno : ∀ s', run s (.assign i j :: ops) ≠ .ok s' from
          ⟨iff_of_false (fun ⟨s', e⟩ => hno s' e) (by simp [Op.harmless, hij]), fun s' e => absurd e (hno s')⟩
        intro s' hr
        rw [run, step, ho, ho'] at hr
        have ht' := typed_set ht (i := j) (o := o) (by rw [ht.size i o ho, h3])
        have ha : (fun k => if k = j then true else alive k) = alive := by
          funext k
          split_ifs with hk
          · rw [hk, h2]
          · rfl
        rw [ha] at ht'
        refine doomed_run h4 hbs ht' (.inr ?_) s' hr
        have e := owners_set (N := N) s hbo.2 (some o)
        rw [ho'] at e
        simp only [len, ht.size i o ho, ht.size j o' ho', h3] at e
        have hne : o' ≠ [] := by
          rintro rfl
          have := ht.size j [] ho'
          have := hcls j
          simp at *
          omega
        obtain ⟨a, hao⟩ := List.exists_mem_of_ne_nil o' hne
        obtain ⟨s1, e1, h5, h6⟩ := C56_assign_leak_counterexample s hs i j a o o' hij ho ho' hao
        rw [run, step, ho, ho'] at e1
        obtain rfl := Except.ok.inj e1
        exact ⟨by simp only [St.set] at e ⊢; omega, a, h5, h6⟩
    | destroy i =>
      obtain ⟨h1, h4⟩ := hw
      obtain ⟨o, ho⟩ := ht.some h1
      obtain ⟨s1, e1, hs1, -⟩ := step_sound hs (op := .destroy i) trivial
      have hstep : run s (.destroy i :: ops) = run s1 ops := by
        rw [run, e1]
        rfl
      rw [hstep]
      rw [step, ho] at e1
      simp only at e1
      rcases hf : freeAll s.heap o with x | h'
      · rw [hf] at e1
        cases e1
      · rw [hf] at e1
        have e2 : { s with heap := h' }.set i none = s1 := Except.ok.inj e1
        obtain ⟨f1, f2, f3⟩ := freeAll_some hf
        have e := owners_set (N := N) { s with heap := h' } hbo none
        rw [show ({ s with heap := h' } : St).objs i = some o from ho] at e
        have e' : owners N { s with heap := h' } = owners N s := rfl
        rw [e'] at e
        simp only [len, Nat.add_zero] at e
        have ih := sound_run hcls h4 hbs (s := s1) (by rw [← e2]; exact typed_unset ht f2) hs1 (by
          rw [← e2]
          simp only [St.set] at e ⊢
          omega)
        exact ⟨ih.1.trans (by simp [Op.harmless]), ih.2⟩

theorem freeAll_error : ∀ {as heap : List Addr} {e : Fault}, freeAll heap as = .error e → e = .doubleFree
  | [], heap, e, h => by cases h
  | b :: as, heap, e, h => by
    rw [freeAll] at h
    split_ifs at h with hb
    · exact freeAll_error h
    · exact (Except.error.inj h).symm

theorem run_error : ∀ {ops : List Op} {s : St} {e : Fault}, run s ops = .error e → e = .doubleFree
  | [], s, e, h => by cases h
  | op :: ops, s, e, h => by
    rw [run] at h
    rcases hs : step s op with x | s1
    · rw [hs] at h
      obtain rfl : x = e := Except.error.inj h
      cases op with
      | construct i n => simp only [step] at hs; split at hs <;> cases hs
      | copy i j => simp only [step] at hs; split at hs <;> cases hs
      | assign i j => simp only [step] at hs; split at hs <;> cases hs
      | destroy i =>
        simp only [step] at hs
        split at hs
        · cases hs
        · next o _ =>
          rcases hf : freeAll s.heap o with y | h'
          · rw [hf] at hs
            obtain rfl : y = x := Except.error.inj hs
            exact freeAll_error hf
          · rw [hf] at hs
            cases hs
    · rw [hs] at h
      exact run_error (s := s1) h

/-- C56, exactly: a program that destroys all the objects it creates, each of which owns at least one curve object,
deletes every curve object exactly once **if** it contains no copy and no assignment other than of an object to
itself, and otherwise it **always** ends in a double free, whatever else it does and in whatever order. -/
theorem C56_exact (cls : ℕ → ℕ) (hcls : ∀ i, 1 ≤ cls i) (ops : List Op) (hw : WellFormed cls (fun _ => false) ops) :
    ((∀ op ∈ ops, op.harmless) → ∃ s, run St.init ops = .ok s ∧ s.heap = []) ∧
    ((¬ ∀ op ∈ ops, op.harmless) → run St.init ops = .error .doubleFree) := by
  obtain ⟨N, hN⟩ := exists_bound ops
  have h := sound_run hcls hw hN (s := St.init)
    ⟨fun i => rfl, fun i o h => by simp [St.init] at h, fun a ha => by simp [St.init] at ha⟩ init_sound
    (by simp [owners, St.init, len])
  refine ⟨fun hh => ?_, fun hh => ?_⟩
  · obtain ⟨s, e⟩ := h.1.2 hh
    exact ⟨s, e, h.2 s e⟩
  · rcases e : run St.init ops with x | s
    · rw [run_error e]
    · exact absurd (h.1.1 ⟨s, e⟩) hh

/-- a program with objects of two classes, one (`DME_DDH`) with one curve object and one (`Puda`) with two, that copies
the first -/
example : WellFormed (fun i => if i = 2 then 2 else 1) (fun _ => false)
    [.construct 0 1, .construct 2 2, .copy 0 1, .destroy 0, .destroy 2, .destroy 1] ∧
    run St.init [.construct 0 1, .construct 2 2, .copy 0 1, .destroy 0, .destroy 2, .destroy 1] =
      .error .doubleFree := by
  refine ⟨?_, rfl⟩
  simp only [WellFormed]
  refine ⟨trivial, by decide, by decide, by decide, by decide, by decide, by decide, by decide, by decide,
    by decide, fun i => ?_⟩
  split_ifs <;> rfl

/-- a program with an assignment of an object to itself; it ends with no curve object left -/
example : WellFormed (fun _ => 1) (fun _ => false) [.construct 0 1, .assign 0 0, .construct 1 1, .destroy 0, .destroy 1] ∧
    (do let s ← run St.init [.construct 0 1, .assign 0 0, .construct 1 1, .destroy 0, .destroy 1]
        .ok s.heap : R _) = .ok [] := by
  refine ⟨?_, rfl⟩
  simp only [WellFormed]
  refine ⟨by decide, by decide, by decide, by decide, by decide, by decide, by decide, by decide, by decide,
    fun i => ?_⟩
  split_ifs <;> rfl

end Verif.Life
