import Verif.Model.Lifetime
import Verif.Spec.Basic
import Mathlib.Data.List.Nodup
import Mathlib.Data.List.Perm.Basic

/-!
# C56: ownership of curve objects
-/

namespace Verif.Life

/-- an operation other than copying -/
def Op.plain : Op → Prop
  | .construct _ _ => True
  | .destroy _ => True
  | .copy _ _ => False
  | .assign _ _ => False

/-- Sound ownership: no address is allocated twice, addresses not yet handed out are not in use, every live object
owns distinct allocated addresses, no address has two owners, and every allocated address has an owner. -/
structure Sound (s : St) : Prop where
  nodup : s.heap.Nodup
  bound : ∀ a ∈ s.heap, a < s.next
  owned : ∀ i o, s.objs i = some o → o.Nodup ∧ ∀ a ∈ o, a ∈ s.heap
  unique : ∀ i j o o' a, s.objs i = some o → s.objs j = some o' → a ∈ o → a ∈ o' → i = j
  reach : ∀ a ∈ s.heap, ∃ i o, s.objs i = some o ∧ a ∈ o

theorem freeAll_ok : ∀ (as heap : List Addr), heap.Nodup → as.Nodup → (∀ a ∈ as, a ∈ heap) →
    ∃ h', freeAll heap as = .ok h' ∧ h'.Nodup ∧ ∀ x, x ∈ h' ↔ x ∈ heap ∧ x ∉ as
  | [], heap, hn, _, _ => ⟨heap, rfl, hn, by simp⟩
  | a :: as, heap, hn, ha, hs => by
    have hsub : ∀ x ∈ as, x ∈ heap.erase a := by
      intro x hx
      rw [hn.mem_erase_iff]
      exact ⟨fun h => (List.nodup_cons.1 ha).1 (h ▸ hx), hs x (by simp [hx])⟩
    obtain ⟨h', e, hn', hm⟩ := freeAll_ok as (heap.erase a) (hn.erase a) (List.nodup_cons.1 ha).2 hsub
    refine ⟨h', by rw [freeAll, if_pos (hs a (by simp)), e], hn', fun x => ?_⟩
    rw [hm, hn.mem_erase_iff, List.mem_cons, not_or]
    tauto

theorem fresh_mem {n m a : ℕ} : a ∈ (List.range n).map (m + ·) ↔ m ≤ a ∧ a < m + n := by
  simp only [List.mem_map, List.mem_range]
  constructor
  · rintro ⟨x, hx, rfl⟩; omega
  · rintro ⟨h1, h2⟩; exact ⟨a - m, by omega, by omega⟩

theorem step_sound {s : St} (hs : Sound s) {op : Op} (hop : op.plain) :
    ∃ s', step s op = .ok s' ∧ Sound s' ∧ s.next ≤ s'.next := by
  cases op with
  | copy i j => exact hop.elim
  | assign i j => exact hop.elim
  | construct i n =>
    simp only [step]
    rcases hi : s.objs i with _ | o
    · refine ⟨_, rfl, ⟨?_, ?_, ?_, ?_, ?_⟩, by simp [St.set]⟩
      · refine List.Nodup.append (List.nodup_range.map fun a b h => by simpa using h) hs.nodup ?_
        intro a h1 h2
        exact absurd (hs.bound a h2) (Nat.not_lt.2 (fresh_mem.1 h1).1)
      · intro a ha
        rcases List.mem_append.1 ha with h | h
        · exact (fresh_mem.1 h).2
        · exact Nat.lt_of_lt_of_le (hs.bound a h) (Nat.le_add_right _ _)
      · intro k o ho
        simp only [St.set] at ho ⊢
        split_ifs at ho with hk
        · obtain rfl := Option.some.inj ho
          exact ⟨List.nodup_range.map fun a b h => by simpa using h, fun a ha => List.mem_append_left _ ha⟩
        · obtain ⟨h1, h2⟩ := hs.owned k o ho
          exact ⟨h1, fun a ha => List.mem_append_right _ (h2 a ha)⟩
      · intro k l o o' a hk hl h1 h2
        simp only [St.set] at hk hl
        split_ifs at hk hl with h3 h4 h4
        · rw [h3, h4]
        · obtain rfl := Option.some.inj hk
          exact absurd (hs.bound a ((hs.owned _ _ hl).2 a h2)) (Nat.not_lt.2 (fresh_mem.1 h1).1)
        · obtain rfl := Option.some.inj hl
          exact absurd (hs.bound a ((hs.owned _ _ hk).2 a h1)) (Nat.not_lt.2 (fresh_mem.1 h2).1)
        · exact hs.unique k l o o' a hk hl h1 h2
      · intro a ha
        rcases List.mem_append.1 ha with h | h
        · exact ⟨i, _, by simp [St.set], h⟩
        · obtain ⟨k, o, hk, ho⟩ := hs.reach a h
          refine ⟨k, o, ?_, ho⟩
          have : k ≠ i := by rintro rfl; rw [hi] at hk; simp at hk
          simp [St.set, this, hk]
    · exact ⟨s, rfl, hs, le_rfl⟩
  | destroy i =>
    simp only [step]
    rcases hi : s.objs i with _ | o
    · exact ⟨s, rfl, hs, le_rfl⟩
    · obtain ⟨h', e, hn', hm⟩ := freeAll_ok o s.heap hs.nodup (hs.owned i o hi).1 (hs.owned i o hi).2
      refine ⟨{ s with heap := h' }.set i none, by simp only [e]; rfl, ⟨hn', ?_, ?_, ?_, ?_⟩, le_rfl⟩
      · exact fun a ha => hs.bound a ((hm a).1 ha).1
      · intro k p hp
        simp only [St.set] at hp ⊢
        split_ifs at hp with hk
        obtain ⟨h1, h2⟩ := hs.owned k p hp
        exact ⟨h1, fun a ha => (hm a).2 ⟨h2 a ha, fun h => hk (hs.unique k i p o a hp hi ha h)⟩⟩
      · intro k l p p' a hk hl h1 h2
        simp only [St.set] at hk hl
        split_ifs at hk hl with h3 h4
        exact hs.unique k l p p' a hk hl h1 h2
      · intro a ha
        obtain ⟨ha1, ha2⟩ := (hm a).1 ha
        obtain ⟨k, p, hk, hp⟩ := hs.reach a ha1
        refine ⟨k, p, ?_, hp⟩
        have : k ≠ i := by
          rintro rfl
          rw [hi] at hk
          exact ha2 (Option.some.inj hk ▸ hp)
        simp [St.set, this, hk]

theorem run_sound {s : St} (hs : Sound s) : ∀ {ops : List Op}, (∀ op ∈ ops, op.plain) →
    ∃ s', run s ops = .ok s' ∧ Sound s' := by
  intro ops
  induction ops generalizing s with
  | nil => exact fun _ => ⟨s, rfl, hs⟩
  | cons op ops ih =>
    intro h
    obtain ⟨s1, e1, h1, -⟩ := step_sound hs (h op (by simp))
    obtain ⟨s2, e2, h2⟩ := ih h1 (fun o ho => h o (by simp [ho]))
    exact ⟨s2, by rw [run, e1]; exact e2, h2⟩

theorem init_sound : Sound St.init :=
  ⟨List.nodup_nil, by simp [St.init], by simp [St.init], by simp [St.init], by simp [St.init]⟩

/-- C56 (part): a program that only constructs and destroys objects never deletes a curve object twice; at every
moment the allocated curve objects are exactly those owned by live objects, each by one; in particular when all
objects are gone every curve object has been deleted.
Missing: copies, where it is false (see below). -/
theorem C56_no_copy_partial (ops : List Op) (h : ∀ op ∈ ops, op.plain) :
    ∃ s, run St.init ops = .ok s ∧
      (∀ a, a ∈ s.heap ↔ ∃ i o, s.objs i = some o ∧ a ∈ o) ∧
      (∀ i j o o' a, s.objs i = some o → s.objs j = some o' → a ∈ o → a ∈ o' → i = j) ∧
      ((∀ i, s.objs i = none) → s.heap = []) := by
  obtain ⟨s, e, hs⟩ := run_sound init_sound h
  refine ⟨s, e, fun a => ⟨hs.reach a, ?_⟩, hs.unique, fun hn => ?_⟩
  · rintro ⟨i, o, ho, ha⟩
    exact (hs.owned i o ho).2 a ha
  · rw [List.eq_nil_iff_forall_not_mem]
    intro a ha
    obtain ⟨i, o, ho, -⟩ := hs.reach a ha
    rw [hn i] at ho
    simp at ho

/-- a history that allocates four curve objects and frees three -/
example : (do
    let s ← run St.init [.construct 0 1, .construct 1 2, .destroy 0, .construct 0 1, .destroy 1]
    .ok (s.heap, s.next, s.objs 0, s.objs 1) : R _) = .ok ([3], 4, some [3], none) := by decide

/-- C56 is false: in whatever state a program is, copying an object that owns a curve object and destroying the
original and the copy is a double free. -/
theorem C56_copy_counterexample (s : St) (hs : Sound s) (i j a : ℕ) (o : Obj) (hi : s.objs i = some o) (ha : a ∈ o)
    (hj : s.objs j = none) : run s [.copy i j, .destroy i, .destroy j] = .error .doubleFree := by
  have hij : j ≠ i := by rintro rfl; rw [hi] at hj; simp at hj
  obtain ⟨h', e, hn', hm⟩ := freeAll_ok o s.heap hs.nodup (hs.owned i o hi).1 (hs.owned i o hi).2
  have hf : freeAll h' o = .error .doubleFree := by
    rcases o with _ | ⟨b, o⟩
    · simp at ha
    · rw [freeAll, if_neg]
      intro hb
      exact ((hm b).1 hb).2 (by simp)
  simp only [run, step, hi, hj, bind, Except.bind, St.set, hij, if_true, if_false, e, hf, hij.symm]

/-- C56 is false also for assignment: after `j = i` the curve object `j` owned is leaked, no live object owns it
and nothing will ever free it. -/
theorem C56_assign_leak_counterexample (s : St) (hs : Sound s) (i j a : ℕ) (o o' : Obj) (hij : i ≠ j)
    (hi : s.objs i = some o) (hj : s.objs j = some o') (ha : a ∈ o') :
    ∃ s', run s [.assign i j] = .ok s' ∧ a ∈ s'.heap ∧ ∀ k p, s'.objs k = some p → a ∉ p := by
  refine ⟨s.set j (some o), by simp only [run, step, hi, hj]; rfl, (hs.owned j o' hj).2 a ha, ?_⟩
  intro k p hk hap
  simp only [St.set] at hk
  split_ifs at hk with h
  · obtain rfl := Option.some.inj hk
    exact hij (hs.unique i j o o' a hi hj hap ha)
  · exact h (hs.unique k j p o' a hk hj hap ha)

/-- the states reached by programs without copies are sound, so the two theorems apply to them; a concrete run -/
example : run St.init [.construct 0 1, .copy 0 1, .destroy 0, .destroy 1] = .error .doubleFree := rfl
example : ∃ s, run St.init [.construct 0 1, .construct 1 1] = .ok s ∧ Sound s ∧ s.objs 0 = some [0] ∧
    s.objs 1 = some [1] := by
  obtain ⟨s, e, hs⟩ := run_sound init_sound (ops := [.construct 0 1, .construct 1 1])
    (by intro op h; simp at h; rcases h with rfl | rfl <;> trivial)
  refine ⟨s, e, hs, ?_⟩
  obtain rfl := Except.ok.inj e
  exact ⟨rfl, rfl⟩

end Verif.Life
