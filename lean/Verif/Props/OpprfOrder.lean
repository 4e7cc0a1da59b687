import Verif.Props.OpprfShuffle

/-!
# C110: the order of the answers, in terms of `std::random_shuffle`
-/

namespace Verif
namespace Opprf

/-- `std::iter_swap` of the elements `i` and `j` -/
def swapAt {α : Type} (l : List α) (i j : ℕ) : List α :=
  match l[i]?, l[j]? with
  | some x, some y => (l.set i y).set j x
  | _, _ => l

/-- `std::random_shuffle` of libstdc++ on a sequence of any length: for `i = 1, 2, …`, element `i` is swapped with element
`rand() % (i + 1)`; `r` are the values returned by `rand()`. -/
def randomShuffle {α : Type} (l : List α) (r : ℕ → ℕ) : List α :=
  (List.range (l.length - 1)).foldl (fun l i => swapAt l (i + 1) (r i % (i + 2))) l

/-- C110, the order: with the values `r1`, `r2` of `rand()` the three elements come in the order that `std::random_shuffle` gives
them. -/
theorem C110_order {α : Type} (a : Arr3 α) (r : ℕ → ℕ) : (a.shuffle (r 0) (r 1)).toList = randomShuffle a.toList r := by
  obtain ⟨x, y, z⟩ := a
  have h0 : r 0 % 2 = 0 ∨ r 0 % 2 = 1 := by omega
  have h1 : r 1 % 3 = 0 ∨ r 1 % 3 = 1 ∨ r 1 % 3 = 2 := by omega
  rcases h0 with h0 | h0 <;> rcases h1 with h1 | h1 | h1 <;>
    simp [Arr3.shuffle, Arr3.toList, randomShuffle, swapAt, List.range_succ, h0, h1]

/-- all six orders occur -/
example : ∀ l ∈ ([[0, 1, 2], [0, 2, 1], [1, 0, 2], [1, 2, 0], [2, 0, 1], [2, 1, 0]] : List (List ℕ)),
    ∃ r1 < 2, ∃ r2 < 3, (Arr3.shuffle ⟨0, 1, 2⟩ r1 r2).toList = l := by decide

end Opprf
end Verif
