import Verif.Props.OpprfTiming
import Verif.Props.OpprfSampleB

/-!
# C122: a server that is asked again and again finds the input
-/

namespace Verif
namespace Opprf

open EC Dme Ot Aes

/-- A binary search: the server knows that the input is one of the `2 ^ n` numbers from `lo` upwards.  In evaluation `n`, `ask n theta`
is what it reads off the times with threshold `theta` (see `readOff`), and it looks at the last entry only. -/
def searchInput (ask : ℕ → Msg → R (List (Option Ordering))) : ℕ → ℕ → R ℕ
  | 0, lo => .ok lo
  | n + 1, lo => do
    let g ← ask n (BitVec.ofNat 16 (lo + (2 ^ n - 1)))
    searchInput ask n (if g.getLast? = some (some .gt) then lo + 2 ^ n else lo)

/-- the threshold of the server in evaluation `n` -/
def probe (x : Msg) (n : ℕ) : Msg := BitVec.ofNat 16 (x.toNat / 2 ^ (n + 1) * 2 ^ (n + 1) + (2 ^ n - 1))

/-- C122 is false, over several evaluations: with 16 evaluations for the same input a server that chooses its thresholds finds out the
whole input from the times, and with `n` evaluations the last `n` bits if it knows the others.  Each evaluation may use other objects,
and its draws need only be undisturbing for the threshold used in it. -/
theorem C122_search_counterexample {W : World} {x : Msg} {s : ℕ → Msg → Server} {c : ℕ → Client} {d : ℕ → Draws} {n : ℕ} (hn : n ≤ 16)
    (ht : ∀ k < n, (s k (probe x k)).theta = probe x k) (hP : ∀ k < n, Parties W.env (s k (probe x k)) (c k))
    (hu : ∀ k < n, Undisturbed W (s k (probe x k)) (c k) x (d k)) :
    searchInput (fun k theta => do
      let r ← evaluateT W (s k theta) (c k) x (d k)
      .ok (readOff (d k) r.1)) n (x.toNat / 2 ^ n * 2 ^ n) = .ok x.toNat := by
  induction n with
  | zero => rw [searchInput, pow_zero, Nat.div_one, mul_one]
  | succ n ih =>
    have hp : 0 < 2 ^ n := by positivity
    have hx : (probe x n).toNat = x.toNat / 2 ^ (n + 1) * 2 ^ (n + 1) + (2 ^ n - 1) := by
      rw [probe, BitVec.toNat_ofNat, Nat.mod_eq_of_lt]
      have h1 : x.toNat / 2 ^ (n + 1) < 2 ^ (15 - n) := by
        rw [Nat.div_lt_iff_lt_mul (by positivity), ← pow_add, show 15 - n + (n + 1) = 16 by omega]
        exact x.isLt
      calc x.toNat / 2 ^ (n + 1) * 2 ^ (n + 1) + (2 ^ n - 1)
          < x.toNat / 2 ^ (n + 1) * 2 ^ (n + 1) + 2 ^ (n + 1) := by
            have : 2 ^ n < 2 ^ (n + 1) := Nat.pow_lt_pow_right (by norm_num) (by omega)
            omega
        _ = (x.toNat / 2 ^ (n + 1) + 1) * 2 ^ (n + 1) := by ring
        _ ≤ 2 ^ (15 - n) * 2 ^ (n + 1) := Nat.mul_le_mul_right _ h1
        _ = 2 ^ 16 := by rw [← pow_add, show 15 - n + (n + 1) = 16 by omega]
    rw [searchInput]
    obtain ⟨r, h1, h2⟩ := C122_counterexample (hP n (by omega)) (hu n (by omega))
    rw [probe] at h1
    beta_reduce
    rw [h1, R.ok_bind, R.ok_bind, h2]
    have hlast : ((List.range 16).reverse.map fun j => some (compare (x.toNat / 2 ^ j)
        ((s n (probe x n)).theta.toNat / 2 ^ j))).getLast? = some (some (compare x.toNat (probe x n).toNat)) := by
      rw [ht n (by omega)]
      have : (List.range 16).reverse = [15, 14, 13, 12, 11, 10, 9, 8, 7, 6, 5, 4, 3, 2, 1, 0] := by decide
      rw [this]
      simp only [List.map_cons, List.map_nil, List.getLast?_cons_cons, List.getLast?_singleton, pow_zero, Nat.div_one]
    rw [hlast]
    have hnext : (if some (some (compare x.toNat (probe x n).toNat)) = some (some Ordering.gt) then
        x.toNat / 2 ^ (n + 1) * 2 ^ (n + 1) + 2 ^ n else x.toNat / 2 ^ (n + 1) * 2 ^ (n + 1)) =
        x.toNat / 2 ^ n * 2 ^ n := by
      have e : x.toNat / 2 ^ (n + 1) = x.toNat / 2 ^ n / 2 := by rw [pow_succ, Nat.div_div_eq_div_mul]
      have e2 := Nat.div_add_mod (x.toNat / 2 ^ n) 2
      have e3 := Nat.div_add_mod x.toNat (2 ^ n)
      have e4 := Nat.mod_lt x.toNat hp
      simp only [Option.some.injEq, compare_gt_iff_gt, gt_iff_lt]
      rw [hx, e]
      set q := x.toNat / 2 ^ n / 2
      have e5 : q * 2 ^ (n + 1) = 2 * q * 2 ^ n := by ring
      rw [e5, ← e2]
      rcases (show x.toNat / 2 ^ n % 2 = 0 ∨ x.toNat / 2 ^ n % 2 = 1 by omega) with h | h
      · rw [if_neg, h, add_zero]
        rw [not_lt, ← e3, ← e2, h, add_zero, mul_comm (2 ^ n)]
        omega
      · rw [if_pos, h]
        · ring
        · rw [← e3, ← e2, h]
          have e6 : 2 ^ n * (2 * q + 1) = 2 * q * 2 ^ n + 2 ^ n := by ring
          omega
    rw [hnext]
    exact ih (by omega) (fun k hk => ht k (by omega)) (fun k hk => hP k (by omega)) (fun k hk => hu k (by omega))

/-- the server knows that the input is 1000 or 1001 and sets the threshold to 1000 -/
example : searchInput (fun _ _ => do
      let r ← evaluateT Sample.W Sample.srv0 (Client.ctor (some 1) Sample.crs) 1001#16 Sample.draws
      .ok (readOff Sample.draws r.1)) 1 1000 = .ok 1001 :=
  C122_search_counterexample (x := 1001#16) (s := fun _ _ => Sample.srv0) (c := fun _ => Client.ctor (some 1) Sample.crs)
    (d := fun _ => Sample.draws) (by norm_num) (fun k hk => by
      obtain rfl : k = 0 := by omega
      decide) (fun _ _ => Sample.parties)
    (fun k hk => Sample.undisturbed (x := 1001#16) (by decide) _ (Sample.b_fine _))

end Opprf
end Verif
