import Verif.Props.OpprfShuffle
import Verif.Props.OpprfSampleB

/-!
# C110: a client that evaluates again and again finds the threshold
-/

namespace Verif
namespace Opprf

open EC Dme Ot Aes BytesSpec

/-- A binary search: the client knows that the threshold is one of the `2 ^ n` numbers from `lo` upwards.  In evaluation `n`,
`ask n x` is what it notes with input `x` (see `spy`), and it looks at the last entry only. -/
def search (ask : ℕ → Msg → R (List (Option Ordering))) : ℕ → ℕ → R ℕ
  | 0, lo => .ok lo
  | n + 1, lo => do
    let g ← ask n (BitVec.ofNat 16 (lo + 2 ^ n))
    search ask n (if g.getLast? = some (some .gt) then lo else lo + 2 ^ n)

/-- the input of the client in evaluation `n` -/
def asked (theta : Msg) (n : ℕ) : Msg := BitVec.ofNat 16 (theta.toNat / 2 ^ (n + 1) * 2 ^ (n + 1) + 2 ^ n)

/-- C110 is false, over several evaluations: with 16 evaluations a client finds out the whole threshold, and with `n` evaluations
the last `n` bits if it knows the others.  The servers of the evaluations may differ in everything but the threshold, and the
draws of each need only be undisturbing for the input used in it. -/
theorem C110_search_counterexample {W : World} {theta : Msg} {rand : ℕ → ℕ → ℕ} {s : ℕ → Server} {c : ℕ → Client}
    {d : ℕ → Draws} {n : ℕ} (hn : n ≤ 16) (ht : ∀ k < n, (s k).theta = theta) (hP : ∀ k < n, Parties W.env (s k) (c k))
    (hd : ∀ k < n, FromRand (rand k) (d k)) (hu : ∀ k < n, Undisturbed W (s k) (c k) (asked theta k) (d k)) :
    search (fun k x => spy W (rand k) (s k) (c k) x (d k)) n (theta.toNat / 2 ^ n * 2 ^ n) = .ok theta.toNat := by
  induction n with
  | zero => rw [search, pow_zero, Nat.div_one, mul_one]
  | succ n ih =>
    have hx : (asked theta n).toNat = theta.toNat / 2 ^ (n + 1) * 2 ^ (n + 1) + 2 ^ n := by
      rw [asked, BitVec.toNat_ofNat, Nat.mod_eq_of_lt]
      have h1 : theta.toNat / 2 ^ (n + 1) < 2 ^ (15 - n) := by
        rw [Nat.div_lt_iff_lt_mul (by positivity), ← pow_add, show 15 - n + (n + 1) = 16 by omega]
        exact theta.isLt
      calc theta.toNat / 2 ^ (n + 1) * 2 ^ (n + 1) + 2 ^ n
          < theta.toNat / 2 ^ (n + 1) * 2 ^ (n + 1) + 2 ^ (n + 1) := by
            have : 2 ^ n < 2 ^ (n + 1) := Nat.pow_lt_pow_right (by norm_num) (by omega)
            omega
        _ = (theta.toNat / 2 ^ (n + 1) + 1) * 2 ^ (n + 1) := by ring
        _ ≤ 2 ^ (15 - n) * 2 ^ (n + 1) := Nat.mul_le_mul_right _ h1
        _ = 2 ^ 16 := by rw [← pow_add, show 15 - n + (n + 1) = 16 by omega]
    rw [search]
    have hs := C110_counterexample (hP n (by omega)) (hd n (by omega)) (hu n (by omega))
    unfold asked at hs
    rw [hs, R.ok_bind]
    have hlast : ((List.range 16).reverse.map fun j => some (compare ((asked theta n).toNat / 2 ^ j)
        ((s n).theta.toNat / 2 ^ j))).getLast? = some (some (compare (asked theta n).toNat theta.toNat)) := by
      rw [ht n (by omega)]
      have : (List.range 16).reverse = [15, 14, 13, 12, 11, 10, 9, 8, 7, 6, 5, 4, 3, 2, 1, 0] := by decide
      rw [this]
      simp only [List.map_cons, List.map_nil, List.getLast?_cons_cons, List.getLast?_singleton, pow_zero, Nat.div_one]
    unfold asked at hlast
    rw [hlast]
    have hnext : (if some (some (compare (asked theta n).toNat theta.toNat)) = some (some Ordering.gt) then
        theta.toNat / 2 ^ (n + 1) * 2 ^ (n + 1) else theta.toNat / 2 ^ (n + 1) * 2 ^ (n + 1) + 2 ^ n) =
        theta.toNat / 2 ^ n * 2 ^ n := by
      have e : theta.toNat / 2 ^ (n + 1) = theta.toNat / 2 ^ n / 2 := by rw [pow_succ, Nat.div_div_eq_div_mul]
      have e2 := Nat.div_add_mod (theta.toNat / 2 ^ n) 2
      have e3 := Nat.div_add_mod theta.toNat (2 ^ n)
      have e4 := Nat.mod_lt theta.toNat (show 0 < 2 ^ n by positivity)
      have hlt := Nat.mod_lt (theta.toNat / 2 ^ n) (show 0 < 2 by norm_num)
      simp only [Option.some.injEq, compare_gt_iff_gt, gt_iff_lt]
      rw [hx, e]
      set q := theta.toNat / 2 ^ n / 2
      have e5 : q * 2 ^ (n + 1) = 2 * q * 2 ^ n := by ring
      rw [e5, ← e2]
      rcases (show theta.toNat / 2 ^ n % 2 = 0 ∨ theta.toNat / 2 ^ n % 2 = 1 by omega) with h | h
      · rw [if_pos, h, add_zero]
        rw [← e3, ← e2, h, add_zero, mul_comm (2 ^ n)]
        omega
      · rw [if_neg, h]
        · ring
        · rw [not_lt, ← e3, ← e2, h]
          have e6 : 2 ^ n * (2 * q + 1) = 2 * q * 2 ^ n + 2 ^ n := by ring
          omega
    unfold asked at hnext
    rw [hnext]
    exact ih (by omega) (fun k hk => ht k (by omega)) (fun k hk => hP k (by omega)) (fun k hk => hd k (by omega))
      (fun k hk => hu k (by omega))

/-- the client knows that the threshold is 1000 or 1001 and asks with 1001 -/
example : search (fun _ x => spy Sample.W sampleRand Sample.srv0 (Client.ctor (some 1) Sample.crs) x Sample.draws) 1 1000 =
    .ok 1000 :=
  C110_search_counterexample (theta := 1000#16) (s := fun _ => Sample.srv0) (c := fun _ => Client.ctor (some 1) Sample.crs)
    (d := fun _ => Sample.draws) (rand := fun _ => sampleRand) (by norm_num) (fun _ _ => rfl) (fun _ _ => Sample.parties)
    (fun _ _ => sample_fromRand) (fun k hk => by
      obtain rfl : k = 0 := by omega
      exact Sample.undisturbed (x := 1001#16) (by decide) _ (Sample.b_fine _))

end Opprf
end Verif
