import Mathlib.NumberTheory.LucasPrimality
import Mathlib.Tactic.NormNum.Prime

/-!
# Kernel-checkable primality certificates (Pratt)
-/

namespace Verif

/-- binary exponentiation modulo `m`, one bit of the exponent per unit of fuel -/
def powModAux (m : ℕ) : ℕ → ℕ → ℕ → ℕ → ℕ
  | 0, _, _, acc => acc
  | f + 1, a, e, acc =>
    if e = 0 then acc
    else powModAux m f (a * a % m) (e / 2) (if e % 2 = 1 then acc * a % m else acc)

def powMod (m a e : ℕ) : ℕ := powModAux m 300 (a % m) e (1 % m)

theorem powModAux_cast (m f a e acc : ℕ) (he : e < 2 ^ f) :
    ((powModAux m f a e acc : ℕ) : ZMod m) = acc * (a : ZMod m) ^ e := by
  induction f generalizing a e acc with
  | zero =>
    have : e = 0 := by simpa using he
    subst this
    simp [powModAux]
  | succ f ih =>
    rw [powModAux]
    split_ifs with h0 h1
    · subst h0; simp
    · rw [ih _ _ _ (by rw [pow_succ] at he; omega)]
      have : e = 2 * (e / 2) + 1 := by omega
      conv_rhs => rw [this]
      simp only [Nat.cast_mul, ZMod.natCast_mod]
      rw [pow_succ, pow_mul]; ring
    · rw [ih _ _ _ (by rw [pow_succ] at he; omega)]
      have : e = 2 * (e / 2) := by omega
      conv_rhs => rw [this]
      simp only [Nat.cast_mul, ZMod.natCast_mod]
      rw [pow_mul]; ring

theorem powMod_cast (m a e : ℕ) (he : e < 2 ^ 300) :
    ((powMod m a e : ℕ) : ZMod m) = (a : ZMod m) ^ e := by
  rw [powMod, powModAux_cast m 300 _ _ _ he]
  simp

theorem powModAux_lt (m f a e acc : ℕ) (hm : 0 < m) (h : acc < m) : powModAux m f a e acc < m := by
  induction f generalizing a e acc with
  | zero => simpa [powModAux] using h
  | succ f ih =>
    rw [powModAux]
    split_ifs
    · exact h
    · exact ih _ _ _ (Nat.mod_lt _ hm)
    · exact ih _ _ _ h

theorem powMod_lt (m a e : ℕ) (hm : 0 < m) : powMod m a e < m :=
  powModAux_lt _ _ _ _ _ hm (Nat.mod_lt _ hm)

/-- the computational part of a Pratt certificate -/
def prattCheck (p a : ℕ) (fs : List ℕ) : Bool :=
  decide (1 < p) && decide (p - 1 < 2 ^ 300) && (fs.prod == p - 1) && (powMod p a (p - 1) == 1) &&
    fs.all fun q => powMod p a ((p - 1) / q) != 1

theorem prime_of_pratt (p a : ℕ) (fs : List ℕ) (hfs : ∀ q ∈ fs, q.Prime)
    (h : prattCheck p a fs = true) : p.Prime := by
  simp only [prattCheck, Bool.and_eq_true, decide_eq_true_eq, beq_iff_eq, List.all_eq_true,
    bne_iff_ne, ne_eq] at h
  obtain ⟨⟨⟨⟨h1, hb⟩, hprod⟩, hone⟩, hne⟩ := h
  refine lucas_primality p (a : ZMod p) ?_ ?_
  · rw [← powMod_cast p a _ hb, hone]; simp
  · intro q hq hdvd
    rw [← hprod] at hdvd
    obtain ⟨r, hr, hqr⟩ := (Prime.dvd_prod_iff hq.prime).1 hdvd
    have : q = r := (Nat.prime_dvd_prime_iff_eq hq (hfs r hr)).1 hqr
    subst this
    have hb' : (p - 1) / q < 2 ^ 300 := lt_of_le_of_lt (Nat.div_le_self _ _) hb
    rw [← powMod_cast p a _ hb']
    intro hcon
    apply hne q hr
    have h2 : ((powMod p a ((p - 1) / q) : ℕ) : ZMod p) = ((1 : ℕ) : ZMod p) := by simpa using hcon
    rw [ZMod.natCast_eq_natCast_iff'] at h2
    rw [Nat.mod_eq_of_lt (powMod_lt _ _ _ (by omega)), Nat.mod_eq_of_lt h1] at h2
    exact h2

end Verif
