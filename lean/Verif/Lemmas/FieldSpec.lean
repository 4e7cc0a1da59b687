import Verif.Spec.Basic
import Verif.Lemmas.Field
import Verif.Lemmas.Primes

/-!
# From canonical elements to `ZMod`
-/

namespace Verif

theorem IsModulus.prime {m : ℕ} (h : IsModulus m) : m.Prime := by
  rcases h with rfl | rfl | rfl | rfl
  · exact bn254N_prime
  · exact bn254P_prime
  · exact secpN_prime
  · exact secpP_prime

section
variable {m : ℕ} [NeZero m]

theorem isElem_iff {a : Fld} : IsElem m a ↔ ∃ z : ZMod m, a = Fld.ofZ z := by
  constructor
  · rintro ⟨hp, h0, h1⟩
    refine ⟨(a.value : ZMod m), ?_⟩
    rw [← Fld.mk'_eq]
    rcases a with ⟨v, p⟩
    simp only at hp h0 h1
    simp [Fld.mk', Int.emod_eq_of_lt h0 h1, hp]
  · rintro ⟨z, rfl⟩
    exact ⟨rfl, by simp only [Fld.ofZ_value]; positivity, by
      simp only [Fld.ofZ_value]; exact_mod_cast ZMod.val_lt z⟩

theorem isElem_ofZ (z : ZMod m) : IsElem m (Fld.ofZ z) := isElem_iff.2 ⟨z, rfl⟩

omit [NeZero m] in
theorem ofZ_cast [NeZero m] (z : ZMod m) : (((Fld.ofZ z).value : ℤ) : ZMod m) = z := by simp

theorem returns_ofZ {r : R Fld} {z : ZMod m} (h : r = .ok (Fld.ofZ z)) {v : ℤ} (hv : z = (v : ZMod m)) :
    Returns m r v := by
  refine ⟨_, h, isElem_ofZ z, ?_⟩
  rw [← ZMod.intCast_eq_intCast_iff, ofZ_cast, hv]

/-- a canonical element is the one made from its value -/
theorem IsElem.eq_ofZ {a : Fld} (h : IsElem m a) : a = Fld.ofZ ((a.value : ℤ) : ZMod m) := by
  obtain ⟨z, rfl⟩ := isElem_iff.1 h
  rw [ofZ_cast]

theorem isElem_mk' (v : ℤ) : IsElem m (Fld.mk' m v) := by rw [Fld.mk'_eq]; exact isElem_ofZ _

theorem isElem_ext {a b : Fld} (ha : IsElem m a) (hb : IsElem m b) (h : a.value ≡ b.value [ZMOD m]) : a = b := by
  rw [ha.eq_ofZ, hb.eq_ofZ, (ZMod.intCast_eq_intCast_iff _ _ _).2 h]

end

end Verif
