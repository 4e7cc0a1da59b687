import Verif.Props.OpprfSampleA
import Verif.Props.OpprfStream

/-!
# A concrete evaluation that meets the hypotheses of C74
-/

namespace Verif
namespace Opprf
namespace Sample

open Dme Ot Aes EC BytesSpec StreamSpec

theorem shows_of {key m : ℤ}
    (h : (Utils.getRawMpz m).head? ≠ some (W.stream (Utils.getRawMpz key) 0)) : Shows W key m := by
  intro kb b mb h1 h2 h3
  rw [Utils.IsBytes.raw h1, Utils.IsBytes.raw h2, List.head?_cons, h3] at h
  exact h rfl

theorem apart_of {key key' m : ℤ} (d : List (BitVec 8))
    (hd : difference (W.stream (Utils.getRawMpz key)) (W.stream (Utils.getRawMpz key')) ((Utils.getRawMpz m).length + 4) = d)
    (h1 : Utils.getRawMpz m ≠ d.take (Utils.getRawMpz m).length)
    (h2 : d.drop (Utils.getRawMpz m).length ≠ CrcSpec.tail (d.take (Utils.getRawMpz m).length)) : Apart W key key' m := by
  intro kb kb' mb d' t k1 k2 k3 hl hdt
  rw [Utils.IsBytes.raw k1, Utils.IsBytes.raw k2, Utils.IsBytes.raw k3, hdt] at hd
  rw [Utils.IsBytes.raw k3, ← hd] at h1 h2
  rw [List.take_append_of_le_length hl.ge, ← hl, List.take_length] at h1
  rw [List.take_append_of_le_length hl.ge, ← hl, List.take_length, List.drop_left] at h2
  exact ⟨h1, h2⟩

theorem shows_kk {sy sy' : Ordering} (h : Follows sy sy') : Shows W (kk sy) (kk sy') := by
  cases sy <;> cases sy' <;> first | (rcases h with h | h <;> cases h; done) | exact shows_of (by decide +kernel)

theorem apart_kk {sy0 sy sy' : Ordering} (h : sy ≠ sy0) (hf : Follows sy sy') : Apart W (kk sy0) (kk sy) (kk sy') := by
  cases sy0 <;> cases sy <;> cases sy' <;>
    first
    | exact absurd rfl h
    | (rcases hf with h | h <;> cases h; done)
    | exact apart_of _ rfl (by decide +kernel) (by decide +kernel)

theorem shows_pay (sy : Ordering) : Shows W (kk sy) (pay sy) := by
  cases sy <;> exact shows_of (by decide +kernel)

theorem apart_pay {sy0 sy : Ordering} (h : sy ≠ sy0) : Apart W (kk sy0) (kk sy) (pay sy) := by
  cases sy0 <;> cases sy <;> first | exact absurd rfl h | exact apart_of _ rfl (by decide +kernel) (by decide +kernel)

/-- the hypotheses of `C74_right_partial` and `C74_completes_iff_partial` -/
theorem plain : Plain W srv0 (Client.ctor (some 1) crs) 700#16 draws := by
  obtain ⟨hu, -⟩ := undisturbed (x := 700#16) (by decide) inf (a_fine inf)
  refine ⟨hu.slack, hu.iv, hu.bits, hu.full, hu.walk.top, hu.walk.enc, ?_, ?_, hu.fine, hu.mask.finite, hu.mask.finite', hu.un,
    ?_, ?_⟩
  · intro j hj sy
    rw [key_eq _ (by omega), key_eq _ (by omega)]
    exact shows_kk (follows_next _ _ _ _)
  · intro j hj sy hsy
    rw [key_eq _ (by omega), key_eq _ (by omega), key_eq _ (by omega)]
    exact apart_kk hsy (follows_next _ _ _ _)
  · intro sy e he
    have hr : draws.mask.rnd = 77 := rfl
    rw [mask_draw, hr, show srv0.curve = some 0 from rfl, encodingOf_eq] at he
    rw [he, key_eq _ (by norm_num)]
    exact ⟨by cases sy <;> decide +kernel, shows_pay sy⟩
  · intro sy hsy e he
    have hr : draws.mask.rnd = 77 := rfl
    rw [mask_draw, hr, show srv0.curve = some 0 from rfl, encodingOf_eq] at he
    rw [he, key_eq _ (by norm_num), key_eq _ (by norm_num)]
    exact apart_pay hsy

example : Parties W.env srv0 (Client.ctor (some 1) crs) ∧ (Client.ctor (some 1) crs).result = Pt.infty CC ∧
    NotMisled W srv0 (Client.ctor (some 1) crs) 700#16 draws ∧ Plain W srv0 (Client.ctor (some 1) crs) 700#16 draws :=
  ⟨parties, rfl, (plain.undisturbed parties.server).1, plain⟩

/-- the hypotheses of `C74_opens_iff`, `C74_rejects` and `C74_rejects_iff` -/
example : IvReadable W.iv ∧ (∀ n, n + 4 ≤ W.pf.usable n) ∧ 2 ^ 120 ≤ kk .eq ∧ 2 ^ 120 ≤ kk .lt ∧ 0 < kk .gt ∧ kk .gt < 256 ^ 124 ∧
    Shows W (kk .eq) (kk .gt) ∧ Apart W (kk .lt) (kk .eq) (kk .gt) :=
  ⟨by unfold IvReadable; decide, fun n => by simp [W, pfSlack], by decide +kernel, by decide +kernel, by decide +kernel,
    by decide +kernel, shows_kk (.inl rfl), apart_kk (by decide) (.inl rfl)⟩

end Sample
end Opprf
end Verif
