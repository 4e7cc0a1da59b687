import Verif.Props.OpprfSample
import Verif.Props.OpprfFail

/-!
# A concrete evaluation in which a sealed key does not open

It shows that the hypotheses of C66 and C67 can be met when the client cannot decrypt.
-/

namespace Verif
namespace Opprf
namespace Sample

open Dme Ot Aes EC

/-- a key whose keystream begins with the first byte of `kk .eq` -/
def kx : ℤ := 2 ^ 126 + 0x40 * 2 ^ 112 + 3

/-- the sample draws with `kx` for the topmost bit -/
def drawsX : Draws :=
  ⟨⟨2362, 17, (List.range 16).map fun j => ⟨kk .lt, if j = 15 then kx else kk .eq, kk .gt, j + 1⟩⟩, fun _ => ⟨3, rc⟩,
    ⟨77, 0, 0⟩, 3⟩

theorem keyX (sy : Ordering) {j : ℕ} (hj : j < 16) : drawsX.key sy j = if sy = .eq ∧ j = 15 then kx else kk sy := by
  have : drawsX.prep.bits.getD j ⟨0, 0, 0, 0⟩ = ⟨kk .lt, if j = 15 then kx else kk .eq, kk .gt, j + 1⟩ := by
    interval_cases j <;> rfl
  rw [Draws.key, this]
  cases sy <;> simp [BitCoins.key]

theorem keyX' (sy : Ordering) {j : ℕ} (hj : j < 15) : drawsX.key sy j = draws.key sy j := by
  rw [keyX _ (by omega), key_eq _ (by omega), if_neg (by omega)]

def cx : ℤ := 22475990643578642284460842605709949755710460

theorem sealX : W.seal kx (kk .eq) = .ok cx ∧ W.unseal kx cx = .ok 0 := by decide +kernel

theorem encX : Encodable kx ∧ Encodable cx :=
  ⟨encodable_of _ 0 5469577124995758946327600039195825392922070798158198288813057471659890338041 (by decide) (by decide +kernel),
    encodable_of _ 0 104653942099040156919592546992822459615538225953818277644646918951215402963534 (by decide) (by decide +kernel)⟩

theorem rejX {sy : Ordering} (h : sy ≠ .eq) : W.seal (kk sy) (kk sy) = .ok (ct sy sy) ∧ W.unseal kx (ct sy sy) = .ok 0 := by
  cases sy <;> first | exact absurd rfl h | decide +kernel

theorem keysX (sy : Ordering) {j : ℕ} (hj : j < 14) : drawsX.key sy (j + 1) = draws.key sy (j + 1) ∧
    drawsX.key sy j = draws.key sy j := ⟨keyX' _ (by omega), keyX' _ (by omega)⟩

theorem sym15 : sym 700#16 1000#16 15 = .eq := by decide

theorem sym14 : sym 700#16 1000#16 14 = .eq := by decide

theorem next14 (sy : Ordering) : next 700#16 1000#16 14 sy = sy := by cases sy <;> decide

theorem legibleX : Legible W drawsX.key 700#16 1000#16 := by
  have hl := legible (x := 700#16) sym15
  refine ⟨?_, ?_, ?_, ?_⟩
  · rw [sym15, keyX _ (by norm_num), if_pos ⟨rfl, rfl⟩]
    exact encX.1
  · intro j hj sy e he
    by_cases h : j < 14
    · rw [(keysX _ h).1, (keysX _ h).2] at he
      exact hl.enc j hj sy e he
    · obtain rfl : j = 14 := by omega
      rw [next14, keyX _ (by norm_num), keyX _ (by norm_num), if_neg (show ¬ (_ ∧ 14 = 15) by simp)] at he
      by_cases hs : sy = .eq
      · subst hs
        rw [if_pos ⟨rfl, rfl⟩, sealX.1] at he
        rw [← Except.ok.inj he]
        exact encX.2
      · rw [if_neg (by simp [hs]), (rejX hs).1] at he
        rw [← Except.ok.inj he]
        exact ct_encodable (.inr rfl)
  · intro j hj
    by_cases h : j < 14
    · rw [(keysX _ h).1, (keysX _ h).2]
      exact hl.own j hj
    · obtain rfl : j = 14 := by omega
      rw [sym14, sym15, keyX _ (by norm_num), keyX _ (by norm_num), if_neg (show ¬ (_ ∧ 14 = 15) by simp), if_pos ⟨rfl, rfl⟩]
      intro c hc
      rw [sealX.1] at hc
      rw [← Except.ok.inj hc]
      exact .inr sealX.2
  · intro j hj sy hsy
    by_cases h : j < 14
    · rw [(keysX _ h).1, (keysX _ h).1, (keysX _ h).2]
      exact hl.rejects j hj sy hsy
    · obtain rfl : j = 14 := by omega
      rw [sym15] at hsy ⊢
      rw [next14, keyX _ (by norm_num), keyX _ (by norm_num), keyX _ (by norm_num), if_neg (show ¬ (_ ∧ 14 = 15) by simp),
        if_pos ⟨rfl, rfl⟩, if_neg (by simp [hsy])]
      exact ⟨_, rejX hsy⟩

/-- a test for `FineRounds` -/
def fineRoundsB (d : ℕ → RoundDraws) (x : Msg) : ℕ → Server → Client → Bool
  | 0, _, _ => true
  | n + 1, s, c => match c.start W (n + 1 : ℕ) (d (n + 1)).sk with
    | .error _ => true
    | .ok (pk, c') => match s.runOTRound W (n + 1 : ℕ) pk (d (n + 1)).enc with
      | .error _ => true
      | .ok (m, s') => fineB c' m (x.toNat.testBit n) && match c'.finish W (n + 1 : ℕ) m with
        | .error _ => true
        | .ok c'' => fineRoundsB d x n s' c''

theorem fineRoundsB_spec {d : ℕ → RoundDraws} {x : Msg} {n : ℕ} {s : Server} {c : Client}
    (h : fineRoundsB d x n s c = true) : FineRounds W d x n s c := by
  induction n generalizing s c with
  | zero => trivial
  | succ n ih =>
    intro pk c' m s' h1 h2
    simp only [fineRoundsB, h1, h2, Bool.and_eq_true] at h
    refine ⟨fineB_spec h.1, fun c'' h3 => ih ?_⟩
    have h := h.2
    rwa [h3] at h

theorem fineX : (match srv0.prepare W drawsX.prep with
    | .error _ => false
    | .ok s => fineRoundsB drawsX.rounds 700#16 16 s (cl 700 0 inf)) = true := by decide +kernel

/-- the hypotheses of C66, with a sealed key that does not open -/
theorem notMisledX : NotMisled W srv0 (Client.ctor (some 1) crs) 700#16 drawsX ∧ ¬ AllOpen W srv0 700#16 drawsX := by
  refine ⟨⟨fun n => by simp [W, pfSlack], by unfold IvReadable; decide, by simp [drawsX], ?_, legibleX, ?_, ?_, by decide +kernel⟩,
    ?_⟩
  · intro sy j hj
    rw [keyX _ hj]
    split_ifs
    · decide +kernel
    · exact kk_range sy
  · intro s' hs
    have := fineX
    rw [hs] at this
    exact fineRoundsB_spec this
  · have := maskLegible (compare (700#16).toNat srv0.theta.toNat)
    rw [show (fun sy => drawsX.key sy 0) = fun sy => draws.key sy 0 from funext fun sy => keyX' sy (by norm_num)]
    exact this
  · rintro ⟨h, -⟩
    obtain ⟨c, h1, h2⟩ := h 14 (by norm_num)
    rw [show srv0.theta = 1000#16 from rfl, sym14, sym15, keyX _ (by norm_num), keyX _ (by norm_num),
      if_neg (show ¬ (_ ∧ 14 = 15) by simp), if_pos ⟨rfl, rfl⟩] at *
    rw [sealX.1] at h1
    rw [← Except.ok.inj h1, sealX.2] at h2
    exact absurd (Except.ok.inj h2) (by decide +kernel)

/-- so the client stops with its assertion -/
example : evaluate W srv0 (Client.ctor (some 1) crs) 700#16 drawsX = .error .assertFail :=
  (C66_completes_iff_partial parties notMisledX.1).2 notMisledX.2

/-- without asserts -/
def Wr : World := { W with env := { env2 with ndebug := true } }

/-- a call that throws (`C67_unchanged`), caught in a history (`C67_history`) -/
example : ((cl 700 (kk .lt) ga).unmaskState Wr ⟨ct .eq .eq, ct .eq .gt, ct .gt .gt⟩ 3).2 = .error .exception ∧
    runAll (CCall.runCatch Wr) (cl 700 (kk .lt) ga) [.unmask ⟨ct .eq .eq, ct .eq .gt, ct .gt .gt⟩ 3, .message 5] =
      .ok (cl 5 (kk .lt) ga) := by decide +kernel

end Sample
end Opprf
end Verif
