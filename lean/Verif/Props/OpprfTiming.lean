import Verif.Model.TimingOpprf
import Verif.Props.OpprfShuffle

/-!
# C122: what the time of the OPPRF client tells the server
-/

namespace Verif
namespace Opprf

open EC Dme Ot Aes

attribute [local irreducible] Rep

/-! ## The evaluation with its times -/

/-- rounds `n` down to 1 as in `runRounds`, with the number of ciphertexts tried in each -/
def runRoundsT (W : World) (d : ℕ → RoundDraws) : ℕ → Server → Client → R (List ℕ × Server × Client)
  | 0, s, c => .ok ([], s, c)
  | n + 1, s, c => do
    let (pk, c) ← c.start W (n + 1 : ℕ) (d (n + 1)).sk
    let (m, s) ← s.runOTRound W (n + 1 : ℕ) pk (d (n + 1)).enc
    let (c, t) ← c.finishT W (n + 1 : ℕ) m
    let (ts, s, c) ← runRoundsT W d n s c
    .ok (t :: ts, s, c)

/-- one evaluation as in `evaluate`, with the number of ciphertexts tried in the rounds 16 to 1 and the number of masks tried -/
def evaluateT (W : World) (s : Server) (c : Client) (x : Msg) (d : Draws) : R ((List ℕ × ℕ) × Server × Client) := do
  let c := c.setMessage x
  let s ← s.prepare W d.prep
  let (ts, s, c) ← runRoundsT W d.rounds 16 s c
  let m ← s.sendEncryptedMasks W d.mask
  let (c, t) ← c.unmaskResultT W m d.un
  .ok ((ts, t), s, c)

/-- The server's conclusion for the rounds `n` to 1: in each but round 16 it looks up which outcome it put at the place of the last
ciphertext tried. -/
def readRounds (d : ℕ → RoundDraws) : ℕ → List ℕ → List (Option Ordering)
  | n + 1, t :: ts => (if n = 15 then [] else [(order (d (n + 1)).enc.sh1 (d (n + 1)).enc.sh2)[t - 1]?]) ++ readRounds d n ts
  | _, _ => []

/-- the server's conclusion from the times -/
def readOff (d : Draws) (t : List ℕ × ℕ) : List (Option Ordering) :=
  readRounds d.rounds 16 t.1 ++ [(order d.mask.sh1 d.mask.sh2)[t.2 - 1]?]

/-! ## The counters change nothing -/

theorem searchKeyT_same (W : World) (c : Client) (l : List (List Ctxt)) :
    (do let r ← searchKeyT W c l; .ok r.1) = searchKey W c l := by
  induction l with
  | nil => rfl
  | cons v vs ih =>
    rw [searchKeyT, searchKey]
    rcases decryptMsgDecode W.env c.otr v with e | tmp
    · rfl
    simp only [R.ok_bind]
    rcases W.unseal c.key tmp with e | k
    · rfl
    simp only [R.ok_bind]
    split_ifs
    · rfl
    · rw [← ih]
      rcases searchKeyT W c vs with e | r <;> rfl

theorem searchMaskT_same (W : World) (key : ℤ) (l : List ℤ) :
    (do let r ← searchMaskT W key l; .ok r.1) = searchMask W key l := by
  induction l with
  | nil => rfl
  | cons v vs ih =>
    rw [searchMaskT, searchMask]
    rcases W.unseal key v with e | k
    · rfl
    simp only [R.ok_bind]
    split_ifs
    · rfl
    · rw [← ih]
      rcases searchMaskT W key vs with e | r <;> rfl

theorem finishT_same (W : World) (c : Client) (n : ℤ) (m : OtCtxts) :
    (do let r ← c.finishT W n m; .ok r.1) = c.finish W n m := by
  rw [Client.finishT, Client.nextKeyT, Client.finish]
  split_ifs
  · rcases decryptMsgDecode W.env c.otr m.ctxt.e0 with e | k
    · rfl
    simp only [R.ok_bind]
    rcases decryptMsg W.env c.otr m.cprf with e | p
    · rfl
    simp only [R.ok_bind]
    rcases c.result.add W.env CC p with e | q <;> rfl
  · rw [← searchKeyT_same]
    rcases searchKeyT W c m.ctxt.toList with e | ⟨f, t⟩
    · rfl
    simp only [R.ok_bind]
    rcases cassert W.env (.ok f.isSome) with e | u
    · rfl
    rcases f with _ | k
    · rfl
    simp only [R.ok_bind]
    rcases decryptMsg W.env c.otr m.cprf with e | p
    · rfl
    simp only [R.ok_bind]
    rcases c.result.add W.env CC p with e | q <;> rfl

theorem unmaskT_same (W : World) (c : Client) (m : Arr3 ℤ) (z : ℤ) :
    (do let r ← c.unmaskResultT W m z; .ok r.1) = c.unmaskResult W m z := by
  rw [Client.unmaskResultT, Client.unmaskResult, ← searchMaskT_same]
  rcases searchMaskT W c.key m.toList with e | ⟨f, t⟩
  · rfl
  simp only [R.ok_bind]
  rcases cassert W.env (.ok f.isSome) with e | u
  · rfl
  rcases f with _ | k
  · rfl
  simp only [R.ok_bind]
  rcases Curve.getRandomPoint W.env CC c.curve z with e | p
  · rfl
  simp only [R.ok_bind]
  rcases p.setEncodedX W.env CC k with e | p
  · rfl
  simp only [R.ok_bind]
  rcases c.result.add W.env CC p with e | q <;> rfl

theorem runRoundsT_same (W : World) (d : ℕ → RoundDraws) (n : ℕ) (s : Server) (c : Client) :
    (do let r ← runRoundsT W d n s c; .ok r.2) = runRounds W d n s c := by
  induction n generalizing s c with
  | zero => rfl
  | succ n ih =>
    rw [runRoundsT, runRounds]
    rcases c.start W (n + 1 : ℕ) (d (n + 1)).sk with e | ⟨pk, c⟩
    · rfl
    simp only [R.ok_bind]
    rcases s.runOTRound W (n + 1 : ℕ) pk (d (n + 1)).enc with e | ⟨m, s⟩
    · rfl
    simp only [R.ok_bind]
    rw [← finishT_same]
    rcases c.finishT W (n + 1 : ℕ) m with e | ⟨c, t⟩
    · rfl
    simp only [R.ok_bind]
    rw [← ih]
    rcases runRoundsT W d n s c with e | ⟨ts, s, c⟩ <;> rfl

/-- C122: the counters are added to the evaluation, they do not change it. -/
theorem C122_same (W : World) (s : Server) (c : Client) (x : Msg) (d : Draws) :
    (do let r ← evaluateT W s c x d; .ok r.2) = evaluate W s c x d := by
  rw [evaluateT, evaluate]
  simp only
  rcases s.prepare W d.prep with e | s
  · rfl
  simp only [R.ok_bind]
  rw [← runRoundsT_same]
  rcases runRoundsT W d.rounds 16 s (c.setMessage x) with e | ⟨ts, s, c⟩
  · rfl
  simp only [R.ok_bind]
  rcases s.sendEncryptedMasks W d.mask with e | m
  · rfl
  simp only [R.ok_bind]
  rw [← unmaskT_same]
  rcases c.unmaskResultT W m d.un with e | ⟨c, t⟩ <;> rfl

/-! ## The times tell which ciphertext opened -/

theorem searchKeyT_which {W : World} {c : Client} {os : List Ordering} {l : List (List Ctxt)} (hl : os.length = l.length) {k : ℤ} {t : ℕ}
    (h : searchKeyT W c l = .ok (some k, t)) : 0 < t ∧ whichKey W c (os.zip l) = .ok os[t - 1]? := by
  induction l generalizing os t with
  | nil => cases h
  | cons v vs ih =>
    obtain ⟨o, os, rfl⟩ : ∃ o os', os = o :: os' := by
      cases os with
      | nil => cases hl
      | cons o os => exact ⟨o, os, rfl⟩
    rw [searchKeyT] at h
    obtain ⟨e, h1, h⟩ := R.bind_eq_ok.1 h
    obtain ⟨z, h2, h⟩ := R.bind_eq_ok.1 h
    rw [List.zip_cons_cons, whichKey, h1, R.ok_bind, h2, R.ok_bind]
    by_cases hz : z ≠ 0
    · rw [if_pos hz] at h
      obtain ⟨-, rfl⟩ := Prod.mk.inj (Except.ok.inj h)
      rw [if_pos hz]
      exact ⟨one_pos, rfl⟩
    · rw [if_neg hz] at h
      obtain ⟨⟨f, q⟩, h3, h⟩ := R.bind_eq_ok.1 h
      obtain ⟨rfl, rfl⟩ := Prod.mk.inj (Except.ok.inj h)
      obtain ⟨h4, h5⟩ := ih (Nat.succ.inj hl) h3
      rw [if_neg hz, h5]
      obtain ⟨q, rfl⟩ := Nat.exists_eq_succ_of_ne_zero h4.ne'
      exact ⟨by omega, rfl⟩

theorem searchMaskT_which {W : World} {key : ℤ} {os : List Ordering} {l : List ℤ} (hl : os.length = l.length) {k : ℤ} {t : ℕ}
    (h : searchMaskT W key l = .ok (some k, t)) : 0 < t ∧ whichMask W key (os.zip l) = .ok os[t - 1]? := by
  induction l generalizing os t with
  | nil => cases h
  | cons v vs ih =>
    obtain ⟨o, os, rfl⟩ : ∃ o os', os = o :: os' := by
      cases os with
      | nil => cases hl
      | cons o os => exact ⟨o, os, rfl⟩
    rw [searchMaskT] at h
    obtain ⟨z, h2, h⟩ := R.bind_eq_ok.1 h
    rw [List.zip_cons_cons, whichMask, h2, R.ok_bind]
    by_cases hz : z ≠ 0
    · rw [if_pos hz] at h
      obtain ⟨-, rfl⟩ := Prod.mk.inj (Except.ok.inj h)
      rw [if_pos hz]
      exact ⟨one_pos, rfl⟩
    · rw [if_neg hz] at h
      obtain ⟨⟨f, q⟩, h3, h⟩ := R.bind_eq_ok.1 h
      obtain ⟨rfl, rfl⟩ := Prod.mk.inj (Except.ok.inj h)
      obtain ⟨h4, h5⟩ := ih (Nat.succ.inj hl) h3
      rw [if_neg hz, h5]
      obtain ⟨q, rfl⟩ := Nat.exists_eq_succ_of_ne_zero h4.ne'
      exact ⟨by omega, rfl⟩

/-- the numbers of the shuffles as a sequence -/
def randOf (d : Draws) (k : ℕ) : ℕ :=
  if k < 30 then (if k % 2 = 0 then (d.rounds (15 - k / 2)).enc.sh1 else (d.rounds (15 - k / 2)).enc.sh2)
  else if k = 30 then d.mask.sh1 else d.mask.sh2

theorem fromRand_of (d : Draws) : FromRand (randOf d) d := by
  refine ⟨fun n hn => ⟨?_, ?_⟩, rfl, rfl⟩
  · rw [randOf, if_pos (by omega), if_pos (by omega), show 15 - 2 * (14 - n) / 2 = n + 1 by omega]
  · rw [randOf, if_pos (by omega), if_neg (by omega), show 15 - (2 * (14 - n) + 1) / 2 = n + 1 by omega]

theorem note_read {W : World} {d : Draws} {n : ℕ} (hn : n < 16) {c c' : Client} {m : OtCtxts} {t : ℕ}
    (h : c.finishT W (n + 1 : ℕ) m = .ok (c', t)) : note W (randOf d) n c m =
      .ok (if n = 15 then [] else [(order (d.rounds (n + 1)).enc.sh1 (d.rounds (n + 1)).enc.sh2)[t - 1]?]) := by
  rw [note]
  by_cases h15 : n = 15
  · rw [if_pos h15, if_pos h15]
  rw [if_neg h15, if_neg h15]
  obtain ⟨r1, r2⟩ := (fromRand_of d).rounds n (by omega)
  rw [← r1, ← r2]
  rw [Client.finishT] at h
  obtain ⟨⟨k, t'⟩, h1, h⟩ := R.bind_eq_ok.1 h
  obtain ⟨_, -, h⟩ := R.bind_eq_ok.1 h
  obtain ⟨_, -, h⟩ := R.bind_eq_ok.1 h
  obtain ⟨-, rfl⟩ := Prod.mk.inj (Except.ok.inj h)
  rw [Client.nextKeyT, if_neg (by omega)] at h1
  obtain ⟨⟨f, t''⟩, h2, h1⟩ := R.bind_eq_ok.1 h1
  obtain ⟨_, -, h1⟩ := R.bind_eq_ok.1 h1
  rcases f with _ | k'
  · cases h1
  obtain ⟨rfl, rfl⟩ := Prod.mk.inj (Except.ok.inj h1)
  rw [(searchKeyT_which (by rfl) h2).2, R.ok_bind]

theorem spyRounds_read {W : World} {d : Draws} {n : ℕ} (hn : n ≤ 16) {s s' : Server} {c c' : Client} {ts : List ℕ}
    (h : runRoundsT W d.rounds n s c = .ok (ts, s', c')) :
    spyRounds W (randOf d) d.rounds n s c = .ok (readRounds d.rounds n ts, s', c') := by
  induction n generalizing s c ts with
  | zero =>
    obtain ⟨rfl, h'⟩ := Prod.mk.inj (Except.ok.inj h)
    obtain ⟨rfl, rfl⟩ := Prod.mk.inj h'
    rfl
  | succ n ih =>
    rw [runRoundsT] at h
    obtain ⟨⟨pk, c1⟩, h1, h⟩ := R.bind_eq_ok.1 h
    obtain ⟨⟨m, s1⟩, h2, h⟩ := R.bind_eq_ok.1 h
    obtain ⟨⟨c2, t⟩, h3, h⟩ := R.bind_eq_ok.1 h
    obtain ⟨⟨ts', s2, c3⟩, h4, h⟩ := R.bind_eq_ok.1 h
    obtain ⟨rfl, h'⟩ := Prod.mk.inj (Except.ok.inj h)
    obtain ⟨rfl, rfl⟩ := Prod.mk.inj h'
    have h5 : c1.finish W (n + 1 : ℕ) m = .ok c2 := by rw [← finishT_same, h3]; rfl
    rw [spyRounds, h1, R.ok_bind]
    simp only [h2, R.ok_bind, note_read (d := d) (by omega) h3, h5, ih (by omega) h4]
    rfl

/-- C122 is false: the search loops of the client stop at the first ciphertext that opens, and the server knows in which order it
sent them.  With undisturbing draws the numbers of ciphertexts tried tell it how the bits of the client's input from `j` upwards
compare to those of the threshold, for all `j` from 15 down to 0. -/
theorem C122_counterexample {W : World} {s : Server} {c : Client} (hP : Parties W.env s c) {x : Msg} {d : Draws}
    (hu : Undisturbed W s c x d) :
    Ends (evaluateT W s c x d) fun r => readOff d r.1 = (List.range 16).reverse.map fun j =>
      some (compare (x.toNat / 2 ^ j) (s.theta.toNat / 2 ^ j)) := by
  obtain ⟨A, hA⟩ := valid_iff.1 hP.ga
  obtain ⟨R0, hR⟩ := valid_iff.1 hP.result
  obtain ⟨s', c', h, -⟩ := evaluate_ok hP hu hA hR
  have hs := C110_counterexample hP (fromRand_of d) hu
  rw [← C122_same] at h
  obtain ⟨r, h1, -⟩ := R.bind_eq_ok.1 h
  refine ⟨r, h1, ?_⟩
  rw [evaluateT] at h1
  simp only at h1
  obtain ⟨s1, e1, h1⟩ := R.bind_eq_ok.1 h1
  obtain ⟨⟨ts, s2, c2⟩, e2, h1⟩ := R.bind_eq_ok.1 h1
  obtain ⟨m, e3, h1⟩ := R.bind_eq_ok.1 h1
  obtain ⟨⟨c3, t⟩, e4, h1⟩ := R.bind_eq_ok.1 h1
  obtain rfl := Except.ok.inj h1
  rw [Client.unmaskResultT] at e4
  obtain ⟨⟨f, t'⟩, e5, e4⟩ := R.bind_eq_ok.1 e4
  obtain ⟨_, -, e4⟩ := R.bind_eq_ok.1 e4
  rcases f with _ | k
  · cases e4
  simp only at e4
  obtain ⟨_, -, e4⟩ := R.bind_eq_ok.1 e4
  obtain ⟨_, -, e4⟩ := R.bind_eq_ok.1 e4
  obtain ⟨_, -, e4⟩ := R.bind_eq_ok.1 e4
  obtain ⟨-, rfl⟩ := Prod.mk.inj (Except.ok.inj e4)
  rw [spy] at hs
  simp only [e1, R.ok_bind, spyRounds_read le_rfl e2, e3, (searchMaskT_which (os := order (randOf d 30) (randOf d 31)) rfl e5).2] at hs
  exact Except.ok.inj hs

/-- What this tells about the input: for two inputs the times tell the same exactly if they agree in every bit above which the
first one agrees with the threshold, that is in the leading bits up to and including the first in which it differs from it. -/
theorem C122_input (x x' theta : Msg) :
    (∀ j < 16, compare (x.toNat / 2 ^ j) (theta.toNat / 2 ^ j) = compare (x'.toNat / 2 ^ j) (theta.toNat / 2 ^ j)) ↔
      ∀ j < 16, (∀ i, j < i → x.toNat.testBit i = theta.toNat.testBit i) → x'.toNat.testBit j = x.toNat.testBit j := by
  rw [← C110_threshold]
  refine forall₂_congr fun j _ => ?_
  rw [← Nat.compare_swap (theta.toNat / 2 ^ j), ← Nat.compare_swap (theta.toNat / 2 ^ j)]
  exact ⟨fun h => by simpa using congrArg Ordering.swap h, fun h => by rw [h]⟩

/-- two inputs below the threshold 1000 are told apart: 700 and 300 -/
example : Ends (evaluateT Sample.W Sample.srv0 (Client.ctor (some 1) Sample.crs) 700#16 Sample.draws) fun r =>
    readOff Sample.draws r.1 = List.replicate 7 (some .eq) ++ List.replicate 9 (some .lt) := by
  obtain ⟨r, h1, h2⟩ := C122_counterexample (x := 700#16) Sample.parties
    (Sample.undisturbed (x := 700#16) (by decide) _ (Sample.a_fine _))
  exact ⟨r, h1, h2.trans (by decide)⟩

/-- the input is one of the 256 whose leading bits are 00000010 -/
example : ¬ ∀ j < 16, compare ((700#16 : Msg).toNat / 2 ^ j) ((1000#16 : Msg).toNat / 2 ^ j) =
    compare ((300#16 : Msg).toNat / 2 ^ j) ((1000#16 : Msg).toNat / 2 ^ j) := by decide

end Opprf
end Verif
