import Verif.Model.Tests
import Verif.Props.AesExact
import Verif.Props.Puda
import Verif.Props.Shamir

/-!
# C77, C78: `test_crc`, `test_aes`, `test_shamirss` and `test_puda`
-/

namespace Verif
namespace Tests

open BytesSpec Utils

/-! ## C77 -/

/-- C77: for the integers `getRandom(1024)` can return, `test_crc` exits with status 0 exactly when the integer is not zero and
the allocator gave four bytes more than asked for. -/
theorem C77_crc (pf : Platform) (a : ℤ) (h0 : 0 ≤ a) (h1 : a < 2 ^ 1024) :
    testCrc pf a = .ok 0 ↔ a ≠ 0 ∧ byteLen a + 4 ≤ pf.usable (byteLen a) := by
  constructor
  · intro h
    obtain ⟨n, h2, -⟩ := R.bind_eq_ok.1 h
    exact (C44_append_partial pf a).1 ⟨n, h2, trivial⟩
  · rintro ⟨ha, hs⟩
    have hb : byteLen a ≤ 128 := by
      have h3 : a.natAbs.size ≤ 1024 := Nat.size_le.2 (by omega)
      unfold byteLen
      omega
    obtain ⟨n, e1, e2, e3⟩ := C43_round_trip_partial pf pf a (by omega) (by omega) hs
    simp [testCrc, e1, e2, e3]

/-- C77: for every other integer `test_crc` has undefined behaviour: it writes through a null pointer or behind a heap block.
It never exits with status -1. -/
theorem C77_crc_faults (pf : Platform) (a : ℤ) (h0 : 0 ≤ a) (h1 : a < 2 ^ 1024) :
    (a = 0 → testCrc pf a = .error .nullDeref) ∧
    (a ≠ 0 → ¬ byteLen a + 4 ≤ pf.usable (byteLen a) → testCrc pf a = .error .heapOverflow) ∧
    testCrc pf a ≠ .ok (-1) := by
  have e0 : a = 0 → testCrc pf a = .error .nullDeref := by
    rintro rfl
    unfold testCrc
    rw [appendCRC_eq, if_pos (by decide)]
    rfl
  have e1 : a ≠ 0 → ¬ byteLen a + 4 ≤ pf.usable (byteLen a) → testCrc pf a = .error .heapOverflow := by
    intro ha hs
    unfold testCrc
    rw [appendCRC_eq, if_neg (byteLen_pos a ha).ne', if_pos (by omega)]
    rfl
  refine ⟨e0, e1, ?_⟩
  by_cases ha : a = 0
  · rw [e0 ha]; simp
  · by_cases hs : byteLen a + 4 ≤ pf.usable (byteLen a)
    · rw [(C77_crc pf a h0 h1).2 ⟨ha, hs⟩]; simp
    · rw [e1 ha hs]; simp

example : (0 : ℤ) ≤ 0x4142 ∧ (0x4142 : ℤ) < 2 ^ 1024 ∧ (0x4142 : ℤ) ≠ 0 ∧ byteLen 0x4142 + 4 ≤ pfSlack.usable (byteLen 0x4142) ∧
    ¬ byteLen 0x4142 + 4 ≤ pfStrict.usable (byteLen 0x4142) := by decide +kernel

/-- C77: for the plaintext `getRandom(128)` can return and every key, `test_aes` exits with status 0 exactly when the plaintext is
not zero and does not start with the first byte of the keystream, the key has 16 significant bytes, 15 bytes can be read
behind the terminator of the empty IV, and the allocator gave four bytes more than asked for. -/
theorem C77_aes (pf : Platform) (E : Aes.Cipher) (after : List (BitVec 8)) (key m : ℤ) (h1 : m < 2 ^ 128)
    {kb mb : List (BitVec 8)} (hk : IsBytes key kb) (hm : IsBytes m mb) :
    testAes pf E after key m = .ok 0 ↔
      (∃ b rest, mb = b :: rest ∧ b ≠ E (kb.take 16) ((0#8 :: after).take 16) 0) ∧ 16 ≤ kb.length ∧ 15 ≤ after.length ∧
        mb.length + 4 ≤ pf.usable mb.length := by
  have h0 := IsBytes.nonneg hm
  have hl := IsBytes.byteLen hm
  have hiv : IvReadable (Aes.ivStart after) ↔ 15 ≤ after.length := by simp [IvReadable, Aes.ivStart]
  have hb : mb.length ≤ 16 := by
    have h3 : m.natAbs.size ≤ 128 := Nat.size_le.2 (by omega)
    rw [← hl]
    unfold byteLen
    omega
  have key1 : ∀ b rest, mb = b :: rest → 16 ≤ kb.length → 15 ≤ after.length → mb.length + 4 ≤ pf.usable mb.length →
      (testAes pf E after key m = .ok 0 ↔ b ≠ E (kb.take 16) ((0#8 :: after).take 16) 0) := by
    rintro b rest rfl h2 h3 h4
    obtain ⟨c, c1, c2⟩ := C49_round_trip_partial pf pf E (Aes.ivStart after) key m kb rest b hk h2 hm (by omega) (hiv.2 h3) h4
    have c3 : firstKeystreamByte E (Aes.ivStart after) kb = E (kb.take 16) ((0#8 :: after).take 16) 0 := rfl
    rw [c3] at c2
    rw [← c2]
    unfold testAes
    simp only [Aes.init0, c1, R.ok_bind]
    constructor
    · intro h
      obtain ⟨v, e1, e2⟩ := R.bind_eq_ok.1 h
      split_ifs at e2 with e3
      · rw [e1, e3]
      · simp at e2
    · intro h
      simp [h]
  constructor
  · intro h
    obtain ⟨c, e1, -⟩ := R.bind_eq_ok.1 h
    obtain ⟨M, e2, e3⟩ := R.bind_eq_ok.1 e1
    obtain ⟨hm0, hs⟩ := (C44_append_partial pf m).1 ⟨M, e2, trivial⟩
    obtain ⟨k, e4, e5⟩ := R.bind_eq_ok.1 e3
    obtain ⟨iv, e6, -⟩ := R.bind_eq_ok.1 e5
    have h2 : 16 ≤ kb.length := by
      unfold Aes.keyBytes at e4
      simp only [IsBytes.raw hk] at e4
      split_ifs at e4 with i1 i2
      omega
    have h3 : 15 ≤ after.length := by
      by_contra hc
      unfold Aes.ivBytes at e6
      simp only at e6
      rw [if_neg (by simp only [Aes.init0, Aes.ivStart, List.nil_append, List.length_cons]; omega)] at e6
      cases e6
    rw [hl] at hs
    cases mb with
    | nil => exact absurd (hm.value.symm.trans rfl) hm0
    | cons b rest => exact ⟨⟨b, rest, rfl, (key1 b rest rfl h2 h3 hs).1 h⟩, h2, h3, hs⟩
  · rintro ⟨⟨b, rest, e, hne⟩, h2, h3, h4⟩
    exact (key1 b rest e h2 h3 h4).2 hne

example : (0x4142 : ℤ) < 2 ^ 128 ∧ IsBytes tkey tkb ∧ IsBytes 0x4142 [0x41#8, 0x42#8] ∧ 16 ≤ tkb.length ∧
    15 ≤ (List.replicate 15 0#8).length ∧ [0x41#8, 0x42#8].length + 4 ≤ pfSlack.usable [0x41#8, 0x42#8].length ∧
    0x41#8 ≠ tE (tkb.take 16) ((0#8 :: List.replicate 15 0#8).take 16) 0 :=
  ⟨by decide, tkey_bytes, ⟨by decide, by decide⟩, by decide, by decide, by decide, by decide +kernel⟩

/-- The failing branch exists: with the keystream of the samples a plaintext that starts with its first byte is lost. -/
example : testAes pfSlack tE (List.replicate 15 0#8) tkey 0x8042 = .ok (-1) := by decide +kernel

/-! ## C78 -/

/-- C78: `test_shamirss` exits with status 0 unless one of the first six values `rand()` returns is `INT_MAX`; then it has
undefined behaviour. -/
theorem C78_shamir (env : Env) (rand : ℕ → ℤ) (hr : ∀ i, 0 ≤ rand i ∧ rand i ≤ 2 ^ 31 - 1) :
    ((∃ i < 6, rand i = 2 ^ 31 - 1) → testShamir env rand = .error .signedOverflow) ∧
    ((∀ i < 6, rand i ≠ 2 ^ 31 - 1) → testShamir env rand = .ok 0) := by
  refine ⟨fun h => ?_, fun h => ?_⟩
  · unfold testShamir
    simp only [Shamir.C23_int_max env (t := 7) (n := 10) (by decide) (by decide) _ rand h]
    rfl
  · have h6 : ∀ i < 6, rand i < 2 ^ 31 - 1 := by
      intro i hi
      have := (hr i).2
      have h' := h i hi
      omega
    set rand' : ℕ → ℤ := fun i => if i < 6 then rand i else 0 with hrand
    have hg : Shamir.GoodRand rand' := by
      intro i
      simp only [hrand]
      split_ifs with hi
      · exact ⟨(hr i).1, h6 i hi⟩
      · norm_num
    have he : IsElem secpN (Fld.mk' secpN 11) := by
      constructor <;> decide +kernel
    have heq : Shamir.getShares env 7 10 (Fld.mk' secpN 11) rand = Shamir.getShares env 7 10 (Fld.mk' secpN 11) rand' := by
      have : (List.range 6).map rand = (List.range 6).map rand' :=
        List.map_congr_left fun i hi => by simp [hrand, List.mem_range.1 hi]
      unfold Shamir.getShares
      simp only [show (7 + (2 ^ 64 - 1)) % 2 ^ 64 = 6 by norm_num, this]
    obtain ⟨sh, e1, e2, e3⟩ := Shamir.C20_reconstruct env (t := 7) (n := 10) (by decide) (by decide) (by decide) he hg
    obtain ⟨sh', e1', e4, -⟩ := Shamir.C20_indices env (t := 7) (n := 10) (by decide) (by decide) (by decide) he hg
    rw [e1] at e1'
    obtain rfl := Except.ok.inj e1'
    unfold testShamir
    simp only [heq, e1, R.ok_bind, e3 sh e4 (fun _ h => h) (by omega)]
    rfl

example : ∀ i : ℕ, 0 ≤ (fun i : ℕ => ((i * 1103515245 + 12345) % 2 ^ 31 : ℕ) : ℕ → ℤ) i ∧
    (fun i : ℕ => ((i * 1103515245 + 12345) % 2 ^ 31 : ℕ) : ℕ → ℤ) i ≤ 2 ^ 31 - 1 := by
  intro i
  simp only
  omega

open Puda in
theorem pudaLoop_ok {env : Env} {pp : Param} {ks : Keys} {m : Msg} {t : ℤ} (n k : ℕ) (cs ts : List Pt)
    (he : k + n ≤ ks.ekv.length) (hs : k + n ≤ ks.skv.length) {cs' ts' : List Pt}
    (h1 : encAll env pp t (((ks.ekv.drop k).take n).map fun e => (e, m)) = .ok cs')
    (h2 : tagAll env pp t (((ks.skv.drop k).take n).map fun e => (e, m)) = .ok ts') :
    pudaLoop env pp ks m t n k cs ts = .ok (cs ++ cs', ts ++ ts') := by
  induction n generalizing k cs ts cs' ts' with
  | zero =>
    obtain rfl := Except.ok.inj (show (.ok [] : R (List Pt)) = .ok cs' from h1)
    obtain rfl := Except.ok.inj (show (.ok [] : R (List Pt)) = .ok ts' from h2)
    simp [pudaLoop]
  | succ n ih =>
    have he' : k < ks.ekv.length := by omega
    have hs' : k < ks.skv.length := by omega
    rw [List.drop_eq_getElem_cons he', List.take_succ_cons, List.map_cons, encAll] at h1
    rw [List.drop_eq_getElem_cons hs', List.take_succ_cons, List.map_cons, tagAll] at h2
    obtain ⟨c, a1, h1⟩ := R.bind_eq_ok.1 h1
    obtain ⟨cs1, a2, h1⟩ := R.bind_eq_ok.1 h1
    obtain ⟨t1, b1, h2⟩ := R.bind_eq_ok.1 h2
    obtain ⟨ts1, b2, h2⟩ := R.bind_eq_ok.1 h2
    obtain rfl := Except.ok.inj h1
    obtain rfl := Except.ok.inj h2
    have e1 : Opprf.at' ks.ekv k = .ok ks.ekv[k] := by simp [Opprf.at', he']
    have e2 : Opprf.at' ks.skv k = .ok ks.skv[k] := by simp [Opprf.at', hs']
    rw [pudaLoop]
    simp only [e1, e2, R.ok_bind, a1, b1]
    rw [ih (k + 1) (cs ++ [c]) (ts ++ [t1]) (by omega) (by omega) a2 b2]
    simp

open Puda EC in
/-- C78: `test_puda` exits with status 0, for all draws. -/
theorem C78_puda (env : Env) {c1 c2 : Option Addr} (hl1 : LiveGen env c1) (hl2 : LiveGen env c2) (k : Coins)
    (hk : k.users.length = 10) : testPuda env c1 c2 k = .ok 0 := by
  obtain ⟨pp, v1, v2, e1, r, -, -⟩ := setup_rep (pp := ctor c1 c2) hl1 hl2 k
  have hlen : k.users.length = (List.replicate 10 (2 : Msg)).length := by simp [hk]
  obtain ⟨cs, As, a1, a2, a3⟩ := encAll_rep r 99 k.users (List.replicate 10 (2 : Msg)) hlen
  obtain ⟨ts, Ts, b1, b2, -⟩ := tagAll_rep r (((k.a : F)).val : ℤ) 99 k.users (List.replicate 10 (2 : Msg)) hlen
  have hz : ∀ {α : Type} (l : List α), l.length = 10 → l.zip (List.replicate 10 (2 : Msg)) = l.map fun e => (e, 2) := by
    intro α l hl
    apply List.ext_getElem
    · simp [hl]
    · intro i h1 h2
      rw [List.getElem_zip, List.getElem_replicate, List.getElem_map]
  rw [hz _ (by simp [hk])] at a1 b1
  have ht : total (List.replicate 10 (2 : Msg)) = 20 := by decide
  rw [ht] at a3
  have hp : pudaLoop env pp ⟨k.users.map (fun u : ℤ × ℤ => Fld.ofZ (u.1 : F)),
        k.users.map (fun u : ℤ × ℤ => ⟨(((k.a : F)).val : ℤ), Fld.ofZ (u.2 : F)⟩),
        Fld.ofZ (-(k.users.map fun u : ℤ × ℤ => (u.1 : F)).sum), ⟨v1, v2⟩⟩ 2 99 10 0 [] [] = .ok (cs, ts) := by
    have := pudaLoop_ok (env := env) (pp := pp) (ks := ⟨k.users.map (fun u : ℤ × ℤ => Fld.ofZ (u.1 : F)),
        k.users.map (fun u : ℤ × ℤ => ⟨(((k.a : F)).val : ℤ), Fld.ofZ (u.2 : F)⟩),
        Fld.ofZ (-(k.users.map fun u : ℤ × ℤ => (u.1 : F)).sum), ⟨v1, v2⟩⟩) (m := 2) (t := 99) 10 0 [] []
      (by simp [hk]) (by simp [hk]) (cs' := cs) (ts' := ts)
      (by rw [List.drop_zero, List.take_of_length_le (by simp [hk])]; exact a1)
      (by rw [List.drop_zero, List.take_of_length_le (by simp [hk])]; exact b1)
    simpa using this
  obtain ⟨tg, g1, -⟩ := agg_rep r (-(k.users.map fun u : ℤ × ℤ => (u.1 : F)).sum) a2 b2 99 (x := ((20 : ℕ) : F)) (by
    rw [a3]
    generalize (k.users.map fun u : ℤ × ℤ => (u.1 : F)).sum = S
    module)
  have hv : (((20 : ℕ) : F)).val = 20 := ZMod.val_cast_of_lt (by decide)
  rw [hv] at g1
  unfold testPuda
  simp only [e1, R.ok_bind, hp, g1]
  rfl

example : LiveGen env0 (some 0) ∧ (⟨3, 4, List.replicate 10 (5, 6)⟩ : Puda.Coins).users.length = 10 :=
  ⟨env0_liveGen, by decide⟩

end Tests
end Verif
