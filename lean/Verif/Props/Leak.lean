import Verif.Lemmas.Leak
import Verif.Props.OpprfClean
import Verif.Props.OpprfSampleI

/-!
# C109: is the memory the AES wrapper and the CRC helpers allocate released?
-/

namespace Verif

open BytesSpec Utils Aes

attribute [local irreducible] Crc.sub64

/-- C109: the functions of `Verif.Model.Leak` return what the functions without heap return, whatever is allocated already. -/
theorem C109_same_partial (pf : Platform) (E : Cipher) (s : Iv) (key n : ℤ) (h : List (List (BitVec 8))) :
    (Crc.appendCRCH pf n h).map Prod.fst = Crc.appendCRC pf n ∧ (Crc.validateCRCH pf n h).map Prod.fst = Crc.validateCRC pf n ∧
    (Crc.removeCRCH n h).map Prod.fst = Crc.removeCRC n ∧ (encryptH E s n key h).map Prod.fst = encrypt E s n key ∧
    (decryptH E s n key h).map Prod.fst = decrypt E s n key ∧
    (encryptCRCH pf E s key n h).map Prod.fst = encryptCRC pf E s key n ∧
    (decryptCRCH pf E s key n h).map Prod.fst = decryptCRC pf E s key n :=
  ⟨(Crc.appendH_tracks pf n).same h, (Crc.validateH_tracks pf n).same h, (Crc.removeH_tracks n).same h,
    (encryptH_tracks E s n key).same h, (decryptH_tracks E s n key).same h, (encryptCRCH_tracks pf E s key n).same h,
    (decryptCRCH_tracks pf E s key n).same h⟩

/-- C109 is false of the CRC helpers: each call on a number other than 0 leaves a block with the bytes of the number. -/
theorem C109_crc_counterexample (pf : Platform) (n : ℤ) (hn : n ≠ 0) :
    ∃ nb, IsBytes |n| nb ∧ ∀ h : List (List (BitVec 8)),
      (∀ m, Crc.appendCRC pf n = .ok m → Crc.appendCRCH pf n h = .ok (m, nb :: h)) ∧
      (∀ v, Crc.validateCRC pf n = .ok v → Crc.validateCRCH pf n h = .ok (v, nb :: h)) ∧
      ∀ m, Crc.removeCRC n = .ok m → Crc.removeCRCH n h = .ok (m, nb :: h) := by
  refine ⟨_, abs_bytes n, fun h => ⟨fun m hm => ?_, fun v hv => ?_, fun m hm => ?_⟩⟩
  · obtain ⟨L, ⟨-, rfl, -⟩, h2⟩ := (Crc.appendH_tracks pf n).ok hm
    exact h2 h
  · obtain ⟨L, ⟨-, rfl⟩, h2⟩ := (Crc.validateH_tracks pf n).ok hv
    exact h2 h
  · obtain ⟨L, rfl, h2⟩ := (Crc.removeH_tracks n).ok hm
    have h0 : getRawMpz n ≠ [] := by
      intro h0
      have h1 := length_getRawMpz n
      rw [h0] at h1
      exact absurd h1 (byteLen_pos n hn).ne
    rw [rawL_of_ne h0] at h2
    exact h2 h

example : Crc.appendCRC pfSlack 1 = .ok 4353911794 ∧ Crc.validateCRC pfSlack 4353911794 = .ok true ∧
    Crc.removeCRC 4353911794 = .ok 1 := by
  refine ⟨by decide +kernel, by decide +kernel, by decide +kernel⟩

/-- C109 is false of `encrypt` and `decrypt`: a call that returns leaves a block with all bytes of the key and, unless the message is
0, a block with those of the message. -/
theorem C109_aes_counterexample (E : Cipher) (s : Iv) (key n : ℤ) :
    ∃ kb nb, IsBytes |key| kb ∧ IsBytes |n| nb ∧ ∀ h : List (List (BitVec 8)),
      (∀ c, encrypt E s n key = .ok c → encryptH E s n key h = .ok (c, kb :: if n = 0 then h else nb :: h)) ∧
      ∀ m, decrypt E s n key = .ok m → decryptH E s n key h = .ok (m, kb :: if n = 0 then h else nb :: h) := by
  have h0 : ∀ h : List (List (BitVec 8)), rawL n ++ h = if n = 0 then h else getRawMpz n :: h := by
    intro h
    by_cases hn : n = 0
    · rw [if_pos hn, hn]
      rfl
    · have h0 : getRawMpz n ≠ [] := by
        intro h0
        have h1 := length_getRawMpz n
        rw [h0] at h1
        exact absurd h1 (byteLen_pos n hn).ne
      rw [if_neg hn, rawL_of_ne h0]
      rfl
  refine ⟨_, _, abs_bytes key, abs_bytes n, fun h => ⟨fun c hc => ?_, fun m hm => ?_⟩⟩
  · obtain ⟨L, ⟨-, rfl⟩, h2⟩ := (encryptH_tracks E s n key).ok hc
    rw [h2, ← h0]
    rfl
  · obtain ⟨L, ⟨-, rfl, -⟩, h2⟩ := (decryptH_tracks E s n key).ok hm
    rw [h2, ← h0]
    rfl

/-- C109 is false of `encryptCRC`: every call that returns leaves three blocks: the bytes of the key, those of the message with its
checksum and those of the message. -/
theorem C109_encryptCRC_counterexample (pf : Platform) (E : Cipher) (s : Iv) (key m c : ℤ) (h : encryptCRC pf E s key m = .ok c) :
    ∃ kb mb t, IsBytes |key| kb ∧ IsBytes |m| mb ∧ mb ≠ [] ∧ t.length = 4 ∧
      ∀ b : List (List (BitVec 8)), encryptCRCH pf E s key m b = .ok (c, kb :: (mb ++ t) :: mb :: b) := by
  obtain ⟨L, ⟨kb, mb, t, h1, h2, -, h3, h4, rfl⟩, h5⟩ := (encryptCRCH_tracks pf E s key m).ok h
  exact ⟨kb, mb, t, h1, h2, h3, h4, h5⟩

/-- C109 is false of `decryptCRC`: every call that returns a value other than 0 leaves four blocks: twice the value with its
checksum, the bytes of the key and those of the ciphertext; every other call that returns leaves the key and at least two more. -/
theorem C109_decryptCRC_counterexample (pf : Platform) (E : Cipher) (s : Iv) (key c v : ℤ) (h : decryptCRC pf E s key c = .ok v) :
    ∃ kb cb mb, IsBytes |key| kb ∧ IsBytes |c| cb ∧ mb ≠ [] ∧ cb ≠ [] ∧
      ((∀ b : List (List (BitVec 8)), decryptCRCH pf E s key c b = .ok (v, mb :: mb :: kb :: cb :: b)) ∧
          (v ≠ 0 → ∃ vb t, IsBytes v vb ∧ mb = vb ++ t) ∨
        v = 0 ∧ ∀ b : List (List (BitVec 8)), decryptCRCH pf E s key c b = .ok (v, mb :: kb :: cb :: b)) := by
  obtain ⟨L, ⟨kb, cb, mb, h1, h2, -, h3, h4, ⟨h6, rfl⟩ | ⟨rfl, vb, t, h6, h7⟩⟩, h5⟩ := (decryptCRCH_tracks pf E s key c).ok h
  · exact ⟨kb, cb, mb, h1, h2, h4, h3, .inr ⟨h6, h5⟩⟩
  · exact ⟨kb, cb, mb, h1, h2, h4, h3, .inl ⟨h5, fun hv => ⟨vb, t, h6 hv, h7⟩⟩⟩

/-- calls that return, one of each kind -/
example : (∃ c, encryptCRC pfSlack tE tiv tkey 0x4142 = .ok c ∧ decryptCRC pfStrict tE tiv tkey c = .ok 0x4142) ∧
    ∃ c, encryptCRC pfSlack tE tiv tkey 0x8042 = .ok c ∧ decryptCRC pfStrict tE tiv tkey c = .ok 0 := by
  refine ⟨⟨212494483255625, by decide +kernel, by decide +kernel⟩, C49_counterexample⟩

namespace Opprf

open Dme Ot

/-- C109: the functions of the protocol return what the functions without heap return, whatever is allocated already. -/
theorem C109_same_opprf_partial (W : World) (s : Server) (c : Client) (h : List (List (BitVec 8))) :
    (∀ k, (s.prepareH W k h).map Prod.fst = s.prepare W k) ∧
    (∀ k, (s.sendEncryptedMasksH W k h).map Prod.fst = s.sendEncryptedMasks W k) ∧
    (∀ r m, (c.finishH W r m h).map Prod.fst = c.finish W r m) ∧
    ∀ m coin, (c.unmaskResultH W m coin h).map Prod.fst = c.unmaskResult W m coin := by
  refine ⟨fun k => (prepareH_tracks W s k).same h, fun k => (masksH_tracks W s k).same h, fun r m => ?_,
    fun m coin => (unmaskH_tracks W c m coin).same h⟩
  by_cases hr : r = 16
  · subst hr
    exact (finishH16_tracks W c m).same h
  · exact (finishH_tracks W c hr m).same h

/-- C109 is false of `prepareKeysAndInputs`: a call that returns, on a new or cleaned server, leaves 270 blocks, among them all
bytes of each of the 48 keys it drew; if all these keys have 16 bytes the blocks have 4680 bytes together. -/
theorem C109_prepare_counterexample {W : World} {s s' : Server} {k : PrepCoins} (hl : s.k_lt = []) (he : s.k_eq = [])
    (hg : s.k_gt = []) (hb : k.bits.length = 16) (h : s.prepare W k = .ok s') :
    ∃ L : List (List (BitVec 8)), (∀ b, s.prepareH W k b = .ok (s', L ++ b)) ∧ L.length = 270 ∧
      (∀ d ∈ k.bits, (∃ b ∈ L, IsBytes |d.lt| b) ∧ (∃ b ∈ L, IsBytes |d.eq| b) ∧ ∃ b ∈ L, IsBytes |d.gt| b) ∧
      ((∀ d ∈ k.bits, byteLen d.lt = 16 ∧ byteLen d.eq = 16 ∧ byteLen d.gt = 16) → (L.map List.length).sum = 4680) := by
  obtain ⟨L, ⟨h1, h2, h3⟩, h4⟩ := (prepareH_tracks W s k).ok h
  rw [hl, he, hg] at h2 h3
  simp only [List.nil_append] at h2 h3
  refine ⟨L, h4, h1, fun d hd => ?_, fun hd => ?_⟩
  · obtain ⟨i, hi, rfl⟩ := List.mem_iff_getElem.1 hd
    obtain ⟨lt, eq, gt, e1, e2, e3, g1, g2, g3⟩ := h2 i (by omega)
    rw [List.getElem?_map, List.getElem?_eq_getElem hi] at e1 e2 e3
    simp only [Option.map_some, Option.some.injEq] at e1 e2 e3
    subst e1
    subst e2
    subst e3
    exact ⟨g1, g2, g3⟩
  · apply h3
    rintro x (hx | hx | hx)
    · obtain ⟨d, h5, rfl⟩ := List.mem_map.1 hx
      exact (hd d h5).1
    · obtain ⟨d, h5, rfl⟩ := List.mem_map.1 hx
      exact (hd d h5).2.1
    · obtain ⟨d, h5, rfl⟩ := List.mem_map.1 hx
      exact (hd d h5).2.2

/-- what a server is asked in one session -/
structure Session where
  prep : PrepCoins
  rounds : List (ℤ × PKey × RoundCoins)
  mask : MaskCoins
  coin : ℤ

/-- the rounds of a session -/
def askRounds (W : World) : List (ℤ × PKey × RoundCoins) → Server → HR Server
  | [], s => pure s
  | (n, pk, k) :: rs, s => do
    let (_, s) ← s.runOTRound W n pk k
    askRounds W rs s

/-- sessions one after the other, each ending with `clean` -/
def serve (W : World) : List Session → Server → HR Server
  | [], s => pure s
  | t :: ts, s => do
    let s ← s.prepareH W t.prep
    let s ← askRounds W t.rounds s
    let _ ← s.sendEncryptedMasksH W t.mask
    let s ← s.cleanH W t.coin
    serve W ts s

theorem askRounds_heap {W : World} : ∀ (rs : List (ℤ × PKey × RoundCoins)) {s s' : Server} {h h' : Blocks},
    askRounds W rs s h = .ok (s', h') → h' = h
  | [], s, s', h, h', e => by
    injection e with e
    injection e with _ e
    exact e.symm
  | (n, pk, k) :: rs, s, s', h, h', e => by
    obtain ⟨⟨m, s1⟩, h1, e1, e2⟩ := hr_bind_ok e
    obtain ⟨-, rfl⟩ := hr_lift_ok e1
    exact askRounds_heap rs e2

/-- C109 is false of the server: sessions one after the other leave 279 blocks each, and `clean` releases none: after the last
session every key of every session is still in a block. -/
theorem C109_sessions_counterexample {W : World} (ts : List Session) {s s' : Server} {b b' : List (List (BitVec 8))} (hl : s.k_lt = [])
    (he : s.k_eq = []) (hg : s.k_gt = []) (hb : ∀ t ∈ ts, t.prep.bits.length = 16) (h : serve W ts s b = .ok (s', b')) :
    b'.length = 279 * ts.length + b.length ∧ (∀ x ∈ b, x ∈ b') ∧
    ∀ t ∈ ts, ∀ d ∈ t.prep.bits, ∀ key : ℤ, key = d.lt ∨ key = d.eq ∨ key = d.gt → ∃ x ∈ b', IsBytes |key| x := by
  induction ts generalizing s b with
  | nil =>
    injection h with h
    injection h with _ h
    subst h
    exact ⟨by simp, fun x hx => hx, fun t ht => by cases ht⟩
  | cons t ts ih =>
    obtain ⟨s1, b1, e1, h⟩ := hr_bind_ok h
    obtain ⟨s2, b2, e2, h⟩ := hr_bind_ok h
    obtain ⟨m, b3, e3, h⟩ := hr_bind_ok h
    obtain ⟨s4, b4, e4, h⟩ := hr_bind_ok h
    have hb1 := askRounds_heap _ e2
    subst hb1
    obtain ⟨-, L3, h3, rfl⟩ := (masksH_tracks W s2 t.mask).inv e3
    obtain ⟨hc, hb4⟩ := hr_lift_ok e4
    subst hb4
    obtain ⟨hp, L, -, hL⟩ := (prepareH_tracks W s t.prep).inv e1
    obtain ⟨L1, g1, g2, g3, -⟩ := C109_prepare_counterexample hl he hg (hb t (by simp)) hp
    rw [g1] at e1
    injection e1 with e1
    injection e1 with _ e1
    have e5 := ih (s := s4) (by
      unfold Server.clean at hc
      obtain ⟨_, -, hc⟩ := R.bind_eq_ok.1 hc
      rw [← Except.ok.inj hc]) (by
      unfold Server.clean at hc
      obtain ⟨_, -, hc⟩ := R.bind_eq_ok.1 hc
      rw [← Except.ok.inj hc]) (by
      unfold Server.clean at hc
      obtain ⟨_, -, hc⟩ := R.bind_eq_ok.1 hc
      rw [← Except.ok.inj hc]) (fun u hu => hb u (by simp [hu])) h
    obtain ⟨i1, i2, i3⟩ := e5
    subst e1
    refine ⟨?_, fun x hx => i2 x (by simp [hx]), fun u hu d hd key hk => ?_⟩
    · rw [i1]
      simp only [List.length_append, List.length_cons, g2, h3]
      omega
    · rcases List.mem_cons.1 hu with rfl | hu
      · obtain ⟨j1, j2, j3⟩ := g3 d hd
        have : ∃ x ∈ L1, IsBytes |key| x := by
          rcases hk with rfl | rfl | rfl
          · exact j1
          · exact j2
          · exact j3
        obtain ⟨x, hx, hx'⟩ := this
        exact ⟨x, i2 x (by simp [hx]), hx'⟩
      · exact i3 u hu d hd key hk

/-- C109 is false of the client: `runOTRound_end` in every round but 16, and `unmaskResult`, leave between 4 and 12 blocks, among
them all bytes of the key the client had before, and, for `runOTRound_end`, a block that starts with the bytes of its new key; `clean`
releases none. -/
theorem C109_client_counterexample {W : World} {c : Client} :
    (∀ (round : ℤ) (m : OtCtxts) (c' : Client), round ≠ 16 → c.finish W round m = .ok c' →
      ∃ L : List (List (BitVec 8)), (∀ b, (do (← c.finishH W round m).cleanH : HR Client) b = .ok (c'.clean, L ++ b)) ∧ 4 ≤ L.length ∧
        L.length ≤ 12 ∧ (∃ b ∈ L, IsBytes |c.key| b) ∧ ∃ b ∈ L, ∃ kb t, IsBytes c'.key kb ∧ b = kb ++ t) ∧
    ∀ (masks : Arr3 ℤ) (coin : ℤ) (c' : Client), c.unmaskResult W masks coin = .ok c' →
      ∃ L : List (List (BitVec 8)), (∀ b, (do (← c.unmaskResultH W masks coin).cleanH : HR Client) b = .ok (c'.clean, L ++ b)) ∧
        4 ≤ L.length ∧ L.length ≤ 12 ∧ ∃ b ∈ L, IsBytes |c.key| b := by
  refine ⟨fun round m c' hr h => ?_, fun masks coin c' h => ?_⟩
  · obtain ⟨L, ⟨h1, h2, h3, b, kb, t, h4, h5, h6⟩, h7⟩ := (finishH_tracks W c hr m).ok h
    refine ⟨L, fun b => ?_, h1, h2, h3, b, h4, kb, t, h5, h6⟩
    rw [hr_bind, h7]
    rfl
  · obtain ⟨L, ⟨h1, h2, h3⟩, h7⟩ := (unmaskH_tracks W c masks coin).ok h
    refine ⟨L, fun b => ?_, h1, h2, h3⟩
    rw [hr_bind, h7]
    rfl

namespace Sample

/-- the hypotheses of `C109_prepare_counterexample` -/
example : srv0.k_lt = [] ∧ srv0.k_eq = [] ∧ srv0.k_gt = [] ∧ draws.prep.bits.length = 16 ∧
    srv0.prepare W draws.prep = .ok srv1 ∧ ∀ d ∈ draws.prep.bits, byteLen d.lt = 16 ∧ byteLen d.eq = 16 ∧ byteLen d.gt = 16 := by
  refine ⟨rfl, rfl, rfl, rfl, prepare_eq, fun d hd => ?_⟩
  obtain ⟨j, -, rfl⟩ := List.mem_map.1 hd
  refine ⟨?_, ?_, ?_⟩
  · show byteLen (kk .lt) = 16
    rw [← length_getRawMpz]
    decide +kernel
  · show byteLen (kk .eq) = 16
    rw [← length_getRawMpz]
    decide +kernel
  · show byteLen (kk .gt) = 16
    rw [← length_getRawMpz]
    decide +kernel

attribute [local irreducible] Tracks in
/-- a session that returns: the hypothesis of `C109_sessions_counterexample` -/
example : ∃ s' b', serve W [⟨draws.prep, [], draws.mask, 3⟩] srv0 [] = .ok (s', b') ∧ b'.length = 279 := by
  obtain ⟨L, h1, -⟩ := C109_prepare_counterexample (s := srv0) rfl rfl rfl (k := draws.prep) rfl prepare_eq
  obtain ⟨m, e, h2, -⟩ := sample_walk.2
  obtain ⟨L2, -, h3⟩ := (masksH_tracks W srv1 draws.mask).ok h2
  have h4 : serve W [⟨draws.prep, [], draws.mask, 3⟩] srv0 [] = .ok (srv2, L2 ++ (L ++ [])) := by
    unfold serve
    rw [hr_bind, h1, R.ok_bind, hr_bind, askRounds, hr_pure, R.ok_bind, hr_bind, h3, R.ok_bind, hr_bind, Server.cleanH, hr_lift,
      clean_eq]
    rfl
  exact ⟨_, _, h4, (C109_sessions_counterexample _ rfl rfl rfl (fun t ht => by
    rw [List.mem_singleton.1 ht]
    rfl) h4).1⟩

/-- the hypotheses of `C109_client_counterexample` -/
example : (∃ c m c', Client.finish W c 10 m = .ok c') ∧ ∃ c masks c', Client.unmaskResult W c masks 4 = .ok c' := by
  constructor
  · obtain ⟨⟨pk, c⟩, -, h⟩ := R.bind_eq_ok.1 a_9
    obtain ⟨⟨m, s⟩, -, h⟩ := R.bind_eq_ok.1 h
    obtain ⟨c', h, -⟩ := R.bind_eq_ok.1 h
    exact ⟨c, m, c', h⟩
  · obtain ⟨r, h, -⟩ := sample_ends.2 (show ¬ CC.order ∣ 4 by decide +kernel)
    obtain ⟨s, -, h⟩ := R.bind_eq_ok.1 h
    obtain ⟨⟨s, c⟩, -, h⟩ := R.bind_eq_ok.1 h
    obtain ⟨m, -, h⟩ := R.bind_eq_ok.1 h
    obtain ⟨c', h, -⟩ := R.bind_eq_ok.1 h
    exact ⟨c, m, c', h⟩

end Sample
end Opprf
end Verif
