import Verif.Props.OpprfFail
import Verif.Props.AesExact

/-!
# C74: OPPRF evaluations in terms of keystream bytes

C52 to C54 and C66 speak of seals that open or are rejected.  Here these are replaced by what they mean for the bytes of keys
and keystreams.
-/

namespace Verif
namespace Opprf

open EC Dme Ot Aes BytesSpec StreamSpec

attribute [local irreducible] Rep

/-- the keystream for a key -/
def World.stream (W : World) (kb : List (BitVec 8)) : ℕ → BitVec 8 := keystream W.E kb W.iv.str W.iv.after

/-- the first byte of `m` is not the first byte of the keystream of `key` -/
def Shows (W : World) (key m : ℤ) : Prop :=
  ∀ kb b mb, IsBytes key kb → IsBytes m (b :: mb) → b ≠ W.stream kb 0

/-- over a message as long as `m` and four more bytes, the keystreams of the two keys differ by something other than a
checksummed string, and not by `m` -/
def Apart (W : World) (key key' m : ℤ) : Prop :=
  ∀ kb kb' mb d t, IsBytes key kb → IsBytes key' kb' → IsBytes m mb → d.length = mb.length →
    difference (W.stream kb) (W.stream kb') (mb.length + 4) = d ++ t → mb ≠ d ∧ t ≠ CrcSpec.tail d

theorem key_bytes {k : ℤ} (h : 2 ^ 120 ≤ k) : ∃ kb, IsBytes k kb ∧ 16 ≤ kb.length := by
  have hb := Utils.exists_bytes k (by linarith [show (0 : ℤ) ≤ 2 ^ 120 by norm_num])
  refine ⟨_, hb, ?_⟩
  rw [Utils.length_getRawMpz]
  by_contra hc
  obtain ⟨n, rfl⟩ := Int.eq_ofNat_of_zero_le (show 0 ≤ k by linarith [show (0 : ℤ) ≤ 2 ^ 120 by norm_num])
  have h2 : byteLen (n : ℤ) ≤ 15 := by omega
  rw [Utils.byteLen_lt_iff] at h2
  have h3 : (2 ^ 120 : ℕ) ≤ n := by exact_mod_cast h
  norm_num at h2 h3
  omega

theorem message_bytes {m : ℤ} (h0 : 0 < m) (h : m < 256 ^ 124) : ∃ b mb, IsBytes m (b :: mb) ∧ (b :: mb).length ≤ 124 := by
  have hb := Utils.exists_bytes m h0.le
  have hl := byteLen_le 124 h0.le h
  rw [← Utils.length_getRawMpz] at hl
  cases e : Utils.getRawMpz m with
  | nil =>
    rw [e] at hb
    have := hb.value
    simp [val] at this
    omega
  | cons b mb =>
    rw [e] at hb hl
    exact ⟨b, mb, hb, hl⟩

/-- **C74**: on a machine with four spare bytes per heap block and with a readable IV, what is sealed under a key of 16 bytes
opens if and only if its first byte is not the first keystream byte. -/
theorem C74_opens_iff {W : World} (hiv : IvReadable W.iv) (hs : ∀ n, n + 4 ≤ W.pf.usable n) {key m : ℤ} (hk : 2 ^ 120 ≤ key)
    (h0 : 0 < m) (hm : m < 256 ^ 124) : Opens W key m ↔ Shows W key m := by
  obtain ⟨kb, k1, k2⟩ := key_bytes hk
  obtain ⟨b, mb, m1, m2⟩ := message_bytes h0 hm
  obtain ⟨c, c1, c2⟩ := C49_round_trip_partial W.pf W.pf W.E W.iv key m kb mb b k1 k2 m1 m2 hiv (hs _)
  have : Opens W key m ↔ decryptCRC W.pf W.E W.iv key c = .ok m := by
    constructor
    · rintro ⟨c', h1, h2⟩
      rw [World.seal, c1] at h1
      obtain rfl := Except.ok.inj h1
      exact h2
    · intro h
      exact ⟨c, c1, h⟩
  rw [this, c2]
  constructor
  · intro h kb' b' mb' k1' m1'
    rw [← Utils.IsBytes.raw k1', Utils.IsBytes.raw k1]
    have e := (Utils.IsBytes.raw m1').symm.trans (Utils.IsBytes.raw m1)
    rw [(List.cons.inj e).1]
    exact h
  · intro h
    exact h kb b mb k1 m1

/-- **C74**: what is sealed under one key is rejected with another if keystreams and message are as in `Apart`. -/
theorem C74_rejects {W : World} (hiv : IvReadable W.iv) (hs : ∀ n, n + 4 ≤ W.pf.usable n) {key key' m : ℤ}
    (hk : 2 ^ 120 ≤ key) (hk' : 2 ^ 120 ≤ key') (h0 : 0 < m) (hm : m < 256 ^ 124) (h1 : Shows W key' m)
    (h2 : Apart W key key' m) : Rejects W key key' m := by
  obtain ⟨kb, k1, k2⟩ := key_bytes hk
  obtain ⟨kb', k1', k2'⟩ := key_bytes hk'
  obtain ⟨b, mb, m1, m2⟩ := message_bytes h0 hm
  set D := difference (W.stream kb) (W.stream kb') ((b :: mb).length + 4) with hD
  have hDl : D.length = (b :: mb).length + 4 := by rw [hD, difference, List.length_map, List.length_range]
  have hd : (D.take (b :: mb).length).length = (b :: mb).length := by rw [List.length_take, hDl]; omega
  obtain ⟨a1, a2⟩ := h2 kb kb' (b :: mb) _ (D.drop (b :: mb).length) k1 k1' m1 hd (List.take_append_drop _ _).symm
  obtain ⟨c, c1, c2, -⟩ := C73_wrong_key_partial W.pf W.pf W.E W.iv key key' m kb kb' mb b k1 k2 k1' k2' m1 m2 hiv (hs _)
    (h1 kb' b mb k1' m1) (D.take (b :: mb).length) (D.drop (b :: mb).length) hd (List.take_append_drop _ _).symm
  exact ⟨c, c1, by rw [World.unseal, c2 a1, if_neg a2]⟩

/-- **C74**, exactly: if the message's first byte is not the first keystream byte, and the keystreams do not differ by the message,
another key rejects the seal if and only if the four bytes in which the keystreams differ over the checksum are not the checksum of
the bytes in which they differ over the message.  Whether a wrong key is noticed does not depend on the message. -/
theorem C74_rejects_iff {W : World} (hiv : IvReadable W.iv) (hs : ∀ n, n + 4 ≤ W.pf.usable n) {key key' m : ℤ}
    (hk : 2 ^ 120 ≤ key) (hk' : 2 ^ 120 ≤ key') (h0 : 0 < m) (hm : m < 256 ^ 124) (h1 : Shows W key' m) {kb kb' mb d t : List (BitVec 8)}
    (k1 : IsBytes key kb) (k1' : IsBytes key' kb') (m1 : IsBytes m mb) (hd : d.length = mb.length)
    (hdt : difference (W.stream kb) (W.stream kb') (mb.length + 4) = d ++ t) (hne : mb ≠ d) :
    Rejects W key key' m ↔ t ≠ CrcSpec.tail d := by
  obtain ⟨kc, k3, k2⟩ := key_bytes hk
  obtain ⟨kc', k3', k2'⟩ := key_bytes hk'
  obtain ⟨b, mc, m3, m2⟩ := message_bytes h0 hm
  obtain rfl := (Utils.IsBytes.raw k1).symm.trans (Utils.IsBytes.raw k3)
  obtain rfl := (Utils.IsBytes.raw k1').symm.trans (Utils.IsBytes.raw k3')
  obtain rfl := (Utils.IsBytes.raw m1).symm.trans (Utils.IsBytes.raw m3)
  obtain ⟨c, c1, c2, -⟩ := C73_wrong_key_partial W.pf W.pf W.E W.iv key key' m kb kb' mc b k1 k2 k1' k2' m1 m2 hiv (hs _)
    (h1 kb' b mc k1' m1) _ _ hd hdt
  constructor
  · rintro ⟨c', h3, h4⟩ rfl
    rw [World.seal, c1] at h3
    obtain rfl := Except.ok.inj h3
    rw [World.unseal, c2 hne, if_pos rfl] at h4
    have hpos := val_xorB_pos _ _ hd.symm hne
    have : ((val (Utils.xorB (b :: mc) d) : ℕ) : ℤ) = 0 := Except.ok.inj h4
    omega
  · intro ht
    exact ⟨c, c1, by rw [World.unseal, c2 hne, if_neg ht]⟩

theorem encodingOf_range {W : World} {curve : Option Addr} (hc : LiveGen W.env curve) {z e : ℤ} (hz : ¬ CC.order ∣ z)
    (h : EncodingOf W curve z e) : 0 ≤ e ∧ e < 256 ^ 124 := by
  obtain ⟨P, h1, h2⟩ := randomPoint_rep (C := CC) hc z
  obtain ⟨e', h3, h4, h5, -⟩ := encoding_rep (fun h => hz (smulG_eq_zero_iff.1 h)) h2
  have := (encodingOf_iff hc hz h2 e).1 h
  rw [h3] at this
  obtain rfl := Except.ok.inj this
  have hp : 2 * CC.prime < 256 ^ 124 := by decide +kernel
  exact ⟨h4, by omega⟩

/-- the 15 keys and the mask meant for a client with input `x` do not start with the first keystream byte of the keys they are
sealed with -/
def AllShow (W : World) (s : Server) (x : Msg) (d : Draws) : Prop :=
  (∀ j < 15, Shows W (d.key (sym x s.theta (j + 1)) (j + 1)) (d.key (sym x s.theta j) j)) ∧
  ∀ e, EncodingOf W s.curve (if s.theta.toNat < x.toNat then d.mask.rnd else d.mask') e →
    Shows W (d.key (compare x.toNat s.theta.toNat) 0) e

theorem gt_iff (x theta : Msg) : (compare x.toNat theta.toNat = .gt) = (theta.toNat < x.toNat) := by
  rw [eq_iff_iff, Nat.compare_eq_gt]

theorem key_lt {k : ℤ} (h : k < 2 ^ 128) : k < 256 ^ 124 := h.trans (by norm_num)

theorem key_pos {k : ℤ} (h : 2 ^ 120 ≤ k) : 0 < k := lt_of_lt_of_le (by norm_num) h

/-- **C74** (part): if the draws do not mislead the client, an evaluation completes exactly when none of the 15 keys on its path
and not the mask starts with the first keystream byte of the key it is sealed with.
Missing: misleading draws (see `NotMisled`). -/
theorem C74_completes_iff_partial {W : World} {s : Server} {c : Client} (hP : Parties W.env s c) {x : Msg} {d : Draws}
    (hu : NotMisled W s c x d) : Ends (evaluate W s c x d) (fun _ => True) ↔ AllShow W s x d := by
  rw [(C66_completes_iff_partial hP hu).1]
  refine and_congr (forall₂_congr fun j hj => ?_) (forall_congr' fun e => ?_)
  · have h1 := hu.full (sym x s.theta (j + 1)) (j + 1) (by omega)
    have h2 := hu.full (sym x s.theta j) j (by omega)
    exact C74_opens_iff hu.iv hu.slack h1.1 (key_pos h2.1) (key_lt h2.2)
  · rw [if_congr (iff_of_eq (gt_iff x s.theta)) rfl rfl]
    refine forall_congr' fun he => ?_
    have hm := hu.mask
    have hn : e ≠ 0 := by
      rintro rfl
      refine hm.nonzero ?_
      rw [if_congr (iff_of_eq (gt_iff x s.theta)) rfl rfl]
      exact he
    have hr := encodingOf_range hP.server (by split_ifs; exacts [hm.finite', hm.finite]) he
    exact C74_opens_iff hu.iv hu.slack (hu.full _ 0 (by norm_num)).1 (by omega) hr.2

/-- Draws with which the evaluation of `x` goes well, in terms of bytes: 16 bits' keys of 16 bytes; everything that is sent has an
encoding (C30) and involves no infinity; no sealed key or mask starts with the first keystream byte; and the keystreams of the
key the client holds and of the keys of the other outcomes are apart. -/
structure Plain (W : World) (s : Server) (c : Client) (x : Msg) (d : Draws) : Prop where
  slack : ∀ n, n + 4 ≤ W.pf.usable n
  iv : IvReadable W.iv
  bits : d.prep.bits.length = 16
  full : ∀ sy, ∀ j < 16, 2 ^ 120 ≤ d.key sy j ∧ d.key sy j < 2 ^ 128
  top : Encodable (d.key (sym x s.theta 15) 15)
  enc : ∀ j < 15, ∀ sy e, W.seal (d.key sy (j + 1)) (d.key (next x s.theta j sy) j) = .ok e → Encodable e
  shows : ∀ j < 15, ∀ sy, Shows W (d.key sy (j + 1)) (d.key (next x s.theta j sy) j)
  apart : ∀ j < 15, ∀ sy ≠ sym x s.theta (j + 1),
    Apart W (d.key (sym x s.theta (j + 1)) (j + 1)) (d.key sy (j + 1)) (d.key (next x s.theta j sy) j)
  fine : ∀ s', s.prepare W d.prep = .ok s' → FineRounds W d.rounds x 16 s' (c.setMessage x)
  finite : ¬ CC.order ∣ d.mask'
  finite' : ¬ CC.order ∣ d.mask.rnd
  un : ¬ CC.order ∣ d.un
  maskShows : ∀ sy e, EncodingOf W s.curve (if sy = .gt then d.mask.rnd else d.mask') e → e ≠ 0 ∧ Shows W (d.key sy 0) e
  maskApart : ∀ sy ≠ compare x.toNat s.theta.toNat, ∀ e, EncodingOf W s.curve (if sy = .gt then d.mask.rnd else d.mask') e →
    Apart W (d.key (compare x.toNat s.theta.toNat) 0) (d.key sy 0) e

theorem opensOrRejects_of_opens {W : World} {key m : ℤ} (h : Opens W key m) : OpensOrRejects W key m := by
  obtain ⟨c, h1, h2⟩ := h
  intro c' h3
  rw [h1] at h3
  obtain rfl := Except.ok.inj h3
  exact .inl h2

theorem Plain.undisturbed {W : World} {s : Server} {c : Client} (hc : LiveGen W.env s.curve) {x : Msg} {d : Draws}
    (h : Plain W s c x d) : Undisturbed W s c x d := by
  have hopen : ∀ j < 15, Opens W (d.key (sym x s.theta (j + 1)) (j + 1)) (d.key (sym x s.theta j) j) := by
    intro j hj
    have h1 := h.full (sym x s.theta (j + 1)) (j + 1) (by omega)
    have h2 := h.full (sym x s.theta j) j (by omega)
    refine (C74_opens_iff h.iv h.slack h1.1 (key_pos h2.1) (key_lt h2.2)).2 ?_
    have := h.shows j hj (sym x s.theta (j + 1))
    rwa [next_sym] at this
  have hrange : ∀ (sy : Ordering) (e : ℤ), EncodingOf W s.curve (if sy = .gt then d.mask.rnd else d.mask') e →
      0 < e ∧ e < 256 ^ 124 := by
    intro sy e he
    have hr := encodingOf_range hc (by split_ifs; exacts [h.finite', h.finite]) he
    have := (h.maskShows sy e he).1
    exact ⟨by omega, hr.2⟩
  have hmask : MaskOpens W s.curve (fun sy => d.key sy 0) (compare x.toNat s.theta.toNat) d.mask' d.mask.rnd := by
    intro e he
    obtain ⟨h1, h2⟩ := hrange _ e he
    exact (C74_opens_iff h.iv h.slack (h.full _ 0 (by norm_num)).1 h1 h2).2 (h.maskShows _ e he).2
  refine ⟨⟨h.slack, h.iv, h.bits, h.full, ⟨h.top, h.enc, fun j hj => opensOrRejects_of_opens (hopen j hj), ?_⟩, h.fine,
    ⟨h.finite, h.finite', fun he => (h.maskShows _ 0 he).1 rfl, fun e he => opensOrRejects_of_opens (hmask e he), ?_⟩, h.un⟩,
    hopen, hmask⟩
  · intro j hj sy hsy
    have h1 := h.full (sym x s.theta (j + 1)) (j + 1) (by omega)
    have h2 := h.full sy (j + 1) (by omega)
    have h3 := h.full (next x s.theta j sy) j (by omega)
    exact C74_rejects h.iv h.slack h1.1 h2.1 (key_pos h3.1) (key_lt h3.2) (h.shows j hj sy) (h.apart j hj sy hsy)
  · intro sy hsy e he
    obtain ⟨h1, h2⟩ := hrange _ e he
    exact C74_rejects h.iv h.slack (h.full _ 0 (by norm_num)).1 (h.full _ 0 (by norm_num)).1 h1 h2 (h.maskShows _ e he).2
      (h.maskApart sy hsy e he)

/-- **C74** (part): with draws that are plain as bytes an evaluation with a fresh or cleaned client completes; the client ends with
`kopprf + ga * x` for an input at most the threshold, with `R + ga * x + r * sum(ok)` above it.
Missing: draws that are not plain. -/
theorem C74_right_partial {W : World} {s : Server} {c : Client} (hP : Parties W.env s c) (hc : c.result = Pt.infty CC)
    {x : Msg} {d : Draws} (h : Plain W s c x d) :
    Ends (evaluate W s c x d) fun r =>
      (x.toNat ≤ s.theta.toNat → EqP W.env CC (.ok r.2.result)
        (do let t ← s.ga.smulZ W.env CC x.toNat; r.1.kopprf.add W.env CC t)) ∧
      (s.theta.toNat < x.toNat → EqP W.env CC (.ok r.2.result)
        (aboveResult W s.curve d.mask.rnd s.ga x r.1.r d.okSum)) := by
  have hu := h.undisturbed hP.server
  obtain ⟨⟨s', c'⟩, h1, -⟩ := C52_walk_partial hP hu
  exact ⟨_, h1, C66_right_if_completes_partial hP hc hu.1 h1⟩

end Opprf
end Verif
