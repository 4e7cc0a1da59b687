import Verif.Model.Leak
import Verif.Props.AesTotal
import Verif.Lemmas.Opprf

/-!
# Following the blocks allocated by `getRawMpz`
-/

namespace Verif

open BytesSpec Utils

/-- `f` does what `g` does and adds blocks `L` with `P a L` to the heap when it returns `a` -/
def Tracks {α : Type} (f : HR α) (g : R α) (P : α → Blocks → Prop) : Prop :=
  match g with
  | .ok a => ∃ L, P a L ∧ ∀ h, f h = .ok (a, L ++ h)
  | .error e => ∀ h, f h = .error e

theorem hr_bind {α β : Type} (f : HR α) (k : α → HR β) (h : Blocks) :
    (f >>= k) h = ((f h : R (α × Blocks)) >>= fun x => k x.1 x.2) := rfl

theorem hr_lift {α : Type} (g : R α) (h : Blocks) : (liftM g : HR α) h = (g >>= fun a => .ok (a, h)) := rfl

theorem hr_pure {α : Type} (a : α) (h : Blocks) : (pure a : HR α) h = .ok (a, h) := rfl

theorem hr_bind_ok {α β : Type} {f : HR α} {k : α → HR β} {h h' : Blocks} {b : β} (H : (f >>= k) h = .ok (b, h')) :
    ∃ a h1, f h = .ok (a, h1) ∧ k a h1 = .ok (b, h') := by
  rw [hr_bind] at H
  obtain ⟨⟨a, h1⟩, e1, e2⟩ := R.bind_eq_ok.1 H
  exact ⟨a, h1, e1, e2⟩

theorem hr_lift_ok {α : Type} {g : R α} {h h' : Blocks} {a : α} (H : (liftM g : HR α) h = .ok (a, h')) : g = .ok a ∧ h' = h := by
  rw [hr_lift] at H
  obtain ⟨b, e1, e2⟩ := R.bind_eq_ok.1 H
  injection e2 with e2
  injection e2 with e3 e4
  rw [← e3, ← e4]
  exact ⟨e1, rfl⟩

namespace Tracks

variable {α β : Type}

theorem mono {f : HR α} {g : R α} {P Q : α → Blocks → Prop} (h : Tracks f g P) (hPQ : ∀ a L, g = .ok a → P a L → Q a L) :
    Tracks f g Q := by
  unfold Tracks at *
  cases g with
  | error e => exact h
  | ok a =>
    obtain ⟨L, h1, h2⟩ := h
    exact ⟨L, hPQ a L rfl h1, h2⟩

theorem ret {a : α} {Q : α → Blocks → Prop} (h : Q a []) : Tracks (pure a : HR α) (.ok a) Q := ⟨[], h, fun _ => rfl⟩

theorem raise {e : Fault} {Q : α → Blocks → Prop} : Tracks (throw e : HR α) (.error e) Q := fun _ => rfl

theorem bind {f : HR α} {g : R α} {P : α → Blocks → Prop} {k : α → HR β} {k' : α → R β} {Q : β → Blocks → Prop}
    (h : Tracks f g P) (hk : ∀ a L, g = .ok a → P a L → Tracks (k a) (k' a) fun b L' => Q b (L' ++ L)) :
    Tracks (f >>= k) (g >>= k') Q := by
  unfold Tracks at h
  cases g with
  | error e =>
    intro s
    rw [hr_bind, h s]
    rfl
  | ok a =>
    obtain ⟨L, h1, h2⟩ := h
    have h3 := hk a L rfl h1
    rw [R.ok_bind]
    unfold Tracks at h3 ⊢
    cases hc : k' a with
    | error e =>
      rw [hc] at h3
      intro s
      rw [hr_bind, h2 s, R.ok_bind]
      exact h3 _
    | ok b =>
      rw [hc] at h3
      obtain ⟨L', h4, h5⟩ := h3
      refine ⟨L' ++ L, h4, fun s => ?_⟩
      rw [hr_bind, h2 s, R.ok_bind, h5, List.append_assoc]

theorem lift {g : R α} {Q : α → Blocks → Prop} (h : ∀ a, g = .ok a → Q a []) : Tracks (liftM g : HR α) g Q := by
  unfold Tracks
  cases g with
  | error e => exact fun _ => rfl
  | ok a => exact ⟨[], h a rfl, fun _ => rfl⟩

theorem liftBind {g : R α} {k : α → HR β} {k' : α → R β} {Q : β → Blocks → Prop}
    (hk : ∀ a, g = .ok a → Tracks (k a) (k' a) Q) : Tracks ((liftM g : HR α) >>= k) (g >>= k') Q := by
  refine bind (P := fun _ L => L = []) (lift fun _ _ => rfl) fun a L ha hL => ?_
  subst hL
  simpa using hk a ha

theorem ok {f : HR α} {g : R α} {P : α → Blocks → Prop} {a : α} (h : Tracks f g P) (hg : g = .ok a) :
    ∃ L, P a L ∧ ∀ s, f s = .ok (a, L ++ s) := by
  subst hg
  exact h

theorem inv {f : HR α} {g : R α} {P : α → Blocks → Prop} {a : α} {s s' : Blocks} (h : Tracks f g P) (hf : f s = .ok (a, s')) :
    g = .ok a ∧ ∃ L, P a L ∧ s' = L ++ s := by
  unfold Tracks at h
  cases g with
  | error e =>
    rw [h s] at hf
    cases hf
  | ok b =>
    obtain ⟨L, h1, h2⟩ := h
    rw [h2 s] at hf
    injection hf with hf
    injection hf with h3 h4
    subst h3
    exact ⟨rfl, L, h1, h4.symm⟩

theorem same {f : HR α} {g : R α} {P : α → Blocks → Prop} (h : Tracks f g P) (s : Blocks) : (f s).map Prod.fst = g := by
  unfold Tracks at h
  cases g with
  | error e => rw [h s]; rfl
  | ok a =>
    obtain ⟨L, -, h2⟩ := h
    rw [h2 s]
    rfl

end Tracks

/-- the blocks of one `getRawMpz` -/
def rawL (n : ℤ) : Blocks := if (getRawMpz n).isEmpty then [] else [getRawMpz n]

theorem rawL_of_ne {n : ℤ} (h : getRawMpz n ≠ []) : rawL n = [getRawMpz n] := by
  unfold rawL
  rw [if_neg (by simpa using h)]

theorem getRaw_tracks (n : ℤ) : Tracks (getRawMpzH n) (.ok (getRawMpz n)) fun _ L => L = rawL n := by
  refine ⟨_, rfl, fun h => ?_⟩
  unfold getRawMpzH rawL
  dsimp only
  split <;> rfl

theorem getRaw_bind {β : Type} {n : ℤ} {k : List Byte → HR β} {g : R β} {Q : β → Blocks → Prop}
    (hk : Tracks (k (getRawMpz n)) g fun b L' => Q b (L' ++ rawL n)) : Tracks (getRawMpzH n >>= k) g Q := by
  have h := Tracks.bind (k' := fun _ => g) (getRaw_tracks n) (k := k) (Q := Q) fun a L ha hL => by
    obtain rfl := Except.ok.inj ha
    subst hL
    exact hk
  exact h

theorem raw_ne {n : ℤ} {b : Byte} {l : List Byte} (h : getRawMpz n = b :: l) : b ≠ 0 := by
  rw [getRawMpz_eq] at h
  by_cases h0 : n.natAbs = 0
  · rw [h0, digits_zero] at h
    cases h
  · obtain ⟨b', l', h1, h2⟩ := digits_head _ h0
    rw [h1] at h
    injection h with h3 h4
    rwa [← h3]

theorem abs_bytes (n : ℤ) : IsBytes |n| (getRawMpz n) := by
  rw [← getRawMpz_abs]
  exact exists_bytes |n| (abs_nonneg n)

/-- appending bytes to those of a non-zero number gives a number with just these bytes -/
theorem raw_append {n : ℤ} (h : getRawMpz n ≠ []) (t : List Byte) : getRawMpz (setRawMpz (getRawMpz n ++ t)) = getRawMpz n ++ t := by
  obtain ⟨b, l, h1⟩ := List.exists_cons_of_ne_nil h
  have h2 := raw_ne h1
  rw [h1, setRawMpz_val, getRawMpz_eq, Int.natAbs_natCast, List.cons_append, digits_val_of_head _ _ h2]

namespace Crc

attribute [local irreducible] sub64

/-- what `appendCRC` returns when it returns -/
theorem appendH_tracks (pf : Platform) (n : ℤ) :
    Tracks (appendCRCH pf n) (appendCRC pf n) fun m L => getRawMpz n ≠ [] ∧ L = [getRawMpz n] ∧
      ∃ t : List Byte, t.length = 4 ∧ getRawMpz m = getRawMpz n ++ t := by
  unfold appendCRCH appendCRC
  refine getRaw_bind (Tracks.liftBind fun c _ => ?_)
  by_cases h0 : (getRawMpz n).length = 0
  · rw [if_pos h0, if_pos h0]
    exact Tracks.raise
  · rw [if_neg h0, if_neg h0]
    have h1 : getRawMpz n ≠ [] := fun h => h0 (by rw [h]; rfl)
    by_cases h2 : pf.usable (getRawMpz n).length < (getRawMpz n).length + 4
    · rw [if_pos h2, if_pos h2]
      exact Tracks.raise
    · rw [if_neg h2, if_neg h2]
      exact Tracks.ret ⟨h1, rawL_of_ne h1, bytesLE c, rfl, raw_append h1 _⟩

theorem validateH_tracks (pf : Platform) (n : ℤ) :
    Tracks (validateCRCH pf n) (validateCRC pf n) fun _ L => getRawMpz n ≠ [] ∧ L = [getRawMpz n] := by
  unfold validateCRCH validateCRC
  refine getRaw_bind (Tracks.liftBind fun b0 h0 => Tracks.liftBind fun b1 _ => Tracks.liftBind fun b2 _ =>
    Tracks.liftBind fun b3 _ => Tracks.liftBind fun c _ => Tracks.ret ?_)
  have h1 : getRawMpz n ≠ [] := by
    intro h
    rw [h] at h0
    cases h0
  exact ⟨h1, rawL_of_ne h1⟩

theorem removeH_tracks (n : ℤ) : Tracks (removeCRCH n) (removeCRC n) fun _ L => L = rawL n := by
  unfold removeCRCH removeCRC
  exact getRaw_bind (Tracks.lift fun _ _ => rfl)

end Crc

namespace Aes

theorem keyBytes_ne {key : ℤ} {k : List Byte} (h : keyBytes key = .ok k) : 16 ≤ (getRawMpz key).length := by
  unfold keyBytes at h
  dsimp only at h
  split at h
  · cases h
  · split at h
    · cases h
    · omega

theorem ne_of_16 {l : List Byte} (h : 16 ≤ l.length) : l ≠ [] := by
  intro h'
  rw [h'] at h
  simp at h

theorem encryptH_tracks (E : Cipher) (s : Iv) (m key : ℤ) :
    Tracks (encryptH E s m key) (encrypt E s m key) fun _ L => 16 ≤ (getRawMpz key).length ∧ L = getRawMpz key :: rawL m := by
  unfold encryptH encrypt
  refine getRaw_bind (getRaw_bind (Tracks.liftBind fun k hk => Tracks.liftBind fun iv _ => Tracks.liftBind fun c _ =>
    Tracks.ret ⟨keyBytes_ne hk, ?_⟩))
  rw [rawL_of_ne (ne_of_16 (keyBytes_ne hk))]
  rfl

theorem decryptH_tracks (E : Cipher) (s : Iv) (c key : ℤ) :
    Tracks (decryptH E s c key) (decrypt E s c key) fun m L => 16 ≤ (getRawMpz key).length ∧ L = getRawMpz key :: rawL c ∧
      (getRawMpz c = [] → m = 0) := by
  unfold decryptH decrypt
  refine getRaw_bind (getRaw_bind (Tracks.liftBind fun k hk => Tracks.liftBind fun iv _ => Tracks.liftBind fun p hp =>
    Tracks.ret ⟨keyBytes_ne hk, ?_, ?_⟩))
  · rw [rawL_of_ne (ne_of_16 (keyBytes_ne hk))]
    rfl
  · intro h
    rw [h] at hp
    have h1 : p = [] := by
      simpa [update, toInt32] using hp.symm
    rw [h1]
    rfl

/-- the blocks left behind by one `encryptCRC(key, m)` -/
def SealL (key m : ℤ) (L : Blocks) : Prop :=
  ∃ kb mb t, IsBytes |key| kb ∧ IsBytes |m| mb ∧ 16 ≤ kb.length ∧ mb ≠ [] ∧ t.length = 4 ∧ L = [kb, mb ++ t, mb]

theorem encryptCRCH_tracks (pf : Platform) (E : Cipher) (s : Iv) (key m : ℤ) :
    Tracks (encryptCRCH pf E s key m) (encryptCRC pf E s key m) fun _ L => SealL key m L := by
  unfold encryptCRCH encryptCRC
  refine Tracks.bind (Crc.appendH_tracks pf m) fun msg L _ hL => ?_
  obtain ⟨h1, rfl, t, h2, h3⟩ := hL
  refine (encryptH_tracks E s msg key).mono fun c L _ hL => ?_
  obtain ⟨h4, rfl⟩ := hL
  refine ⟨_, _, t, abs_bytes key, abs_bytes m, h4, h1, h2, ?_⟩
  rw [rawL_of_ne (by rw [h3]; exact fun h => h1 (List.append_eq_nil_iff.1 h).1), h3]
  rfl

/-- the blocks left behind by one `decryptCRC(key, c)` that returns `v` -/
def UnsealL (key c v : ℤ) (L : Blocks) : Prop :=
  ∃ kb cb mb, IsBytes |key| kb ∧ IsBytes |c| cb ∧ 16 ≤ kb.length ∧ cb ≠ [] ∧ mb ≠ [] ∧
    (v = 0 ∧ L = [mb, kb, cb] ∨ L = [mb, mb, kb, cb] ∧ ∃ vb t, (v ≠ 0 → IsBytes v vb) ∧ mb = vb ++ t)

attribute [local irreducible] Crc.sub64 in
theorem decryptCRCH_tracks (pf : Platform) (E : Cipher) (s : Iv) (key c : ℤ) :
    Tracks (decryptCRCH pf E s key c) (decryptCRC pf E s key c) fun v L => UnsealL key c v L := by
  unfold decryptCRCH decryptCRC
  refine Tracks.bind (decryptH_tracks E s c key) fun m L _ hL => ?_
  obtain ⟨h1, rfl, h2⟩ := hL
  refine Tracks.bind (Crc.validateH_tracks pf m) fun v L _ hL => ?_
  obtain ⟨h3, rfl⟩ := hL
  have h4 : getRawMpz c ≠ [] := fun h => h3 (by rw [h2 h]; rfl)
  rw [rawL_of_ne h4]
  cases v with
  | false =>
    rw [if_neg (by decide), if_neg (by decide)]
    exact Tracks.ret ⟨_, _, _, abs_bytes key, abs_bytes c, h1, h4, h3, .inl ⟨rfl, rfl⟩⟩
  | true =>
    rw [if_pos rfl, if_pos rfl]
    refine (Crc.removeH_tracks m).mono fun r L hr hL => ?_
    subst hL
    refine ⟨_, _, _, abs_bytes key, abs_bytes c, h1, h4, h3, .inr ⟨by rw [rawL_of_ne h3]; rfl, ?_⟩⟩
    unfold Crc.removeCRC setRawMpzLen at hr
    dsimp only at hr
    split at hr
    · obtain rfl := Except.ok.inj hr
      refine ⟨_, _, fun h => ?_, (List.take_append_drop (Crc.sub64 (getRawMpz m).length 4) (getRawMpz m)).symm⟩
      constructor
      · rw [setRawMpz_val]
      · obtain ⟨b, l, h5⟩ := List.exists_cons_of_ne_nil h3
        have h6 := raw_ne h5
        generalize Crc.sub64 (getRawMpz m).length 4 = n
        rw [h5]
        cases n with
        | zero => simp
        | succ n => simpa using h6
    · cases hr

end Aes

namespace Opprf

open Dme Ot Aes

theorem sealH_tracks (W : World) (key m : ℤ) : Tracks (W.sealH key m) (W.seal key m) fun _ L => SealL key m L :=
  encryptCRCH_tracks _ _ _ _ _

theorem unsealH_tracks (W : World) (key c : ℤ) : Tracks (W.unsealH key c) (W.unseal key c) fun v L => UnsealL key c v L :=
  decryptCRCH_tracks _ _ _ _ _

theorem _root_.Verif.Aes.SealL.length {key m : ℤ} {L : Blocks} (h : SealL key m L) : L.length = 3 := by
  obtain ⟨kb, mb, t, -, -, -, -, -, rfl⟩ := h
  rfl

theorem _root_.Verif.Aes.SealL.key {key m : ℤ} {L : Blocks} (h : SealL key m L) : ∃ b ∈ L, IsBytes |key| b := by
  obtain ⟨kb, mb, t, h1, -, -, -, -, rfl⟩ := h
  exact ⟨kb, by simp, h1⟩

theorem _root_.Verif.Aes.SealL.msg {key m : ℤ} {L : Blocks} (h : SealL key m L) : ∃ b ∈ L, IsBytes |m| b := by
  obtain ⟨kb, mb, t, -, h1, -, -, -, rfl⟩ := h
  exact ⟨mb, by simp, h1⟩

/-- the bytes in a list of blocks -/
def total (L : Blocks) : ℕ := (L.map List.length).sum

theorem total_append (L L' : Blocks) : total (L ++ L') = total L + total L' := by simp [total]

theorem _root_.Verif.Aes.SealL.total {key m : ℤ} {L : Blocks} (h : SealL key m L) : Opprf.total L = byteLen key + 2 * byteLen m + 4 := by
  obtain ⟨kb, mb, t, h1, h2, -, -, h3, rfl⟩ := h
  rw [← byteLen_abs key, ← byteLen_abs m, IsBytes.byteLen h1, IsBytes.byteLen h2]
  simp [Opprf.total, h3]
  omega

/-- the key or message `n` is in one of the blocks -/
def InL (L : Blocks) (n : ℤ) : Prop := ∃ b ∈ L, IsBytes |n| b

theorem InL.left {L L' : Blocks} {n : ℤ} (h : InL L n) : InL (L ++ L') n := by
  obtain ⟨b, h1, h2⟩ := h
  exact ⟨b, List.mem_append_left _ h1, h2⟩

theorem InL.right {L L' : Blocks} {n : ℤ} (h : InL L' n) : InL (L ++ L') n := by
  obtain ⟨b, h1, h2⟩ := h
  exact ⟨b, List.mem_append_right _ h1, h2⟩

/-- the blocks left behind by the entries for index `i + 1` -/
def EntryL (s : Server) (i : ℕ) (L : Blocks) : Prop :=
  ∃ lt eq gt lt' eq' gt', s.k_lt[i + 1]? = some lt ∧ s.k_eq[i + 1]? = some eq ∧ s.k_gt[i + 1]? = some gt ∧ s.k_lt[i]? = some lt' ∧
    s.k_eq[i]? = some eq' ∧ s.k_gt[i]? = some gt' ∧ L.length = 18 ∧ InL L lt ∧ InL L eq ∧ InL L gt ∧ InL L lt' ∧ InL L eq' ∧
    InL L gt' ∧ (byteLen lt = 16 → byteLen eq = 16 → byteLen gt = 16 → byteLen lt' = 16 → byteLen eq' = 16 → byteLen gt' = 16 →
      total L = 312)

theorem entriesH_tracks (W : World) (s : Server) (i : ℕ) :
    Tracks (entriesH W s i) (entries W s i) fun _ L => EntryL s i L := by
  unfold entriesH entries
  refine Tracks.liftBind fun lt h1 => Tracks.liftBind fun eq h2 => Tracks.liftBind fun gt h3 => Tracks.liftBind fun lt' h4 =>
    Tracks.liftBind fun eq' h5 => Tracks.liftBind fun gt' h6 => Tracks.liftBind fun o _ => ?_
  split
  · refine Tracks.bind (sealH_tracks W _ _) fun a L1 _ g1 => Tracks.bind (sealH_tracks W _ _) fun b L2 _ g2 =>
      Tracks.bind (sealH_tracks W _ _) fun c L3 _ g3 => Tracks.liftBind fun p0 _ =>
      Tracks.bind (sealH_tracks W _ _) fun a' L4 _ g4 => Tracks.bind (sealH_tracks W _ _) fun b' L5 _ g5 =>
      Tracks.bind (sealH_tracks W _ _) fun c' L6 _ g6 => Tracks.liftBind fun g _ => Tracks.liftBind fun ro _ =>
      Tracks.liftBind fun p1 _ => Tracks.ret ?_
    refine ⟨lt, eq, gt, lt', eq', gt', at'_ok.1 h1, at'_ok.1 h2, at'_ok.1 h3, at'_ok.1 h4, at'_ok.1 h5, at'_ok.1 h6, ?_, ?_, ?_, ?_, ?_, ?_, ?_, ?_⟩
    · simp [g1.length, g2.length, g3.length, g4.length, g5.length, g6.length]
    · exact .right g1.key
    · exact .left (.right g2.key)
    · exact .left (.left (.right g3.key))
    · exact .right g1.msg
    · exact .left (.right g2.msg)
    · exact .left (.left (.right g3.msg))
    · intro q1 q2 q3 q4 q5 q6
      simp only [total_append, g1.total, g2.total, g3.total, g4.total, g5.total, g6.total, q1, q2, q3, q4, q5, q6]
      rfl
  · refine Tracks.bind (sealH_tracks W _ _) fun a L1 _ g1 => Tracks.bind (sealH_tracks W _ _) fun b L2 _ g2 =>
      Tracks.bind (sealH_tracks W _ _) fun c L3 _ g3 => Tracks.liftBind fun p0 _ =>
      Tracks.bind (sealH_tracks W _ _) fun a' L4 _ g4 => Tracks.bind (sealH_tracks W _ _) fun b' L5 _ g5 =>
      Tracks.bind (sealH_tracks W _ _) fun c' L6 _ g6 => Tracks.liftBind fun g _ => Tracks.liftBind fun ro _ =>
      Tracks.liftBind fun p1 _ => Tracks.ret ?_
    refine ⟨lt, eq, gt, lt', eq', gt', at'_ok.1 h1, at'_ok.1 h2, at'_ok.1 h3, at'_ok.1 h4, at'_ok.1 h5, at'_ok.1 h6, ?_, ?_, ?_, ?_, ?_, ?_, ?_, ?_⟩
    · simp [g1.length, g2.length, g3.length, g4.length, g5.length, g6.length]
    · exact .right g1.key
    · exact .left (.right g2.key)
    · exact .left (.left (.right g3.key))
    · exact .right g1.msg
    · exact .left (.left (.left (.left (.right g5.msg))))
    · exact .left (.left (.right g3.msg))
    · intro q1 q2 q3 q4 q5 q6
      simp only [total_append, g1.total, g2.total, g3.total, g4.total, g5.total, g6.total, q1, q2, q3, q4, q5, q6]
      rfl

/-- the blocks left behind by the second loop from index `n` on -/
def LoopL (s : Server) (n : ℕ) (L : Blocks) : Prop :=
  L.length = 18 * n ∧
  (∀ i, i ≤ n → 0 < n → ∃ lt eq gt, s.k_lt[i]? = some lt ∧ s.k_eq[i]? = some eq ∧ s.k_gt[i]? = some gt ∧
    InL L lt ∧ InL L eq ∧ InL L gt) ∧
  ((∀ x, x ∈ s.k_lt ∨ x ∈ s.k_eq ∨ x ∈ s.k_gt → byteLen x = 16) → total L = 312 * n)

theorem loopH_tracks (W : World) : ∀ (n : ℕ) (s : Server),
    Tracks (tableLoopH W n s) (tableLoop W n s) fun _ L => LoopL s n L
  | 0, s => Tracks.ret ⟨rfl, fun i _ h => absurd h (lt_irrefl 0), fun _ => rfl⟩
  | n + 1, s => by
    unfold tableLoopH tableLoop
    refine Tracks.bind (entriesH_tracks W s n) fun x L _ hL => ?_
    obtain ⟨x0, x1⟩ := x
    refine Tracks.liftBind fun si0 _ => Tracks.liftBind fun si1 _ => ?_
    refine (loopH_tracks W n _).mono fun s' L' _ h => ?_
    obtain ⟨g1, g2, g3⟩ := h
    obtain ⟨lt, eq, gt, lt', eq', gt', h1, h2, h3, h4, h5, h6, a0, a1, a2, a3, a4, a5, a6, a7⟩ := hL
    refine ⟨by rw [List.length_append, g1, a0]; ring, fun i hi _ => ?_, fun hx => ?_⟩
    · rcases Nat.lt_or_ge n i with hi' | hi'
      · obtain rfl : i = n + 1 := by omega
        exact ⟨lt, eq, gt, h1, h2, h3, .right a1, .right a2, .right a3⟩
      · rcases Nat.lt_or_ge i n with hi2 | hi2
        · obtain ⟨b1, b2, b3, c1, c2, c3, c4, c5, c6⟩ := g2 i hi' (by omega)
          exact ⟨b1, b2, b3, c1, c2, c3, .left c4, .left c5, .left c6⟩
        · obtain rfl : i = n := by omega
          exact ⟨lt', eq', gt', h4, h5, h6, .right a4, .right a5, .right a6⟩
    · rw [total_append, g3 hx, a7 (hx _ (.inl (List.mem_of_getElem? h1))) (hx _ (.inr (.inl (List.mem_of_getElem? h2))))
        (hx _ (.inr (.inr (List.mem_of_getElem? h3)))) (hx _ (.inl (List.mem_of_getElem? h4)))
        (hx _ (.inr (.inl (List.mem_of_getElem? h5)))) (hx _ (.inr (.inr (List.mem_of_getElem? h6))))]
      ring

/-- the blocks left behind by `prepareKeysAndInputs` on a server with the key lists of `s` -/
def PrepL (s : Server) (k : PrepCoins) (L : Blocks) : Prop :=
  L.length = 270 ∧
  (∀ i, i ≤ 15 → ∃ lt eq gt, (s.k_lt ++ k.bits.map BitCoins.lt)[i]? = some lt ∧ (s.k_eq ++ k.bits.map BitCoins.eq)[i]? = some eq ∧
    (s.k_gt ++ k.bits.map BitCoins.gt)[i]? = some gt ∧ InL L lt ∧ InL L eq ∧ InL L gt) ∧
  ((∀ x, x ∈ s.k_lt ++ k.bits.map BitCoins.lt ∨ x ∈ s.k_eq ++ k.bits.map BitCoins.eq ∨ x ∈ s.k_gt ++ k.bits.map BitCoins.gt →
    byteLen x = 16) → total L = 4680)

theorem prepareH_tracks (W : World) (s : Server) (k : PrepCoins) :
    Tracks (s.prepareH W k) (s.prepare W k) fun _ L => PrepL s k L := by
  unfold Server.prepareH Server.prepare
  refine Tracks.liftBind fun P _ => Tracks.liftBind fun r _ => Tracks.liftBind fun s1 h1 => Tracks.liftBind fun s2 h2 => ?_
  obtain ⟨os, -, e1⟩ := pushKeys_inv _ h1
  obtain ⟨⟨a, b, e2⟩, -⟩ := prepareTop_inv h2
  refine (loopH_tracks W 15 s2).mono fun s3 L _ h => ?_
  obtain ⟨g1, g2, g3⟩ := h
  subst e2
  subst e1
  exact ⟨g1, fun i hi => g2 i hi (by norm_num), fun hx => g3 hx⟩

/-- the blocks left behind by `sendEncryptedMasks` -/
theorem masksH_tracks (W : World) (s : Server) (k : MaskCoins) :
    Tracks (s.sendEncryptedMasksH W k) (s.sendEncryptedMasks W k) fun _ L => L.length = 9 := by
  unfold Server.sendEncryptedMasksH Server.sendEncryptedMasks
  refine Tracks.liftBind fun _ _ => Tracks.liftBind fun _ _ => Tracks.liftBind fun _ _ => Tracks.liftBind fun _ _ =>
    Tracks.liftBind fun _ _ => Tracks.liftBind fun _ _ => Tracks.liftBind fun _ _ =>
    Tracks.bind (sealH_tracks W _ _) fun _ L1 _ g1 => Tracks.liftBind fun _ _ => Tracks.liftBind fun _ _ =>
    Tracks.bind (sealH_tracks W _ _) fun _ L2 _ g2 => Tracks.liftBind fun _ _ => Tracks.liftBind fun _ _ =>
    Tracks.liftBind fun _ _ => Tracks.bind (sealH_tracks W _ _) fun _ L3 _ g3 => Tracks.ret ?_
  simp [g1.length, g2.length, g3.length]

/-- the blocks left behind by a search with the key `key` among at most `n` candidates -/
def SearchL (key : ℤ) (n : ℕ) (f : Option ℤ) (L : Blocks) : Prop :=
  L.length ≤ 4 * n ∧ ∀ v, f = some v → 4 ≤ L.length ∧ InL L key ∧ ∃ b vb t, b ∈ L ∧ IsBytes v vb ∧ b = vb ++ t

theorem _root_.Verif.Aes.UnsealL.length {key c v : ℤ} {L : Blocks} (h : UnsealL key c v L) : L.length ≤ 4 := by
  obtain ⟨kb, cb, mb, -, -, -, -, -, ⟨-, rfl⟩ | ⟨rfl, -⟩⟩ := h <;> simp

theorem _root_.Verif.Aes.UnsealL.some {key c v : ℤ} {L : Blocks} (h : UnsealL key c v L) (hv : v ≠ 0) : SearchL key 1 (some v) L := by
  obtain ⟨kb, cb, mb, h1, h2, h3, h4, h5, ⟨h6, -⟩ | ⟨rfl, vb, t, h7, h8⟩⟩ := h
  · exact absurd h6 hv
  · refine ⟨by simp, fun w hw => ⟨by simp, ⟨kb, by simp, h1⟩, mb, vb, t, by simp, ?_, h8⟩⟩
    obtain rfl := Option.some.inj hw
    exact h7 hv

theorem SearchL.more {key : ℤ} {n : ℕ} {f : Option ℤ} {L L' : Blocks} (h : SearchL key n f L) (h' : L'.length ≤ 4) :
    SearchL key (n + 1) f (L ++ L') := by
  refine ⟨by rw [List.length_append]; have := h.1; omega, fun v hv => ?_⟩
  obtain ⟨h1, h2, b, vb, t, h3, h4, h5⟩ := h.2 v hv
  exact ⟨by rw [List.length_append]; omega, h2.left, b, vb, t, List.mem_append_left _ h3, h4, h5⟩

theorem SearchL.weak {key : ℤ} {n n' : ℕ} {f : Option ℤ} {L : Blocks} (h : SearchL key n f L) (h' : n ≤ n') : SearchL key n' f L :=
  ⟨by have := h.1; omega, h.2⟩

theorem searchMaskH_tracks (W : World) (key : ℤ) : ∀ l : List ℤ,
    Tracks (searchMaskH W key l) (searchMask W key l) fun f L => SearchL key l.length f L
  | [] => Tracks.ret ⟨by simp, fun v h => by cases h⟩
  | m :: ms => by
    unfold searchMaskH searchMask
    refine Tracks.bind (unsealH_tracks W key m) fun v L _ hL => ?_
    by_cases hv : v = 0
    · rw [if_neg (by simpa using hv), if_neg (by simpa using hv)]
      exact (searchMaskH_tracks W key ms).mono fun f L' _ h => h.more hL.length
    · rw [if_pos hv, if_pos hv]
      exact Tracks.ret ((hL.some hv).weak (by simp))

theorem searchKeyH_tracks (W : World) (c : Client) : ∀ l : List (List Ctxt),
    Tracks (searchKeyH W c l) (searchKey W c l) fun f L => SearchL c.key l.length f L
  | [] => Tracks.ret ⟨by simp, fun v h => by cases h⟩
  | m :: ms => by
    unfold searchKeyH searchKey
    refine Tracks.liftBind fun t _ => ?_
    refine Tracks.bind (unsealH_tracks W c.key t) fun v L _ hL => ?_
    by_cases hv : v = 0
    · rw [if_neg (by simpa using hv), if_neg (by simpa using hv)]
      exact (searchKeyH_tracks W c ms).mono fun f L' _ h => h.more hL.length
    · rw [if_pos hv, if_pos hv]
      exact Tracks.ret ((hL.some hv).weak (by simp))

theorem unmaskH_tracks (W : World) (c : Client) (masks : Arr3 ℤ) (coin : ℤ) :
    Tracks (c.unmaskResultH W masks coin) (c.unmaskResult W masks coin) fun _ L => 4 ≤ L.length ∧ L.length ≤ 12 ∧ InL L c.key := by
  unfold Client.unmaskResultH Client.unmaskResult
  refine Tracks.bind (searchMaskH_tracks W c.key _) fun f L _ hL => Tracks.liftBind fun _ _ => ?_
  cases f with
  | none => exact Tracks.raise
  | some x =>
    refine Tracks.liftBind fun _ _ => Tracks.liftBind fun _ _ => Tracks.liftBind fun _ _ => Tracks.ret ?_
    obtain ⟨h1, h2, -⟩ := hL.2 x rfl
    exact ⟨h1, hL.1, h2⟩

theorem finishH16_tracks (W : World) (c : Client) (m : OtCtxts) :
    Tracks (c.finishH W 16 m) (c.finish W 16 m) fun _ L => L = [] := by
  unfold Client.finishH Client.finish
  rw [if_pos rfl, if_pos rfl]
  exact Tracks.liftBind fun _ _ => Tracks.liftBind fun _ _ => Tracks.liftBind fun _ _ => Tracks.ret rfl

theorem finishH_tracks (W : World) (c : Client) {round : ℤ} (hr : round ≠ 16) (m : OtCtxts) :
    Tracks (c.finishH W round m) (c.finish W round m) fun c' L => 4 ≤ L.length ∧ L.length ≤ 12 ∧ InL L c.key ∧
      ∃ b vb t, b ∈ L ∧ IsBytes c'.key vb ∧ b = vb ++ t := by
  unfold Client.finishH Client.finish
  rw [if_neg hr, if_neg hr]
  refine Tracks.bind (searchKeyH_tracks W c _) fun f L _ hL => Tracks.liftBind fun _ _ => ?_
  cases f with
  | none => exact fun _ => rfl
  | some x =>
    refine Tracks.bind (P := fun k L => k = x ∧ L = []) (Tracks.ret ⟨rfl, rfl⟩) fun k L' _ h => ?_
    obtain ⟨rfl, rfl⟩ := h
    refine Tracks.liftBind fun _ _ => Tracks.liftBind fun _ _ => Tracks.ret ?_
    obtain ⟨h1, h2, h3⟩ := hL.2 k rfl
    exact ⟨h1, hL.1, h2, h3⟩

end Opprf
end Verif
