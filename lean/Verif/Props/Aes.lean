import Verif.Lemmas.BytesXor
import Verif.Props.Crc

/-!
# C48-C51: the AES wrapper

Every statement is for an arbitrary keystream `E`, so it does not depend on AES.
-/

namespace Verif

open BytesSpec Utils Aes

/-- the 16 bytes of the IV can be read -/
def IvReadable (s : Iv) : Prop := 16 ≤ (s.str ++ 0#8 :: s.after).length

/-- first keystream byte for a key with the given bytes -/
def firstKeystreamByte (E : Cipher) (s : Iv) (kb : List (BitVec 8)) : BitVec 8 :=
  E (kb.take 16) ((s.str ++ 0#8 :: s.after).take 16) 0

/-- the key `2^127 + 5` and its bytes -/
def tkey : ℤ := 2 ^ 127 + 5
def tkb : List (BitVec 8) := 0x80#8 :: (List.replicate 14 0#8 ++ [5#8])
theorem tkey_bytes : IsBytes tkey tkb := ⟨by decide +kernel, by decide⟩

/-- a keystream that depends on key and position -/
def tE : Cipher := fun k _ i => (k.getD (i % 16) 0#8) + BitVec.ofNat 8 i

/-- the IV as libstdc++ has it at program start -/
def tiv : Iv := ⟨[], List.replicate 15 0#8⟩

example : IsBytes tkey tkb ∧ 16 ≤ tkb.length ∧ IsBytes 0x4142 [0x41#8, 0x42#8] ∧ IvReadable tiv ∧
    (0x41#8 ≠ firstKeystreamByte tE tiv tkb) :=
  ⟨tkey_bytes, by decide, ⟨by decide, by decide⟩, by unfold IvReadable; decide, by decide +kernel⟩

/-! ## C48 -/

/-- **C48**, exactly when it holds: for every keystream, readable IV, key of at least 16 bytes (of which the first 16 count)
and positive message of at most 128 bytes, encryption and decryption are defined, and decryption returns the message if
and only if the first byte of the message differs from the first byte of the keystream.

Missing for the full statement: messages whose first byte equals the first keystream byte (`C48_counterexample`). -/
theorem C48_exact_partial (E : Cipher) (s : Iv) (key m : ℤ) (kb mb : List (BitVec 8)) (b : BitVec 8) (hk : IsBytes key kb)
    (hkl : 16 ≤ kb.length) (hm : IsBytes m (b :: mb)) (hml : (b :: mb).length ≤ 128) (hiv : IvReadable s) :
    ∃ c m', encrypt E s m key = .ok c ∧ decrypt E s c key = .ok m' ∧ (m' = m ↔ b ≠ firstKeystreamByte E s kb) := by
  obtain ⟨c, m', h1, h2, -, h3, h4⟩ := round_trip E s key m kb mb b hk hkl hm hml hiv
  refine ⟨c, m', h1, h2, fun he hb => ?_, h3⟩
  have := (h4 hb).1
  omega

/-- **C48**, the message zero comes back. -/
theorem C48_zero_partial (E : Cipher) (s : Iv) (key : ℤ) (kb : List (BitVec 8)) (hk : IsBytes key kb)
    (hkl : 16 ≤ kb.length) (hiv : IvReadable s) : encrypt E s 0 key = .ok 0 ∧ decrypt E s 0 key = .ok 0 := by
  have h0 : IsBytes 0 [] := ⟨rfl, by simp⟩
  exact ⟨encrypt_ok E s key 0 kb [] hk hkl h0 (by simp) hiv, decrypt_ok E s key 0 kb [] hk hkl h0 (by simp) hiv⟩

/-- **C48** is false: for every key, IV and keystream whose first byte is not zero there are messages of every
length up to 128 bytes that do not come back. -/
theorem C48_counterexample (E : Cipher) (s : Iv) (key : ℤ) (kb : List (BitVec 8)) (hk : IsBytes key kb)
    (hkl : 16 ≤ kb.length) (hiv : IvReadable s) (h0 : firstKeystreamByte E s kb ≠ 0#8) (L : ℕ) (hL : L < 128) :
    ∃ m c m' : ℤ, 256 ^ L ≤ m ∧ m < 256 ^ (L + 1) ∧ encrypt E s m key = .ok c ∧ decrypt E s c key = .ok m' ∧ m' ≠ m := by
  have hm : IsBytes (val (firstKeystreamByte E s kb :: List.replicate L 0#8))
      (firstKeystreamByte E s kb :: List.replicate L 0#8) := ⟨rfl, by simpa using h0⟩
  have h1 := val_ge _ (List.replicate L 0#8) h0
  have h2 := val_lt (firstKeystreamByte E s kb :: List.replicate L 0#8)
  obtain ⟨c, m', e1, e2, e3⟩ := C48_exact_partial E s key _ kb _ _ hk hkl hm (by simp; omega) hiv
  simp only [List.length_cons, List.length_replicate] at h1 h2
  exact ⟨_, c, m', by exact_mod_cast h1, by exact_mod_cast h2, e1, e2, fun he => (e3.1 he) rfl⟩

example : firstKeystreamByte tE tiv tkb ≠ 0#8 := by decide +kernel

/-! ## C49 -/

theorem removeCRC_val (n : ℤ) (h4 : 4 ≤ byteLen n) (hl : byteLen n < 2 ^ 64) :
    Crc.removeCRC n = .ok ((n.natAbs / 2 ^ 32 : ℕ) : ℤ) := by
  have h4' := h4
  rw [← length_getRawMpz] at h4 hl
  obtain ⟨B, b0, b1, b2, b3, h, hB⟩ := Crc.split4 _ h4
  unfold Crc.removeCRC setRawMpzLen
  simp only
  rw [Crc.sub64_eq _ 4 h4 hl, if_pos (by omega), ← hB, setRawMpz_val]
  have hv : val (getRawMpz n) = n.natAbs := by rw [getRawMpz_eq, val_digits]
  rw [h, val_append] at hv
  have ht := val_lt [b0, b1, b2, b3]
  simp only [List.length_cons, List.length_nil] at hv ht
  congr 2
  omega

theorem tail_word (b0 b1 b2 b3 : Byte) (p : List Byte) (h : CrcSpec.crc 0#32 p = Crc.word b0 b1 b2 b3) :
    CrcSpec.tail p = [b0, b1, b2, b3] := by
  have : CrcSpec.tail p = Crc.bytesLE (CrcSpec.crc 0#32 p) := rfl
  rw [this, bytesLE_eq, h, Crc.byte_word0, Crc.byte_word1, Crc.byte_word2, Crc.byte_word3]

/-- an accepted integer is a payload followed by its checksum -/
theorem valid_bytes (pf : Platform) (M : ℤ) (hM : 0 ≤ M) (hl : byteLen M < 2 ^ 32 + 4) (hv : Crc.validateCRC pf M = .ok true) :
    ∃ p, IsBytes M (p ++ CrcSpec.tail p) ∧ p ≠ [] := by
  have h4 : 4 ≤ byteLen M := by
    by_contra hc
    rw [Crc.validate_short pf M (by omega)] at hv; cases hv
  rw [← length_getRawMpz] at h4 hl
  obtain ⟨B, b0, b1, b2, b3, h, -⟩ := Crc.split4 _ h4
  have hL : B.length + 4 = (getRawMpz M).length := by rw [h]; simp
  rw [Crc.validate_split pf M B b0 b1 b2 b3 h (by omega), Nat.mod_eq_of_lt (by omega), List.take_length] at hv
  have hv' : CrcSpec.crc 0#32 B = Crc.word b0 b1 b2 b3 := by simpa using hv
  have hb := exists_bytes M hM
  refine ⟨B, by rwa [tail_word _ _ _ _ _ hv', ← h], ?_⟩
  rintro rfl
  have hw : Crc.word b0 b1 b2 b3 = 0#32 := hv'.symm
  obtain ⟨h0, -⟩ := Crc.word_eq_zero _ _ _ _ hw
  have := hb.head
  rw [h] at this
  simp [h0] at this

theorem update_length (ks : ℕ → Byte) (l o : List Byte) (n : ℕ) (h : update ks l n = .ok o) : o.length ≤ 128 := by
  unfold update at h
  simp only at h
  split at h
  · cases h
  · split at h
    · cases h
    · injection h with h
      rw [← h, List.length_mapIdx, List.length_take]
      omega

theorem decrypt_range (E : Cipher) (s : Iv) (c key M : ℤ) (h : decrypt E s c key = .ok M) : 0 ≤ M ∧ byteLen M ≤ 128 := by
  unfold decrypt at h
  obtain ⟨k, -, h⟩ := R.bind_eq_ok.1 h
  obtain ⟨iv, -, h⟩ := R.bind_eq_ok.1 h
  obtain ⟨o, ho, h⟩ := R.bind_eq_ok.1 h
  injection h with h
  subst h
  refine ⟨by rw [setRawMpz_val]; positivity, ?_⟩
  rw [IsBytes.byteLen (isBytes_dropWhile o)]
  exact (length_dropWhile_le' _ _).trans (update_length _ _ _ _ ho)

/-- **C49**, rejection: whatever `decryptCRC` returns is 0 or a payload whose decrypted ciphertext carries its correct
checksum; it never returns an unchecked value. -/
theorem C49_checked (pf : Platform) (E : Cipher) (s : Iv) (key c v : ℤ) (h : decryptCRC pf E s key c = .ok v) :
    v = 0 ∨ ∃ p, IsBytes v p ∧ decrypt E s c key = .ok (val (p ++ CrcSpec.tail p)) := by
  unfold decryptCRC at h
  obtain ⟨M, hM, h⟩ := R.bind_eq_ok.1 h
  obtain ⟨b, hb, h⟩ := R.bind_eq_ok.1 h
  obtain ⟨h0, h128⟩ := decrypt_range E s c key M hM
  cases b
  · left
    simp at h
    exact h.symm
  · right
    obtain ⟨p, hp, hpne⟩ := valid_bytes pf M h0 (by omega) hb
    have hlen := IsBytes.byteLen hp
    have h4 : (CrcSpec.tail p).length = 4 := rfl
    rw [List.length_append, h4] at hlen
    simp only [if_true] at h
    rw [removeCRC_val M (by omega) (by omega)] at h
    injection h with h
    refine ⟨p, ⟨?_, ?_⟩, ?_⟩
    · rw [← h]
      have hv := hp.value
      rw [val_append, h4] at hv
      have ht := val_lt (CrcSpec.tail p)
      rw [h4] at ht
      have : val p = M.natAbs / 2 ^ 32 := by omega
      rw [this]
    · cases p with
      | nil => exact absurd rfl hpne
      | cons b p => simpa using hp.head
    · rw [hM, hp.value]

/-- the bytes of a checksummed integer, and its fate -/
theorem append_bytes (pf : Platform) (m : ℤ) (mb : List Byte) (hm : IsBytes m mb) (h0 : m ≠ 0) (hl : mb.length < 2 ^ 32)
    (hs : mb.length + 4 ≤ pf.usable mb.length) :
    ∃ M, Crc.appendCRC pf m = .ok M ∧ IsBytes M (mb ++ CrcSpec.tail mb) := by
  have hb := IsBytes.byteLen hm
  rw [appendCRC_eq, hb, if_neg (by rw [← hb]; exact (byteLen_pos m h0).ne'), if_neg (by omega), IsBytes.raw hm,
    Nat.mod_eq_of_lt hl, List.take_length]
  refine ⟨_, rfl, ?_⟩
  have ht : Crc.bytesLE (CrcSpec.crc 0 mb) = CrcSpec.tail mb := rfl
  rw [ht]
  constructor
  · rw [setRawMpz_val]
  · cases mb with
    | nil => exact absurd (by simpa [val] using hm.value.symm) h0
    | cons b mb => simpa using hm.head

/-- **C49**, round trip, exactly when it holds: on a machine with four spare bytes per heap block, for every keystream,
readable IV, key of at least 16 bytes and positive message of at most 124 bytes, `decryptCRC` of `encryptCRC` is the
message if and only if the first byte of the message differs from the first keystream byte.

Missing for the full statement: the other messages, machines without spare bytes (C44), longer messages (C60). -/
theorem C49_round_trip_partial (pf pf' : Platform) (E : Cipher) (s : Iv) (key m : ℤ) (kb mb : List (BitVec 8)) (b : BitVec 8)
    (hk : IsBytes key kb) (hkl : 16 ≤ kb.length) (hm : IsBytes m (b :: mb)) (hml : (b :: mb).length ≤ 124)
    (hiv : IvReadable s) (hs : (b :: mb).length + 4 ≤ pf.usable (b :: mb).length) :
    ∃ c, encryptCRC pf E s key m = .ok c ∧ (decryptCRC pf' E s key c = .ok m ↔ b ≠ firstKeystreamByte E s kb) := by
  have hb0 : b ≠ 0#8 := by simpa using hm.head
  have hge := val_ge b mb hb0
  have hpos : 0 < m := by
    rw [← hm.value]
    have : 0 < 256 ^ mb.length := by positivity
    exact_mod_cast this.trans_le hge
  obtain ⟨M, hM, hMb⟩ := append_bytes pf m (b :: mb) hm (by omega) (by omega) hs
  obtain ⟨M', hM', hval, hrem⟩ := C43_round_trip_partial pf pf' m hpos
    (by rw [IsBytes.byteLen hm]; omega) (by rw [IsBytes.byteLen hm]; exact hs)
  have hMM : M' = M := (Except.ok.inj (hM.symm.trans hM')).symm
  subst hMM
  have hlen : (b :: (mb ++ CrcSpec.tail (b :: mb))).length = mb.length + 5 := by
    have h4 : (CrcSpec.tail (b :: mb)).length = 4 := rfl
    rw [List.length_cons, List.length_append, h4]
  obtain ⟨c, M'', h1, h2, hnn, h3, h4⟩ := round_trip E s key M' kb (mb ++ CrcSpec.tail (b :: mb)) b hk hkl hMb
    (by rw [hlen]; simp only [List.length_cons] at hml; omega) hiv
  refine ⟨c, by unfold encryptCRC; rw [hM, R.ok_bind, h1], ?_⟩
  constructor
  · intro hd hb
    obtain ⟨-, hlt⟩ := h4 hb
    rw [IsBytes.byteLen (show IsBytes M' (b :: (mb ++ CrcSpec.tail (b :: mb))) from hMb), hlen] at hlt
    unfold decryptCRC at hd
    rw [h2, R.ok_bind] at hd
    obtain ⟨v, hv, hd⟩ := R.bind_eq_ok.1 hd
    cases v
    · simp at hd; omega
    · simp only [if_true] at hd
      have h4 : 4 ≤ byteLen M'' := by
        by_contra hc
        rw [Crc.validate_short pf' M'' (by omega)] at hv; cases hv
      rw [removeCRC_val M'' h4 (by simp only [List.length_cons] at hml; omega)] at hd
      injection hd with hd
      have hlt' : M''.natAbs < 256 ^ (mb.length + 4) := by
        rw [← byteLen_lt_iff, Int.natAbs_of_nonneg hnn]; omega
      rw [← hm.value] at hd
      have hd' : M''.natAbs / 2 ^ 32 = val (b :: mb) := by exact_mod_cast hd
      rw [pow_add] at hlt'
      have : M''.natAbs / 2 ^ 32 < 256 ^ mb.length := by
        rw [Nat.div_lt_iff_lt_mul (by norm_num)]
        exact hlt'
      omega
  · intro hb
    unfold decryptCRC
    rw [h2, R.ok_bind, h3 hb, hval, R.ok_bind, if_pos rfl]
    exact hrem

example : IsBytes 0x4142 [0x41#8, 0x42#8] ∧ [0x41#8, 0x42#8].length + 4 ≤ pfSlack.usable [0x41#8, 0x42#8].length ∧
    ∃ c, encryptCRC pfSlack tE tiv tkey 0x4142 = .ok c ∧ decryptCRC pfStrict tE tiv tkey c = .ok 0x4142 := by
  refine ⟨⟨by decide, by decide⟩, by decide, 212494483255625, ?_, ?_⟩ <;> decide +kernel

/-- **C49** is false for messages that start with the first keystream byte. -/
theorem C49_counterexample :
    ∃ c, encryptCRC pfSlack tE tiv tkey 0x8042 = .ok c ∧ decryptCRC pfStrict tE tiv tkey c = .ok 0 := by
  refine ⟨290725332830, ?_, ?_⟩ <;> decide +kernel

/-! ## C50 -/

/-- **C50** is false: called in the order of the header, `encrypt` uses the message as key, so that every message of less than
16 bytes makes it read outside a heap block (or use a null key), whatever the key. -/
theorem C50_short_counterexample (E : Cipher) (s : Iv) (key m : ℤ) (hm : byteLen m < 16) :
    Faults (encryptHeader E s key m) := by
  unfold encryptHeader encrypt keyBytes
  rw [← length_getRawMpz] at hm
  simp only
  by_cases h0 : (getRawMpz m).length = 0
  · simp only [if_pos h0, R.error_bind]; exact ⟨_, rfl⟩
  · simp only [if_neg h0, if_pos hm, R.error_bind]; exact ⟨_, rfl⟩

example : byteLen 0x4142 < 16 := by decide +kernel

/-- **C50** is false for longer messages as well: the round trip in header order hands back a masked key instead of the
message. -/
theorem C50_counterexample :
    ∃ c m', encryptHeader tE tiv tkey (0x41 * 2 ^ 120 + 6) = .ok c ∧ decryptHeader tE tiv tkey c = .ok m' ∧ m' ≠ 0x41 * 2 ^ 120 + 6 := by
  refine ⟨256546236287095006276485718029837864464, 86410285927232017350849369709685120026, ?_, ?_, ?_⟩ <;> decide +kernel

/-- **C50**, what is true: in the order of the definition the two calls are inverse to each other wherever C48 holds;
in the order of the header they are if key and message are equal. -/
theorem C50_equal_partial (E : Cipher) (s : Iv) (key : ℤ) (kb : List (BitVec 8)) (b : BitVec 8) (hk : IsBytes key (b :: kb))
    (hkl : 16 ≤ (b :: kb).length) (hml : (b :: kb).length ≤ 128) (hiv : IvReadable s)
    (hb : b ≠ firstKeystreamByte E s (b :: kb)) :
    ∃ c, encryptHeader E s key key = .ok c ∧ decrypt E s c key = .ok key := by
  obtain ⟨c, m', h1, h2, h3⟩ := C48_exact_partial E s key key (b :: kb) kb b hk hkl hk hml hiv
  exact ⟨c, h1, by rw [h2, h3.2 hb]⟩

/-! ## C51 -/

/-- the calls that concern the IV -/
inductive IvOp where
  | initDefault
  | initWith (iv after : List (BitVec 8))

/-- one call -/
def ivOp (s : Iv) : IvOp → Iv
  | .initDefault => init0 s
  | .initWith iv after => init1 s iv after

/-- the last IV set explicitly in a history -/
def lastSet : List IvOp → Option (List (BitVec 8))
  | [] => none
  | .initDefault :: h => lastSet h
  | .initWith iv _ :: h => (lastSet h).or (some iv)

/-- **C51**, what holds: after any history the IV string is the last one set explicitly, and the empty default if none was;
calls of `init()` make no difference.

Missing for the full statement: `init()` does not restore the default (`C51_counterexample`). -/
theorem C51_history_partial (after : List (BitVec 8)) (h : List IvOp) :
    (h.foldl ivOp (ivStart after)).str = (lastSet h).getD defaultStr := by
  have key : ∀ (h : List IvOp) (s : Iv), (h.foldl ivOp s).str = (lastSet h).getD s.str := by
    intro h
    induction h with
    | nil => intro s; rfl
    | cons o h ih =>
      intro s
      cases o with
      | initDefault => exact ih s
      | initWith iv after =>
        rw [List.foldl_cons, ih, lastSet]
        cases lastSet h <;> rfl
  exact key h _

/-- **C51** is false: after an IV has been set, `init()` does not bring back the default, and what was encrypted before can
still be decrypted. -/
theorem C51_counterexample (after : List (BitVec 8)) :
    ∃ h : List IvOp, ((h ++ [IvOp.initDefault]).foldl ivOp (ivStart after)).str ≠ defaultStr :=
  ⟨[.initWith [1#8] []], by change [1#8] ≠ []; simp⟩

/-- **C51**, encryption and decryption with only `init()` calls in between use the same IV. -/
theorem C51_same_iv_partial (s : Iv) (k : ℕ) : (List.replicate k IvOp.initDefault).foldl ivOp s = s := by
  induction k with
  | zero => rfl
  | succ k ih => exact ih

/-- The default IV is the empty string: a machine whose strings have no readable bytes behind the terminator cannot
encrypt or decrypt anything before `init(iv)` was called with at least 15 bytes. -/
theorem C51_default_unreadable_counterexample (E : Cipher) (h : List IvOp) (hh : lastSet h = none) (m key : ℤ) :
    Faults (encrypt E (h.foldl ivOp (ivStart [])) m key) ∧ Faults (decrypt E (h.foldl ivOp (ivStart [])) m key) := by
  have hs : h.foldl ivOp (ivStart []) = ivStart [] := by
    induction h with
    | nil => rfl
    | cons o h ih =>
      cases o with
      | initDefault => exact ih hh
      | initWith iv after => exfalso; simp only [lastSet] at hh; cases hl : lastSet h <;> simp [hl] at hh
  have hi : ivBytes (ivStart []) = .error .oobRead := rfl
  rw [hs]
  refine ⟨?_, ?_⟩
  · unfold encrypt
    rcases hk : keyBytes key with e | k
    · simp only [R.error_bind]; exact ⟨_, rfl⟩
    · simp only [R.ok_bind, hi, R.error_bind]; exact ⟨_, rfl⟩
  · unfold decrypt
    rcases hk : keyBytes key with e | k
    · simp only [R.error_bind]; exact ⟨_, rfl⟩
    · simp only [R.ok_bind, hi, R.error_bind]; exact ⟨_, rfl⟩

example : lastSet [.initDefault, .initDefault] = none := rfl

end Verif
