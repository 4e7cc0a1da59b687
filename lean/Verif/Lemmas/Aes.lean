import Verif.Model.Aes
import Verif.Lemmas.Utilities
import Verif.Lemmas.CrcErrors

/-!
# The AES wrapper
-/

namespace Verif
namespace Aes

open BytesSpec Utils

/-- bytes combined with a keystream -/
def mask (ks : ℕ → Byte) (l : List Byte) : List Byte := l.mapIdx fun i b => b ^^^ ks i

theorem mask_length (ks : ℕ → Byte) (l : List Byte) : (mask ks l).length = l.length := by simp [mask]

theorem mask_mask (ks : ℕ → Byte) (l : List Byte) : mask ks (mask ks l) = l := by
  apply List.ext_getElem
  · simp [mask]
  · intro i h1 h2
    simp [mask, BitVec.xor_assoc]

theorem mask_cons (ks : ℕ → Byte) (b : Byte) (l : List Byte) :
    mask ks (b :: l) = (b ^^^ ks 0) :: mask (fun i => ks (i + 1)) l := by
  simp [mask, List.mapIdx_cons]

theorem update_ok (ks : ℕ → Byte) (l : List Byte) (h : l.length ≤ 128) : update ks l l.length = .ok (mask ks l) := by
  have hi : toInt32 l.length = (l.length : ℤ) := by
    unfold toInt32
    rw [Nat.mod_eq_of_lt (by omega), if_pos (by omega)]
  unfold update
  simp only [hi]
  rw [if_neg (by omega), if_neg (by omega), Int.toNat_natCast, List.take_length]
  rfl

theorem keyBytes_ok (key : ℤ) (kb : List Byte) (hk : IsBytes key kb) (hl : 16 ≤ kb.length) :
    keyBytes key = .ok (kb.take 16) := by
  unfold keyBytes
  simp only [IsBytes.raw hk]
  rw [if_neg (by omega), if_neg (by omega)]

theorem ivBytes_ok (s : Iv) (h : 16 ≤ (s.str ++ 0#8 :: s.after).length) :
    ivBytes s = .ok ((s.str ++ 0#8 :: s.after).take 16) := by
  unfold ivBytes
  simp only [if_pos h]

/-- the keystream used with a key and an IV -/
def stream (E : Cipher) (s : Iv) (kb : List Byte) : ℕ → Byte := E (kb.take 16) ((s.str ++ 0#8 :: s.after).take 16)

theorem encrypt_ok (E : Cipher) (s : Iv) (key m : ℤ) (kb mb : List Byte) (hk : IsBytes key kb) (hkl : 16 ≤ kb.length)
    (hm : IsBytes m mb) (hml : mb.length ≤ 128) (hiv : 16 ≤ (s.str ++ 0#8 :: s.after).length) :
    encrypt E s m key = .ok (setRawMpz (mask (stream E s kb) mb)) := by
  unfold encrypt
  simp only [IsBytes.raw hm, keyBytes_ok key kb hk hkl, ivBytes_ok s hiv, R.ok_bind, update_ok _ mb hml]
  rfl

theorem decrypt_ok (E : Cipher) (s : Iv) (key m : ℤ) (kb mb : List Byte) (hk : IsBytes key kb) (hkl : 16 ≤ kb.length)
    (hm : IsBytes m mb) (hml : mb.length ≤ 128) (hiv : 16 ≤ (s.str ++ 0#8 :: s.after).length) :
    decrypt E s m key = .ok (setRawMpz (mask (stream E s kb) mb)) := by
  unfold decrypt
  simp only [IsBytes.raw hm, keyBytes_ok key kb hk hkl, ivBytes_ok s hiv, R.ok_bind, update_ok _ mb hml]
  rfl

theorem length_dropWhile_le' (p : Byte → Bool) (l : List Byte) : (l.dropWhile p).length ≤ l.length :=
  (List.dropWhile_sublist p).length_le

theorem isBytes_dropWhile (l : List Byte) : IsBytes (setRawMpz l) (l.dropWhile (· == 0#8)) := by
  have h := exists_bytes (setRawMpz l) (by rw [setRawMpz_val]; positivity)
  have e : getRawMpz (setRawMpz l) = l.dropWhile (· == 0#8) := by
    rw [setRawMpz_val, getRawMpz_eq, Int.natAbs_natCast]
    exact digits_val l
  rwa [e] at h

/-- the round trip: what comes back, and when it is the message -/
theorem round_trip (E : Cipher) (s : Iv) (key m : ℤ) (kb mb : List Byte) (b : Byte) (hk : IsBytes key kb)
    (hkl : 16 ≤ kb.length) (hm : IsBytes m (b :: mb)) (hml : (b :: mb).length ≤ 128)
    (hiv : 16 ≤ (s.str ++ 0#8 :: s.after).length) :
    ∃ c m', encrypt E s m key = .ok c ∧ decrypt E s c key = .ok m' ∧ 0 ≤ m' ∧
      (b ≠ stream E s kb 0 → m' = m) ∧ (b = stream E s kb 0 → m' < m ∧ byteLen m' < byteLen m) := by
  have hb0 : b ≠ 0#8 := by simpa using hm.head
  have hc := isBytes_dropWhile (mask (stream E s kb) (b :: mb))
  have hlen : (List.dropWhile (· == 0#8) (mask (stream E s kb) (b :: mb))).length ≤ (b :: mb).length :=
    (length_dropWhile_le' _ _).trans (mask_length _ _).le
  refine ⟨_, _, encrypt_ok E s key m kb _ hk hkl hm hml hiv, decrypt_ok E s key _ kb _ hk hkl hc (hlen.trans hml) hiv,
    ?_, ?_, ?_⟩
  · rw [setRawMpz_val]; positivity
  · intro hb
    have : (mask (stream E s kb) (b :: mb)).dropWhile (· == 0#8) = mask (stream E s kb) (b :: mb) := by
      rw [mask_cons, List.dropWhile_cons_of_neg]
      simpa using fun h => hb (BitVec.xor_eq_zero_iff.1 h)
    rw [this, mask_mask, setRawMpz_val, hm.value]
  · intro hb
    have h1 : (mask (stream E s kb) (List.dropWhile (· == 0#8) (mask (stream E s kb) (b :: mb)))).length ≤ mb.length := by
      rw [mask_length, mask_cons, ← hb, BitVec.xor_self, List.dropWhile_cons_of_pos (by simp)]
      exact (length_dropWhile_le' _ _).trans (mask_length _ _).le
    have h2 := val_lt (mask (stream E s kb) (List.dropWhile (· == 0#8) (mask (stream E s kb) (b :: mb))))
    have h3 := val_ge b mb hb0
    have h4 := Nat.pow_le_pow_right (show 0 < 256 by norm_num) h1
    constructor
    · rw [← hm.value, setRawMpz_val]
      have := (h2.trans_le h4).trans_le h3
      exact_mod_cast this
    · have hc' := isBytes_dropWhile (mask (stream E s kb) (List.dropWhile (· == 0#8) (mask (stream E s kb) (b :: mb))))
      rw [IsBytes.byteLen hm, IsBytes.byteLen hc']
      exact Nat.lt_succ_of_le ((length_dropWhile_le' _ _).trans h1)

end Aes
end Verif
