import Verif.Props.CrcMore
import Verif.Props.AesMore
import Verif.Lemmas.CrcSix

/-!
# C107: seven flipped bits
-/

namespace Verif

open Crc Utils CrcSpec BytesSpec Aes

theorem six_bits {l : List ℕ} (hn : l.Nodup) (h6 : l.length = 6) (hl : ∀ a ∈ l, 0 < a ∧ a ≤ 208) : steps l ≠ 0#32 := by
  have hp := List.perm_insertionSort (· ≤ ·) l
  have hs := List.pairwise_insertionSort (· ≤ ·) l
  have hn' := hp.nodup_iff.2 hn
  have hl' : ∀ a ∈ l.insertionSort (· ≤ ·), 0 < a ∧ a ≤ 208 := fun a ha => hl a (hp.subset ha)
  have h6' := hp.length_eq
  rw [← steps_perm hp]
  generalize l.insertionSort (· ≤ ·) = L at *
  rw [h6] at h6'
  match L, h6' with
  | [o, a, b, c, d, e], _ =>
    simp only [List.pairwise_cons, List.nodup_cons, List.mem_cons, List.not_mem_nil, or_false, forall_eq_or_imp,
      forall_eq, not_or] at hs hn' hl'
    intro h
    have k : stepBit^[o] (stepBit^[e - o] 1#32 ^^^ stepBit^[d - o] 1#32 ^^^ stepBit^[c - o] 1#32 ^^^ stepBit^[b - o] 1#32 ^^^
        stepBit^[a - o] 1#32 ^^^ 1#32) = 0#32 := by
      simp only [stepBit_iter_xor, ← Function.iterate_add_apply]
      rw [show o + (a - o) = a by omega, show o + (b - o) = b by omega, show o + (c - o) = c by omega,
        show o + (d - o) = d by omega, show o + (e - o) = e by omega, ← h]
      simp only [steps, List.foldr_cons, List.foldr_nil, BitVec.xor_zero]
      ac_rfl
    have z : stepBit^[o] 0#32 = 0#32 := Function.iterate_fixed stepBit_zero o
    exact six_steps (a := a - o) (b := b - o) (c := c - o) (d := d - o) (e := e - o) (by omega) (by omega) (by omega) (by omega)
      (by omega) (by omega) (stepBit_inj.iterate o (k.trans z.symm))

/-- **C107**: checksummed integers of up to 26 bytes differ from each other in at least eight bits: up to seven flipped bits
are never accepted. -/
theorem C107_seven_flips (pf pf' : Platform) (m m' : ℕ) (hne : m ≠ m') (hm : byteLen m ≤ 26) (hm' : byteLen m' ≤ 26)
    (hv : validateCRC pf m = .ok true) (hfew : (Nat.digits 2 (m ^^^ m')).sum ≤ 7) :
    validateCRC pf' m' ≠ .ok true ∧ (4 ≤ byteLen m' → validateCRC pf' m' = .ok false) := by
  by_cases h3 : (Nat.digits 2 (m ^^^ m')).sum ≤ 5
  · exact C104_five_flips pf pf' m m' hne (by omega) (by omega) hv h3
  by_cases h5 : (Nat.digits 2 (m ^^^ m')).sum % 2 = 1
  · exact C58_odd_flips pf pf' m m' (by omega) (by omega) hv h5
  have h6 : ones (m ^^^ m') = 6 := by
    have : ones (m ^^^ m') = (Nat.digits 2 (m ^^^ m')).sum := rfl
    omega
  apply invalid_of_residue pf' _ (by omega)
  intro h0
  have hx : residue (m ^^^ m') = 0#32 := by rw [residue_xor, h0, valid_residue pf m (by omega) hv]; decide
  have hd : m ^^^ m' < 2 ^ (8 * 26) := Nat.xor_lt_two_pow (size_of_byteLen hm) (size_of_byteLen hm')
  obtain ⟨l, l1, l2, l3, l4⟩ := bits_of (m ^^^ m')
  have hbit : ∀ k ∈ l, k < 8 * 26 := by
    intro k hk
    by_contra hc
    have : (m ^^^ m') < 2 ^ k := lt_of_lt_of_le hd (Nat.pow_le_pow_right (by norm_num) (by omega))
    have := l3 k hk
    rw [Nat.testBit_lt_two_pow ‹_›] at this
    cases this
  rw [l4, residue_steps] at hx
  refine six_bits (l1.map fun i j h => depth_inj i j h) (by rw [List.length_map, l2, h6]) ?_ hx
  intro a ha
  obtain ⟨i, hi, rfl⟩ := List.mem_map.1 ha
  have := hbit i hi
  unfold depth
  omega

/-- six flipped bits -/
example : validateCRC pfSlack (4353911794 ^^^ 63 : ℕ) = .ok false :=
  (C107_seven_flips pfSlack pfSlack 4353911794 (4353911794 ^^^ 63) (by decide) (by decide +kernel) (by decide +kernel)
    (by decide +kernel) (by decide +kernel)).2 (by decide +kernel)

/-- The number of flips in **C107** is sharp: in integers of ten bytes or more eight flipped bits can go unnoticed.  For the
number of bytes see `C104_flips_sharp`. -/
theorem C107_flips_sharp (pf pf' : Platform) (m : ℕ) (hm : byteLen m < 2 ^ 32 + 4) (h10 : 10 ≤ byteLen m)
    (hm' : byteLen (m ^^^ (2 ^ 6 ^^^ 2 ^ 7 ^^^ 2 ^ 11 ^^^ 2 ^ 21 ^^^ 2 ^ 61 ^^^ 2 ^ 64 ^^^ 2 ^ 72 ^^^ 2 ^ 76) : ℕ) = byteLen m)
    (hv : validateCRC pf m = .ok true) :
    (Nat.digits 2 (2 ^ 6 ^^^ 2 ^ 7 ^^^ 2 ^ 11 ^^^ 2 ^ 21 ^^^ 2 ^ 61 ^^^ 2 ^ 64 ^^^ 2 ^ 72 ^^^ 2 ^ 76)).sum = 8 ∧
    validateCRC pf' (m ^^^ (2 ^ 6 ^^^ 2 ^ 7 ^^^ 2 ^ 11 ^^^ 2 ^ 21 ^^^ 2 ^ 61 ^^^ 2 ^ 64 ^^^ 2 ^ 72 ^^^ 2 ^ 76) : ℕ) = .ok true :=
  ⟨by decide +kernel, unseen pf pf' m _ (by decide +kernel) hm (by omega) (by omega) hv⟩

example : validateCRC pfSlack (611592829866094393720778 ^^^ (2 ^ 6 ^^^ 2 ^ 7 ^^^ 2 ^ 11 ^^^ 2 ^ 21 ^^^ 2 ^ 61 ^^^ 2 ^ 64 ^^^ 2 ^ 72 ^^^ 2 ^ 76) : ℕ) = .ok true :=
  (C107_flips_sharp pfSlack pfSlack 611592829866094393720778 (by decide +kernel) (by decide +kernel) (by decide +kernel) (by decide +kernel)).2

theorem decrypt_len (E : Cipher) (s : Iv) (key c M : ℤ) (hc : byteLen c ≤ 128) (h : decrypt E s c key = .ok M) :
    byteLen M ≤ byteLen c := by
  obtain ⟨k, iv, -, -, rfl⟩ := decrypt_raw E s c key M hc h
  rw [IsBytes.byteLen (isBytes_dropWhile _), ← length_getRawMpz c]
  refine (length_dropWhile_le' _ _).trans ?_
  rw [mask_length]

/-- **C107** for ciphertexts, for instance those of the keys in the tables of the OPPRF: an accepted ciphertext of up to 26
bytes altered in at most seven bits, its length unchanged, is not accepted. -/
theorem C107_decryptCRC (pf pf' : Platform) (E : Cipher) (s : Iv) (key : ℤ) (c c' : ℕ) (m v : ℤ) (hc : byteLen c ≤ 26)
    (hm0 : m ≠ 0) (hacc : decryptCRC pf E s key c = .ok m) (hl : byteLen c' = byteLen c) (hne : c ≠ c')
    (hfew : (Nat.digits 2 (c ^^^ c')).sum ≤ 7) (hv : decryptCRC pf' E s key c' = .ok v) : v = 0 := by
  by_contra hv0
  obtain ⟨M, hM, h128, h4, hval, hres, -⟩ := accepted pf E s key c m hm0 hacc
  obtain ⟨M', hM', h128', h4', hval', hres', -⟩ := accepted pf' E s key c' v hv0 hv
  have hcc : c ^^^ (c ^^^ c') = c' := by rw [← Nat.xor_assoc, Nat.xor_self, Nat.zero_xor]
  have hx := decrypt_xor E s key c (c ^^^ c') M (by omega) (by rw [hcc]; exact hl) hM
  rw [hcc, hM'] at hx
  have hMM : M' = M ^^^ (c ^^^ c') := by exact_mod_cast Except.ok.inj hx
  have hxM : M ^^^ M' = c ^^^ c' := by rw [hMM, ← Nat.xor_assoc, Nat.xor_self, Nat.zero_xor]
  refine (C107_seven_flips pf pf' M M' ?_ ?_ ?_ hval (by rw [hxM]; exact hfew)).1 hval'
  · intro h
    rw [← h, Nat.xor_self] at hxM
    exact hne (by simpa [Nat.xor_assoc] using (congrArg (· ^^^ c') hxM).symm)
  · exact (decrypt_len E s key _ _ (by omega) hM).trans hc
  · exact (decrypt_len E s key _ _ (by omega) hM').trans (by omega)

example (v : ℤ) (hv : decryptCRC pfStrict tE tiv tkey (212494483255625 ^^^ 63 : ℕ) = .ok v) : v = 0 :=
  C107_decryptCRC pfStrict pfStrict tE tiv tkey 212494483255625 (212494483255625 ^^^ 63) 0x4142 v (by decide +kernel) (by decide)
    (by decide +kernel) (by decide +kernel) (by decide) (by decide +kernel) hv

end Verif
