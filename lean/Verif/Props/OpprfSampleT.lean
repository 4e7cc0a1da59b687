import Verif.Props.OpprfTrapdoor
import Verif.Props.OpprfSample

/-!
# Two concrete evaluations with a decryption-mode CRS

Threshold 1000, inputs 700 and 40, the trapdoor 2.  They show that the hypotheses of C114 can be met.
-/

namespace Verif
namespace Opprf
namespace Sample
namespace Trap

open Dme Ot Aes EC

/-- the instance of the client, made with the draws 2, 5, 3 -/
def dT : Inst := ⟨some 1, some .dec, fn 0, fn 0, fn 2, ⟨⟨fp 36794669340896883012101473439538929759152396476648692591795318194054580155373, fp
  101659946828913883886577915207667153874746613498030835602133042203824767462820, false, some 1⟩, ⟨fp
  93611846365601674425599200647886473617443872040541410036779615417472400060991, fp
  61299672808462629900136024686264045542397545919962042795596947287593974695795, false, some 1⟩, ⟨fp
  108677532895904936863904823330600106055145041255062888673713681538132314135903, fp
  82195926338128401624329850334826772981689991100719104119047727086732126146358, false, some 1⟩, ⟨fp
  29229928509209508022722298884861436545811339891030067715552960773686703962275, fp
  51049454920635170512287850003431168478519894855087552426173126725642166898522, false, some 1⟩⟩⟩

theorem dT_eq : ctorDec W.env (some 1) ⟨2, 5, 3⟩ = .ok dT := by decide +kernel

/-- the sender of the server, made with the CRS of the client -/
def otsT : Sndr := ⟨ctorCrs (some 0) dT.crs, []⟩

def srvT0 : Server := { srv0 with ots := otsT }
def srvT1 : Server := { srv1 with ots := otsT }

theorem prepareT : srvT0.prepare W draws.prep = .ok srvT1 := by
  have h := prepare_frame (W := W) srv0 otsT srv0.Sl0 srv0.Sl1 draws.prep
  rw [prepare_eq] at h
  exact h

/-- the client: it uses the instance itself, not a copy made from its CRS -/
def clT : Client := { Client.ctor (some 1) dT.crs with otr := Recv.ctor dT }

def clTx (x : Msg) (key : ℤ) (q : Pt) : Client := { clT with x := some x, key := key, result := q }

/-- the draws of the rounds of an honest client with input `x` -/
def rdT (x : Msg) : ℕ → RoundDraws := fun j => ⟨if x.toNat.testBit (j - 1) then 3 else 6, rc⟩

/-- one round: the client's next key, and whether all ciphertexts were fine -/
def keyT (x : Msg) (n : ℕ) (key : ℤ) : R (ℤ × Bool) := do
  let (pk, c) ← (clTx x key inf).start W (n + 1 : ℕ) (rdT x (n + 1)).sk
  let (m, _) ← srvT1.runOTRound W (n + 1 : ℕ) pk rc
  let c' ← c.finish W (n + 1 : ℕ) m
  .ok (c'.key, fineB c m (x.toNat.testBit n))

theorem keyT_fine {x : Msg} {n : ℕ} {key key' : ℤ} (h : keyT x n key = .ok (key', true))
    (hf : ∀ q, FineRounds W (rdT x) x n srvT1 (clTx x key' q)) (q : Pt) :
    FineRounds W (rdT x) x (n + 1) srvT1 (clTx x key q) := by
  intro pk c' m s' h1 h2
  have h1p := start_result (clTx x key q) inf h1
  unfold keyT at h
  rw [show clTx x key inf = { clTx x key q with result := inf } from rfl, h1p, R.ok_bind] at h
  simp only at h
  replace h2 : srvT1.runOTRound W (n + 1 : ℕ) pk rc = .ok (m, s') := h2
  rw [h2, R.ok_bind] at h
  simp only at h
  obtain ⟨c2, g3, h⟩ := R.bind_eq_ok.1 h
  obtain ⟨e1, e3⟩ := Prod.mk.inj (Except.ok.inj h)
  refine ⟨fineB_spec e3, fun c'' hc'' => ?_⟩
  obtain ⟨cc, rfl⟩ := runOTRound_inv h2
  have i0 := finish_result c' inf hc'' g3
  have i1 := CCall.frozen (W := W) (c := clTx x key q) (c' := c') (k := .start (n + 1 : ℕ) (rdT x (n + 1)).sk)
    (by simp only [CCall.run, h1, R.ok_bind])
  have i2 := CCall.frozen (W := W) (c := c') (c' := c'') (k := .finish (n + 1 : ℕ) m) hc''
  have i3 := client_x h1 hc''
  have : c'' = { clTx x key' c''.result with otr := c''.otr } := by
    rcases c'' with ⟨a, b, c, d, e⟩
    rw [i0] at e1
    simp only at e1
    subst e1
    obtain ⟨-, j2⟩ := i1
    obtain ⟨-, j4⟩ := i2
    simp only at j4 i3
    subst j4 i3
    rw [j2]
    rfl
  rw [this]
  exact fine_frame (s := srvT1) n (ots := { srvT1.ots with c := cc }) rfl (c := clTx x key' c''.result) (i2.1.trans i1.1) (hf _)

theorem p_15 : keyT 700 15 0 = .ok (kk .eq, true) := by decide +kernel

theorem p_14 : keyT 700 14 (kk .eq) = .ok (kk .eq, true) := by decide +kernel

theorem p_13 : keyT 700 13 (kk .eq) = .ok (kk .eq, true) := by decide +kernel

theorem p_12 : keyT 700 12 (kk .eq) = .ok (kk .eq, true) := by decide +kernel

theorem p_11 : keyT 700 11 (kk .eq) = .ok (kk .eq, true) := by decide +kernel

theorem p_10 : keyT 700 10 (kk .eq) = .ok (kk .eq, true) := by decide +kernel

theorem p_9 : keyT 700 9 (kk .eq) = .ok (kk .eq, true) := by decide +kernel

theorem p_8 : keyT 700 8 (kk .eq) = .ok (kk .lt, true) := by decide +kernel

theorem p_7 : keyT 700 7 (kk .lt) = .ok (kk .lt, true) := by decide +kernel

theorem p_6 : keyT 700 6 (kk .lt) = .ok (kk .lt, true) := by decide +kernel

theorem p_5 : keyT 700 5 (kk .lt) = .ok (kk .lt, true) := by decide +kernel

theorem p_4 : keyT 700 4 (kk .lt) = .ok (kk .lt, true) := by decide +kernel

theorem p_3 : keyT 700 3 (kk .lt) = .ok (kk .lt, true) := by decide +kernel

theorem p_2 : keyT 700 2 (kk .lt) = .ok (kk .lt, true) := by decide +kernel

theorem p_1 : keyT 700 1 (kk .lt) = .ok (kk .lt, true) := by decide +kernel

theorem p_0 : keyT 700 0 (kk .lt) = .ok (kk .lt, true) := by decide +kernel

theorem r_15 : keyT 40 15 0 = .ok (kk .eq, true) := by decide +kernel

theorem r_14 : keyT 40 14 (kk .eq) = .ok (kk .eq, true) := by decide +kernel

theorem r_13 : keyT 40 13 (kk .eq) = .ok (kk .eq, true) := by decide +kernel

theorem r_12 : keyT 40 12 (kk .eq) = .ok (kk .eq, true) := by decide +kernel

theorem r_11 : keyT 40 11 (kk .eq) = .ok (kk .eq, true) := by decide +kernel

theorem r_10 : keyT 40 10 (kk .eq) = .ok (kk .eq, true) := by decide +kernel

theorem r_9 : keyT 40 9 (kk .eq) = .ok (kk .lt, true) := by decide +kernel

theorem r_8 : keyT 40 8 (kk .lt) = .ok (kk .lt, true) := by decide +kernel

theorem r_7 : keyT 40 7 (kk .lt) = .ok (kk .lt, true) := by decide +kernel

theorem r_6 : keyT 40 6 (kk .lt) = .ok (kk .lt, true) := by decide +kernel

theorem r_5 : keyT 40 5 (kk .lt) = .ok (kk .lt, true) := by decide +kernel

theorem r_4 : keyT 40 4 (kk .lt) = .ok (kk .lt, true) := by decide +kernel

theorem r_3 : keyT 40 3 (kk .lt) = .ok (kk .lt, true) := by decide +kernel

theorem r_2 : keyT 40 2 (kk .lt) = .ok (kk .lt, true) := by decide +kernel

theorem r_1 : keyT 40 1 (kk .lt) = .ok (kk .lt, true) := by decide +kernel

theorem r_0 : keyT 40 0 (kk .lt) = .ok (kk .lt, true) := by decide +kernel

theorem p_fine (q : Pt) : FineRounds W (rdT 700) 700 16 srvT1 (clTx 700 0 q) :=
  (keyT_fine p_15 <| keyT_fine p_14 <| keyT_fine p_13 <| keyT_fine p_12 <| keyT_fine p_11 <| keyT_fine p_10 <| keyT_fine p_9 <|
  keyT_fine p_8 <| keyT_fine p_7 <| keyT_fine p_6 <| keyT_fine p_5 <| keyT_fine p_4 <| keyT_fine p_3 <| keyT_fine p_2 <| keyT_fine p_1 <| keyT_fine p_0 <| fun _ => trivial) q

theorem r_fine (q : Pt) : FineRounds W (rdT 40) 40 16 srvT1 (clTx 40 0 q) :=
  (keyT_fine r_15 <| keyT_fine r_14 <| keyT_fine r_13 <| keyT_fine r_12 <| keyT_fine r_11 <| keyT_fine r_10 <| keyT_fine r_9 <|
  keyT_fine r_8 <| keyT_fine r_7 <| keyT_fine r_6 <| keyT_fine r_5 <| keyT_fine r_4 <| keyT_fine r_3 <| keyT_fine r_2 <| keyT_fine r_1 <| keyT_fine r_0 <| fun _ => trivial) q

end Trap
end Sample
end Opprf
end Verif
