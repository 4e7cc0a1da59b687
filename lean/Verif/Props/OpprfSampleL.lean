import Verif.Props.OpprfAbortTop
import Verif.Props.OpprfSampleD

/-!
# A concrete evaluation: threshold 1000, input 32768

The input is above the threshold in its highest bit.  It shows that the hypotheses of `C112_top_stops_counterexample` can be
met.
-/

namespace Verif
namespace Opprf
namespace Sample

open Dme Ot Aes EC

theorem gt_encodable : Encodable (kk .gt) :=
  encodable_of _ 1 53037685426845214833281070942392033809789111914932915139402321282461501824923 (by decide) (by decide +kernel)

theorem legible' : Legible W draws.key 32768#16 1000#16 := by
  refine ⟨?_, ?_, ?_, ?_⟩
  · rw [key_eq _ (by norm_num), show sym 32768#16 1000#16 15 = .gt by decide]
    exact gt_encodable
  · intro j hj sy e he
    rw [key_eq _ (by omega), key_eq _ (by omega), seal_eq (follows_next _ _ _ _)] at he
    rw [← Except.ok.inj he]
    exact ct_encodable (follows_next _ _ _ _)
  · intro j hj c hc
    rw [key_eq _ (by omega), key_eq _ (by omega), ← next_sym 32768#16 _ j, seal_eq (follows_next _ _ _ _)] at hc
    rw [key_eq _ (by omega), key_eq _ (by omega), ← next_sym 32768#16 _ j, ← Except.ok.inj hc]
    exact .inl (by rw [unseal_eq (follows_next _ _ _ _), if_pos rfl])
  · intro j hj sy hsy
    rw [key_eq _ (by omega), key_eq _ (by omega), key_eq _ (by omega)]
    exact ⟨_, seal_eq (follows_next _ _ _ _), by rw [unseal_eq (follows_next _ _ _ _), if_neg hsy]⟩

/-- one round without the result -/
def keyOf (n : ℕ) (key : ℤ) (b : Bool) : R (ℤ × Bool) := do
  let r ← play srv1 (cl 32768 key inf) n b
  .ok (r.1, r.2.2)

theorem keyOf_fine {n : ℕ} {key key' : ℤ} (h : keyOf n key ((32768#16).toNat.testBit n) = .ok (key', true))
    (hf : ∀ q, FineRounds W draws.rounds 32768 n srv1 (cl 32768 key' q)) (q : Pt) :
    FineRounds W draws.rounds 32768 (n + 1) srv1 (cl 32768 key q) := by
  unfold keyOf at h
  obtain ⟨⟨k, p, b⟩, h1, h⟩ := R.bind_eq_ok.1 h
  obtain ⟨rfl, rfl⟩ := Prod.mk.inj (Except.ok.inj h)
  exact play_fine h1 hf q

theorem k_15 : keyOf 15 0 true = .ok (kk .gt, true) := by decide +kernel

theorem k_14 : keyOf 14 (kk .gt) false = .ok (kk .gt, true) := by decide +kernel

theorem k_13 : keyOf 13 (kk .gt) false = .ok (kk .gt, true) := by decide +kernel

theorem k_12 : keyOf 12 (kk .gt) false = .ok (kk .gt, true) := by decide +kernel

theorem k_11 : keyOf 11 (kk .gt) false = .ok (kk .gt, true) := by decide +kernel

theorem k_10 : keyOf 10 (kk .gt) false = .ok (kk .gt, true) := by decide +kernel

theorem k_9 : keyOf 9 (kk .gt) false = .ok (kk .gt, true) := by decide +kernel

theorem k_8 : keyOf 8 (kk .gt) false = .ok (kk .gt, true) := by decide +kernel

theorem k_7 : keyOf 7 (kk .gt) false = .ok (kk .gt, true) := by decide +kernel

theorem k_6 : keyOf 6 (kk .gt) false = .ok (kk .gt, true) := by decide +kernel

theorem k_5 : keyOf 5 (kk .gt) false = .ok (kk .gt, true) := by decide +kernel

theorem k_4 : keyOf 4 (kk .gt) false = .ok (kk .gt, true) := by decide +kernel

theorem k_3 : keyOf 3 (kk .gt) false = .ok (kk .gt, true) := by decide +kernel

theorem k_2 : keyOf 2 (kk .gt) false = .ok (kk .gt, true) := by decide +kernel

theorem k_1 : keyOf 1 (kk .gt) false = .ok (kk .gt, true) := by decide +kernel

theorem k_0 : keyOf 0 (kk .gt) false = .ok (kk .gt, true) := by decide +kernel

theorem k_fine (q : Pt) : FineRounds W draws.rounds 32768 16 srv1 (cl 32768 0 q) :=
  (keyOf_fine k_15 <| keyOf_fine k_14 <| keyOf_fine k_13 <| keyOf_fine k_12 <| keyOf_fine k_11 <| keyOf_fine k_10
  <| keyOf_fine k_9 <| keyOf_fine k_8 <| keyOf_fine k_7 <| keyOf_fine k_6 <| keyOf_fine k_5 <| keyOf_fine k_4
  <| keyOf_fine k_3 <| keyOf_fine k_2 <| keyOf_fine k_1 <| keyOf_fine k_0 fun _ => trivial) q

theorem undisturbed' : Undisturbed W srv0 (Client.ctor (some 1) crs) 32768#16 draws := by
  have h := (undisturbed (x := 700#16) (by decide) inf (a_fine _)).1
  refine ⟨⟨h.slack, h.iv, h.bits, h.full, legible', ?_, maskLegible _, h.un⟩, pathOpens _, maskOpens _⟩
  intro s' hs
  obtain rfl : srv1 = s' := Except.ok.inj (prepare_eq.symm.trans hs)
  exact k_fine _

/-- the key `kx` opens none of the sealed keys -/
theorem kx_opens_none (sy sy' : Ordering) : ((W.seal (kk sy) (kk sy')).bind (W.unseal kx)) = .ok 0 := by
  cases sy <;> cases sy' <;> decide +kernel

/-- whether the encryption of `kx` in round 16 is without infinity -/
def kxFine : R Bool := do
  let (pk, r) ← selectMsg W.env (Client.ctor (some 1) crs).otr .b1 3
  let ct ← encZ W.env srv0.ots.dme pk .b1 kx rc.lt1.s rc.lt1.t
  .ok (decide (r.sk.value ≠ 0) && !ct.u.inf && !ct.mv.inf)

theorem kx_fine : kxFine = .ok true := by decide +kernel

theorem kx_encryption (pk : PKey) (r : Recv) (ct : Ctxt) (h : selectMsg W.env (Client.ctor (some 1) crs).otr .b1 3 = .ok (pk, r))
    (h1 : encZ W.env srv0.ots.dme pk .b1 kx rc.lt1.s rc.lt1.t = .ok ct) :
    r.sk.value ≠ 0 ∧ ct.u.inf = false ∧ ct.mv.inf = false := by
  have h2 := kx_fine
  unfold kxFine at h2
  simp only [h, h1, R.ok_bind] at h2
  have h3 := Except.ok.inj h2
  simp only [Bool.and_eq_true, Bool.not_eq_true', decide_eq_true_eq] at h3
  exact ⟨h3.1.1, h3.1.2, h3.2⟩

theorem kx_rejects (sy sy' : Ordering) (e : ℤ) (h : W.seal (draws.key sy 15) (draws.key sy' 14) = .ok e) : W.unseal kx e = .ok 0 := by
  rw [key_eq _ (by norm_num), key_eq _ (by norm_num)] at h
  have := kx_opens_none sy sy'
  rw [h] at this
  exact this

/-- the client with input 32768 stops, the one with input 700 completes -/
example : evaluateWith (spoilTop kx) W srv0 (Client.ctor (some 1) crs) 32768#16 draws = .error (noDecryption W.env) ∧
    (∃ r, evaluateWith (spoilTop kx) W srv0 (Client.ctor (some 1) crs) 700#16 draws = .ok r) ∧
    ∃ s' c', evaluate W srv0 (Client.ctor (some 1) crs) 700#16 draws = .ok (s', c') ∧
      evaluateWith (spoilTop kx) W srv0 (Client.ctor (some 1) crs) 700#16 draws = .ok (spoilTop kx s', c') := by
  have hu : Undisturbed W srv0 (Client.ctor (some 1) crs) 700#16 draws := undisturbed (by decide) _ (a_fine _)
  refine ⟨C112_top_stops_counterexample parties undisturbed' (by decide) (by decide +kernel) (by decide +kernel) encX.1 kx_rejects
      kx_encryption,
    (C112_top_counterexample parties hu (by decide +kernel) (by decide +kernel) encX.1 kx_rejects kx_encryption).2 (by decide), ?_⟩
  obtain ⟨A, hA⟩ := valid_iff.1 parties.ga
  obtain ⟨R0, hR⟩ := valid_iff.1 parties.result
  obtain ⟨s', c', h, -⟩ := evaluate_ok parties hu hA hR
  exact ⟨s', c', h, C112_top_completes_counterexample parties h (by decide) kx⟩

end Sample
end Opprf
end Verif
