import Verif.Props.OpprfSampleA
import Verif.Props.OpprfSampleB
import Verif.Props.OpprfSampleD
import Verif.Props.OpprfDebug

/-!
# A concrete evaluation with three equal keys for bit 0

It shows that the hypotheses of `C66_counterexample`, `C54_counterexample` and `C95_form` can be met.
-/

namespace Verif
namespace Opprf
namespace Sample

open Dme Ot Aes EC

/-- the sample draws with `kk .lt` three times for bit 0; the shuffle of the masks is an argument -/
def drawsT (sh : ℕ) : Draws :=
  ⟨⟨2362, 17, (List.range 16).map fun j => if j = 0 then ⟨kk .lt, kk .lt, kk .lt, 1⟩ else ⟨kk .lt, kk .eq, kk .gt, j + 1⟩⟩,
    fun _ => ⟨3, rc⟩, ⟨77, 0, sh⟩, 3⟩

theorem keyT (sh : ℕ) (sy : Ordering) {j : ℕ} (hj : j < 15) : (drawsT sh).key sy (j + 1) = kk sy := by
  have : (drawsT sh).prep.bits.getD (j + 1) ⟨0, 0, 0, 0⟩ = ⟨kk .lt, kk .eq, kk .gt, (j + 1 : ℕ) + 1⟩ := by
    interval_cases j <;> rfl
  rw [Draws.key, this]
  cases sy <;> rfl

theorem keyT0 (sh : ℕ) (sy : Ordering) : (drawsT sh).key sy 0 = kk .lt := by cases sy <;> rfl

/-- the keys of bit 1 seal `kk .lt` -/
def ctT : Ordering → ℤ
  | .gt => 730773300106095973961755070590469144988386983541
  | sy => ct sy .lt

theorem sealT (sy : Ordering) : W.seal (kk sy) (kk .lt) = .ok (ctT sy) := by cases sy <;> decide +kernel

theorem unsealT (sy sy0 : Ordering) : W.unseal (kk sy0) (ctT sy) = .ok (if sy = sy0 then kk .lt else 0) := by
  cases sy <;> cases sy0 <;> decide +kernel

theorem encT (sy : Ordering) : Encodable (ctT sy) := by
  cases sy
  · exact ct_encodable (sy := .lt) (sy' := .lt) (.inr rfl)
  · exact ct_encodable (sy := .eq) (sy' := .lt) (.inl rfl)
  · exact encodable_of _ 2 59791115599078859847899705909910910092659496764314598826165038184398726438063 (by decide) (by decide +kernel)

theorem keysT (sh : ℕ) (sy sy' : Ordering) {j : ℕ} (hj : j < 15) :
    ((drawsT sh).key sy (j + 1) = draws.key sy (j + 1)) ∧ ((drawsT sh).key sy' j = if j = 0 then kk .lt else draws.key sy' j) := by
  refine ⟨by rw [keyT _ _ hj, key_eq _ (by omega)], ?_⟩
  cases j with
  | zero => rw [keyT0, if_pos rfl]
  | succ j => rw [keyT _ _ (by omega), if_neg (by omega), key_eq _ (by omega)]

theorem legibleT (sh : ℕ) {x : Msg} (h : sym x 1000#16 15 = .eq) :
    Legible W (drawsT sh).key x 1000#16 ∧ PathOpens W (drawsT sh).key x 1000#16 := by
  have hl := legible h
  have ho := pathOpens x
  refine ⟨⟨?_, ?_, ?_, ?_⟩, ?_⟩
  · rw [keyT _ _ (j := 14) (by norm_num), h]
    exact eq_encodable
  · intro j hj sy e he
    rw [(keysT sh sy sy hj).1, (keysT sh sy _ hj).2] at he
    split_ifs at he with h0
    · subst h0
      rw [key_eq _ (by omega), sealT] at he
      rw [← Except.ok.inj he]
      exact encT sy
    · exact hl.enc j hj sy e he
  · intro j hj c hc
    rw [(keysT sh _ .lt hj).1, (keysT sh .lt _ hj).2] at hc ⊢
    split_ifs at hc ⊢ with h0
    · subst h0
      rw [key_eq _ (by omega), sealT] at hc
      rw [← Except.ok.inj hc, key_eq _ (by omega), unsealT, if_pos rfl]
      exact .inl rfl
    · exact hl.own j hj c hc
  · intro j hj sy hsy
    rw [(keysT sh _ .lt hj).1, (keysT sh sy .lt hj).1, (keysT sh .lt _ hj).2]
    split_ifs with h0
    · subst h0
      rw [key_eq _ (by omega), key_eq _ (by omega)]
      exact ⟨_, sealT sy, by rw [unsealT, if_neg hsy]⟩
    · exact hl.rejects j hj sy hsy
  · intro j hj
    rw [(keysT sh _ .lt hj).1, (keysT sh .lt _ hj).2]
    split_ifs with h0
    · subst h0
      rw [key_eq _ (by omega)]
      exact ⟨_, sealT _, by rw [unsealT, if_pos rfl]⟩
    · exact ho j hj

theorem payT (sy : Ordering) : ((W.seal (kk .lt) (pay sy)).bind (W.unseal (kk .lt))) = .ok (pay sy) := by
  cases sy <;> decide +kernel

/-- the server after the preparation: `srv1` but for the keys of bit 0 and what seals them -/
def srvT : Server := { srv1 with
  k_eq := kk .lt :: List.replicate 15 (kk .eq), k_gt := kk .lt :: List.replicate 15 (kk .gt)
  Si0 := srv1.Si0.modify 1 fun e => ⟨ctT .lt, ctT .eq, ctT .gt, e.prf⟩
  Si1 := srv1.Si1.modify 1 fun e => ⟨ctT .lt, ctT .eq, ctT .gt, e.prf⟩ }

theorem prepareT (sh : ℕ) : srv0.prepare W (drawsT sh).prep = .ok srvT := by
  change srv0.prepare W (drawsT 0).prep = .ok srvT
  decide +kernel

theorem playT (c : Client) {n : ℕ} (hn : 1 ≤ n) (b : Bool) : play srvT c n b = play srv1 c n b := by
  have h0 : atShort srvT.Si0 ((n + 1 : ℕ) : ℤ) = atShort srv1.Si0 ((n + 1 : ℕ) : ℤ) := by
    simp only [atShort, at', srvT, Int.toNat_natCast, List.getElem?_modify, if_neg (show ¬ 1 = n + 1 by omega)]
    simp
  have h1 : atShort srvT.Si1 ((n + 1 : ℕ) : ℤ) = atShort srv1.Si1 ((n + 1 : ℕ) : ℤ) := by
    simp only [atShort, at', srvT, Int.toNat_natCast, List.getElem?_modify, if_neg (show ¬ 1 = n + 1 by omega)]
    simp
  unfold play Server.runOTRound
  rw [h0, h1]
  split_ifs <;> simp only [bind_assoc] <;> rfl

theorem play_fineT {x : Msg} {n : ℕ} {key key' : ℤ} {p p' : Pt}
    (h : play srvT (cl x key p) n (x.toNat.testBit n) = .ok (key', p', true))
    (hf : ∀ q, FineRounds W draws.rounds x n srvT (cl x key' q)) (q : Pt) :
    FineRounds W draws.rounds x (n + 1) srvT (cl x key q) := by
  intro pk c' m s' h1 h2
  have h1p := start_result (cl x key q) p h1
  unfold play at h
  rw [show cl x key p = { cl x key q with result := p } from rfl, h1p, R.ok_bind] at h
  simp only at h
  rw [h2, R.ok_bind] at h
  simp only at h
  obtain ⟨c2, g3, h⟩ := R.bind_eq_ok.1 h
  obtain ⟨e1, h⟩ := Prod.mk.inj (Except.ok.inj h)
  obtain ⟨e2, e3⟩ := Prod.mk.inj h
  refine ⟨fineB_spec e3, fun c'' hc'' => ?_⟩
  obtain ⟨cc, rfl⟩ := runOTRound_inv h2
  have i0 := finish_result c' p hc'' g3
  have i1 := CCall.frozen (W := W) (c := cl x key q) (c' := c') (k := .start (n + 1 : ℕ) (draws.rounds (n + 1)).sk)
    (by simp only [CCall.run, h1, R.ok_bind])
  have i2 := CCall.frozen (W := W) (c := c') (c' := c'') (k := .finish (n + 1 : ℕ) m) hc''
  have i3 := client_x h1 hc''
  have : c'' = { cl x key' c''.result with otr := c''.otr } := by
    rcases c'' with ⟨a, b, c, d, e⟩
    rw [i0] at e1
    simp only at e1
    subst e1
    obtain ⟨-, j2⟩ := i1
    obtain ⟨-, j4⟩ := i2
    simp only at j4 i3
    subst j4 i3
    rw [j2]
    rfl
  rw [this]
  exact fine_frame (s := srvT) n (ots := { srvT.ots with c := cc }) rfl (c := cl x key' c''.result) (i2.1.trans i1.1) (hf _)

theorem fineT_step {x : Msg} {n : ℕ} {key key' : ℤ} {p p' : Pt} (hn : 1 ≤ n)
    (h : play srv1 (cl x key p) n (x.toNat.testBit n) = .ok (key', p', true))
    (hf : ∀ q, FineRounds W draws.rounds x n srvT (cl x key' q)) (q : Pt) :
    FineRounds W draws.rounds x (n + 1) srvT (cl x key q) := play_fineT ((playT _ hn _).trans h) hf q

theorem aT_0 : play srvT (cl 700 (kk .lt) ap1) 0 false = .ok (kk .lt, ap0, true) := by decide +kernel

theorem bT_0 : play srvT (cl 1001 (kk .eq) bp1) 0 true = .ok (kk .lt, bp0, true) := by decide +kernel

theorem aT_fine (q : Pt) : FineRounds W draws.rounds 700 16 srvT (cl 700 0 q) :=
  (fineT_step (by decide) a_15 <| fineT_step (by decide) a_14 <| fineT_step (by decide) a_13 <| fineT_step (by decide) a_12
  <| fineT_step (by decide) a_11 <| fineT_step (by decide) a_10 <| fineT_step (by decide) a_9 <| fineT_step (by decide) a_8
  <| fineT_step (by decide) a_7 <| fineT_step (by decide) a_6 <| fineT_step (by decide) a_5 <| fineT_step (by decide) a_4
  <| fineT_step (by decide) a_3 <| fineT_step (by decide) a_2 <| fineT_step (by decide) a_1 <| play_fineT aT_0 fun _ => trivial) q

theorem bT_fine (q : Pt) : FineRounds W draws.rounds 1001 16 srvT (cl 1001 0 q) :=
  (fineT_step (by decide) b_15 <| fineT_step (by decide) b_14 <| fineT_step (by decide) b_13 <| fineT_step (by decide) b_12
  <| fineT_step (by decide) b_11 <| fineT_step (by decide) b_10 <| fineT_step (by decide) b_9 <| fineT_step (by decide) b_8
  <| fineT_step (by decide) b_7 <| fineT_step (by decide) b_6 <| fineT_step (by decide) b_5 <| fineT_step (by decide) b_4
  <| fineT_step (by decide) b_3 <| fineT_step (by decide) b_2 <| fineT_step (by decide) b_1 <| play_fineT bT_0 fun _ => trivial) q

theorem twinKeys (sh : ℕ) {x : Msg} (h : x = 700 ∨ x = 1001) :
    TwinKeys W srv0 (Client.ctor (some 1) crs) x (drawsT sh) := by
  have hs : sym x 1000#16 15 = .eq := by rcases h with rfl | rfl <;> decide
  have hm : (drawsT sh).mask' = 50 := by rw [← mask_draw]; rfl
  have hr : (drawsT sh).mask.rnd = 77 := rfl
  have e0 := encodingOf_eq .lt
  have e1 := encodingOf_eq .gt
  simp only [reduceCtorEq, if_true, if_false] at e0 e1
  refine ⟨fun n => by simp [W, pfSlack], by unfold IvReadable; decide, by simp [drawsT], ?_, (legibleT sh hs).1,
    (legibleT sh hs).2, ?_, fun sy => by rw [keyT0, keyT0], ?_, ?_, ?_, ?_, ?_, ?_, by change ¬ CC.order ∣ 3; decide +kernel⟩
  · intro sy j hj
    cases j with
    | zero => rw [keyT0]; exact kk_range _
    | succ j => rw [keyT _ _ (by omega)]; exact kk_range sy
  · intro s' hs'
    rw [prepareT] at hs'
    obtain rfl := Except.ok.inj hs'
    rcases h with rfl | rfl
    · exact aT_fine _
    · exact bT_fine _
  · rw [hm]; decide +kernel
  · rw [hr]; decide +kernel
  · rw [hm, show srv0.curve = some 0 from rfl, e0]; decide +kernel
  · rw [hr, show srv0.curve = some 0 from rfl, e1]; decide +kernel
  · intro e he
    rw [hm, show srv0.curve = some 0 from rfl, e0] at he
    rw [he, keyT0]
    obtain ⟨c, h1, h2⟩ := R.bind_eq_ok.1 (payT .lt)
    exact ⟨c, h1, h2⟩
  · intro e he
    rw [hr, show srv0.curve = some 0 from rfl, e1] at he
    rw [he, keyT0]
    obtain ⟨c, h1, h2⟩ := R.bind_eq_ok.1 (payT .gt)
    exact ⟨c, h1, h2⟩

/-- a client with input 700 completes with a wrong result -/
example : Ends (evaluate W srv0 (Client.ctor (some 1) crs) 700#16 (drawsT 0)) fun r => ¬ EqP W.env CC (.ok r.2.result)
    (do let t ← ga.smulZ W.env CC 700; r.1.kopprf.add W.env CC t) :=
  C66_counterexample parties rfl (by decide) (twinKeys 0 (.inl rfl)) rfl (by
    have hm : (drawsT 0).mask' = 50 := by rw [← mask_draw]; rfl
    rw [hm]
    change ¬ CC.order ∣ 77 - 50
    decide +kernel)

/-- a client with input 1001 gets the value meant for inputs up to 1000 -/
example : Ends (evaluate W srv0 (Client.ctor (some 1) crs) 1001#16 (drawsT 1)) fun r => EqP W.env CC (.ok r.2.result)
    (do let t ← ga.smulZ W.env CC 1001; r.1.kopprf.add W.env CC t) :=
  C54_counterexample parties rfl (by decide) (twinKeys 1 (.inr rfl)) (by decide)

/-- the hypotheses of `C95_form` -/
example : ∃ s' c', evaluate W srv0 (Client.ctor (some 1) crs) 700#16 (drawsT 0) = .ok (s', c') ∧
    ∀ s1, srv0.prepare W (drawsT 0).prep = .ok s1 →
      FinePoints W (drawsT 0).rounds 700#16 16 s1 ((Client.ctor (some 1) crs).setMessage 700#16) := by
  obtain ⟨A, hA⟩ := valid_iff.1 parties.ga
  obtain ⟨s', c', h1, -⟩ := twin_rep parties (twinKeys 0 (.inl rfl)) hA rep_infty
  exact ⟨s', c', h1, fun s1 hs => finePoints_of_fine ((twinKeys 0 (.inl rfl)).fine s1 hs)⟩

/-- the hypotheses of `C95_debug` -/
example : W.env.ndebug = false ∧ srv0.ga.inf = false ∧ FiniteCrs (Client.ctor (some 1) crs).otr.dme.crs ∧
    (drawsT 0).prep.bits.length = 16 :=
  ⟨rfl, rfl, fun b => by cases b <;> exact ⟨rfl, rfl⟩, rfl⟩

end Sample
end Opprf
end Verif
