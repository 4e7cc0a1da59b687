import Verif.Props.OpprfSample
import Verif.Props.OpprfSetup

/-!
# The sample session and the setup properties C63 to C65
-/

namespace Verif
namespace Opprf
namespace Sample

open Dme Ot Aes EC

/-- the sample draws, except that one of the keys of bit 3 is `k` -/
def oneKey (k : ℤ) : PrepCoins :=
  ⟨2362, 17, (List.range 16).map fun j => ⟨kk .lt, if j = 3 then k else kk .eq, kk .gt, j + 1⟩⟩

theorem kk_lo (sy : Ordering) : 2 ^ 120 ≤ kk sy := by cases sy <;> decide +kernel

theorem oneKey_key {k : ℤ} {b : BitCoins} (hb : b ∈ (oneKey k).bits) (sy : Ordering) : b.key sy = k ∨ b.key sy = kk sy := by
  obtain ⟨j, -, rfl⟩ := List.mem_map.1 hb
  cases sy
  · exact .inr rfl
  · change (if j = 3 then k else kk .eq) = k ∨ (if j = 3 then k else kk .eq) = kk .eq
    split_ifs
    · exact .inl rfl
    · exact .inr rfl
  · exact .inr rfl

/-- the hypotheses of `C63_prepare_exact`, with draws that let the preparation complete and draws that do not -/
example (k : ℤ) (hk : 0 ≤ k ∧ k < 2 ^ 128) :
    Ends (srv0.prepare W (oneKey k)) (fun _ => True) ↔ 2 ^ 120 ≤ k := by
  rw [C63_prepare_exact (W := W) (s := srv0) liveGen0 parties.ga ⟨rfl, rfl, rfl, rfl⟩ rfl rfl
    (by unfold IvReadable; decide) (fun n => by simp [W, pfSlack]) (oneKey k) (by simp [oneKey])]
  · constructor
    · intro h
      exact (h _ _ rfl).2 ⟨kk .lt, k, kk .gt, 4⟩ (by simp [List.range_succ]) .eq
    · intro h b0 bs e
      refine ⟨fun sy => ?_, fun b hb sy => ?_⟩
      · have h0 := kk_lo sy
        have h1 : (1 : ℤ) ≤ 2 ^ 120 := by norm_num
        rcases oneKey_key (show b0 ∈ (oneKey k).bits by rw [e]; simp) sy with h | h <;> omega
      · have h0 := kk_lo sy
        rcases oneKey_key (show b ∈ (oneKey k).bits by rw [e]; simp [hb]) sy with h | h <;> omega
  · intro b hb sy
    rcases oneKey_key hb sy with h | h
    · rwa [h]
    · rw [h]
      exact ⟨(by norm_num : (0:ℤ) ≤ 2 ^ 120).trans (kk_lo sy), (kk_range sy).2⟩

/-- the hypotheses of `C64_fresh_partial` -/
example : srv0.prepare W draws.prep = .ok srv1 ∧ (srv0.k_lt = [] ∧ srv0.k_eq = [] ∧ srv0.k_gt = [] ∧ srv0.ok = []) ∧
    srv1.k_eq = draws.prep.bits.map BitCoins.eq := ⟨prepare_eq, ⟨rfl, rfl, rfl, rfl⟩, rfl⟩

/-- other keys for a second preparation -/
def again : PrepCoins :=
  ⟨5, 6, (List.range 16).map fun j => ⟨2 ^ 124 + j, 2 ^ 125 + j, 2 ^ 126 + j, j + 3⟩⟩

/-- the hypotheses of `C64_stale_counterexample`: a second preparation with other draws completes -/
example : ∃ s, srv0.prepare W draws.prep = .ok srv1 ∧ srv1.prepare W again = .ok s := by
  have : (match srv1.prepare W again with | .ok _ => true | .error _ => false) = true := by decide +kernel
  cases h : srv1.prepare W again with
  | ok s => exact ⟨s, prepare_eq, rfl⟩
  | error e => rw [h] at this; simp at this

/-- the hypotheses of `C65_client` for a client with a message, and a defined and an undefined round -/
example (coin : ℤ) :
    Ends (((Client.ctor (some 1) crs).setMessage 700).start W 32 coin) (fun _ => True) ∧
    ¬ Ends (((Client.ctor (some 1) crs).setMessage 700).start W 0 coin) (fun _ => True) ∧
    ¬ Ends ((Client.ctor (some 1) crs).start W 16 coin) (fun _ => True) := by
  have h := fun c hl hc n => (C65_client (W := W) (c := c) hl hc n coin).1
  let c1 := Client.ctor (some 1) crs
  refine ⟨(h (c1.setMessage 700) liveGen1.live parties.ready.crs _).2 ⟨by simp [Client.setMessage], by norm_num, by norm_num⟩, fun e => ?_, fun e => ?_⟩
  · have := ((h (c1.setMessage 700) liveGen1.live parties.ready.crs _).1 e).2.1
    norm_num at this
  · exact ((h c1 liveGen1.live parties.ready.crs _).1 e).1 rfl

/-- the hypotheses of `C65_server` for a server with a history -/
example {pk : PKey} (hk : ValidKey W.env pk) (k : RoundCoins) :
    ∃ s0, Server.ctor W.env (some 0) 1000#16 crs 3 = .ok s0 ∧
      runAll (SCall.run W) s0 [.secret ga, .prepare draws.prep] = .ok srv1 ∧
      Ends (srv1.runOTRound W 16 pk k) (fun _ => True) ∧ Ends (srv1.runOTRound W 0 pk k) (fun _ => True) ∧
      ¬ Ends (srv1.runOTRound W 17 pk k) (fun r => ∃ ots, r.2 = { srv1 with ots := ots }) := by
  obtain ⟨s0, h1, h2⟩ := R.bind_eq_ok.1 ctor_eq
  have h3 : runAll (SCall.run W) s0 [.secret ga, .prepare draws.prep] = .ok srv1 := by
    have h2 : s0.setSecret W.env ga = .ok (ga, srv0) := h2
    simp only [runAll, SCall.run, h2, R.ok_bind, prepare_eq]
  have h := fun n => C65_server (W := W) (a := some 0) liveGen0 (crs := crs) crs_on h1 [.secret ga, .prepare draws.prep] (by
    intro g hg
    simp only [List.mem_cons, SCall.secret.injEq, List.not_mem_nil, or_false, reduceCtorEq] at hg
    rw [hg]
    exact onCurve_of _ rfl (by decide +kernel) (by decide +kernel) (by decide +kernel)) h3 hk n k
  refine ⟨s0, h1, h3, ?_, ?_, fun e => ?_⟩
  · obtain ⟨r, hr, -⟩ := (h 16).2 ⟨by norm_num, by norm_num⟩
    exact ⟨r, hr, trivial⟩
  · obtain ⟨r, hr, -⟩ := (h 0).2 ⟨by norm_num, by norm_num⟩
    exact ⟨r, hr, trivial⟩
  · have := ((h 17).1 e).2
    norm_num at this

end Sample
end Opprf
end Verif
