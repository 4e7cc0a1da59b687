import Verif.Props.OpprfSample

/-!
# A concrete evaluation: threshold 1000, input 700
-/

namespace Verif
namespace Opprf
namespace Sample

open Dme Ot Aes EC

def ap15 : Pt := ⟨fp 77699123850440363438422674994979155367504279700597461349756751384780793410458, fp
  47201228451726366269685633104146032499960156815608972428420072724479121327247, false, some 1⟩

theorem a_15 : play srv1 (cl 700 0 inf) 15 false = .ok ((kk .eq), ap15, true) := by decide +kernel

def ap14 : Pt := ⟨fp 106591861631255069877632034981812036357743884230337578727282806649650742775263, fp
  115533463511123913921379436045239008163320481541947910163861536042637581176314, false, some 1⟩

theorem a_14 : play srv1 (cl 700 (kk .eq) ap15) 14 false = .ok ((kk .eq), ap14, true) := by decide +kernel

def ap13 : Pt := ⟨fp 5644619083526582230385118991276430477557318521782923277659417058179673257928, fp
  88491341672511557673763094253582883201872932763339737145746175343490473556633, false, some 1⟩

theorem a_13 : play srv1 (cl 700 (kk .eq) ap14) 13 false = .ok ((kk .eq), ap13, true) := by decide +kernel

def ap12 : Pt := ⟨fp 12810973714878841923371234740171782967223600172925856956772670492738327897532, fp
  34198333883930851054005281521069812878016343479357390708047847591752942872108, false, some 1⟩

theorem a_12 : play srv1 (cl 700 (kk .eq) ap13) 12 false = .ok ((kk .eq), ap12, true) := by decide +kernel

def ap11 : Pt := ⟨fp 62054168288356702476828368375116272344890948285235553457363378291714626888787, fp
  69434869879505507644290710947285555231144314572602233773058783690602159134839, false, some 1⟩

theorem a_11 : play srv1 (cl 700 (kk .eq) ap12) 11 false = .ok ((kk .eq), ap11, true) := by decide +kernel

def ap10 : Pt := ⟨fp 67355577733896615220272464470254410584815538538008247804379323414304567227949, fp
  75036340926625022777348129652842348642223465284905845305656532209581163183620, false, some 1⟩

theorem a_10 : play srv1 (cl 700 (kk .eq) ap11) 10 false = .ok ((kk .eq), ap10, true) := by decide +kernel

def ap9 : Pt := ⟨fp 96840843566248444580464928689285293788581735253525060835408332346450082932889, fp
  28516930962049549357300575536374165291034289432544849973658246519841487919503, false, some 1⟩

theorem a_9 : play srv1 (cl 700 (kk .eq) ap10) 9 true = .ok ((kk .eq), ap9, true) := by decide +kernel

def ap8 : Pt := ⟨fp 47422083940277056169614701204822249346012525440455026087740812651972601179535, fp
  64643258477968024779594263309915095881027443881839388321610433833861208630657, false, some 1⟩

theorem a_8 : play srv1 (cl 700 (kk .eq) ap9) 8 false = .ok ((kk .lt), ap8, true) := by decide +kernel

def ap7 : Pt := ⟨fp 64392751970628358117910918981080701160676116020868477363129818556186668798664, fp
  90360582592755598948414116587477920407747754408014299951330305465608564243980, false, some 1⟩

theorem a_7 : play srv1 (cl 700 (kk .lt) ap8) 7 true = .ok ((kk .lt), ap7, true) := by decide +kernel

def ap6 : Pt := ⟨fp 58608129161883938363627920146831126327655670042613553583165811807691770922844, fp
  96144653861334764135805911508781837468694901233743500543438853532341525957241, false, some 1⟩

theorem a_6 : play srv1 (cl 700 (kk .lt) ap7) 6 false = .ok ((kk .lt), ap6, true) := by decide +kernel

def ap5 : Pt := ⟨fp 80222986507204200738910002683453086314397218242925797062057064256762621678961, fp
  71693062650031924167673231502588412027525796427640849033204902949148913798932, false, some 1⟩

theorem a_5 : play srv1 (cl 700 (kk .lt) ap6) 5 true = .ok ((kk .lt), ap5, true) := by decide +kernel

def ap4 : Pt := ⟨fp 32336593910220789782395066119905337720063594096788877778724835862648688712666, fp
  78271296094328501437504101670870481335807670387353317366766631978692316935906, false, some 1⟩

theorem a_4 : play srv1 (cl 700 (kk .lt) ap5) 4 true = .ok ((kk .lt), ap4, true) := by decide +kernel

def ap3 : Pt := ⟨fp 33458512730613309644916830791172119949039254668726039854867769065385438645946, fp
  11981603847024476203339647978507185972082579247134902737648861299254594919121, false, some 1⟩

theorem a_3 : play srv1 (cl 700 (kk .lt) ap4) 3 true = .ok ((kk .lt), ap3, true) := by decide +kernel

def ap2 : Pt := ⟨fp 107776348208455677019646715355194682289870510284424593076441902628128630561305, fp
  35917466339723617439504946814092966104999193279075426978613132339616193736438, false, some 1⟩

theorem a_2 : play srv1 (cl 700 (kk .lt) ap3) 2 true = .ok ((kk .lt), ap2, true) := by decide +kernel

def ap1 : Pt := ⟨fp 7323675005173049640277584639857864577309957230446247223280044973785075951009, fp
  30563672024004123075839967247842727718091413196216059224158251393612962733846, false, some 1⟩

theorem a_1 : play srv1 (cl 700 (kk .lt) ap2) 1 false = .ok ((kk .lt), ap1, true) := by decide +kernel

def ap0 : Pt := ⟨fp 109541080618836073506751993849486687247286788068765032216938346856846284028891, fp
  29535059763983833383179265650147070603868911849641390642178747555859019123807, false, some 1⟩

theorem a_0 : play srv1 (cl 700 (kk .lt) ap1) 0 false = .ok ((kk .lt), ap0, true) := by decide +kernel

theorem a_fine (q : Pt) : FineRounds W draws.rounds 700 16 srv1 (cl 700 0 q) :=
  (play_fine a_15 <| play_fine a_14 <| play_fine a_13 <| play_fine a_12 <| play_fine a_11 <| play_fine a_10
  <| play_fine a_9 <| play_fine a_8 <| play_fine a_7 <| play_fine a_6 <| play_fine a_5 <| play_fine a_4
  <| play_fine a_3 <| play_fine a_2 <| play_fine a_1 <| play_fine a_0 fun _ => trivial) q

/-- the hypotheses of C52, C53 and C55 -/
example : Parties W.env srv0 (Client.ctor (some 1) crs) ∧ (Client.ctor (some 1) crs).result = Pt.infty CC ∧
    (700#16).toNat ≤ srv0.theta.toNat ∧ Undisturbed W srv0 (Client.ctor (some 1) crs) 700#16 draws :=
  ⟨parties, rfl, by decide, undisturbed (by decide) _ (a_fine _)⟩

/-- so for these draws the conclusions of C52 and C53 hold -/
example : (Ends (evaluate W srv0 (Client.ctor (some 1) crs) 700#16 draws) fun r => r.2.key = kk .lt) ∧
    Ends (evaluate W srv0 (Client.ctor (some 1) crs) 700#16 draws) fun r => EqP W.env CC (.ok r.2.result)
      (do let t ← ga.smulZ W.env CC 700; r.1.kopprf.add W.env CC t) :=
  ⟨C52_walk_partial parties (undisturbed (by decide) _ (a_fine _)),
    C53_partial parties rfl (by decide) (undisturbed (by decide) _ (a_fine _))⟩

/-- `C55_no_clean_partial`: a client that holds the result `ga` -/
example : Parties W.env srv0 (old ga) ∧ (old ga).result ≠ Pt.infty CC ∧ Undisturbed W srv0 (old ga) 700#16 draws ∧
    Undisturbed W srv0 (old ga).clean 700#16 draws :=
  ⟨parties_old, by decide +kernel, undisturbed (by decide) _ (a_fine _), undisturbed (by decide) _ (a_fine _)⟩

/-- the last hypothesis of `C53_new_partial` -/
example : ∀ s p s', Server.ctor W.env (some 0) 1000#16 crs 3 = .ok s → s.setSecret W.env ga = .ok (p, s') →
    Undisturbed W s' (Client.ctor (some 1) crs) 700#16 draws := by
  intro s p s' h h'
  have h1 := ctor_eq
  rw [show env2 = W.env from rfl, h, R.ok_bind, h'] at h1
  obtain ⟨-, rfl⟩ := Prod.mk.inj (Except.ok.inj h1)
  exact undisturbed (by decide) _ (a_fine _)

end Sample
end Opprf
end Verif
