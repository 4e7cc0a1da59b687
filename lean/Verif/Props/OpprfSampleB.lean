import Verif.Props.OpprfSample

/-!
# A concrete evaluation: threshold 1000, input 1001
-/

namespace Verif
namespace Opprf
namespace Sample

open Dme Ot Aes EC

def bp15 : Pt := ⟨fp 77699123850440363438422674994979155367504279700597461349756751384780793410458, fp
  47201228451726366269685633104146032499960156815608972428420072724479121327247, false, some 1⟩

theorem b_15 : play srv1 (cl 1001 0 inf) 15 false = .ok ((kk .eq), bp15, true) := by decide +kernel

def bp14 : Pt := ⟨fp 106591861631255069877632034981812036357743884230337578727282806649650742775263, fp
  115533463511123913921379436045239008163320481541947910163861536042637581176314, false, some 1⟩

theorem b_14 : play srv1 (cl 1001 (kk .eq) bp15) 14 false = .ok ((kk .eq), bp14, true) := by decide +kernel

def bp13 : Pt := ⟨fp 5644619083526582230385118991276430477557318521782923277659417058179673257928, fp
  88491341672511557673763094253582883201872932763339737145746175343490473556633, false, some 1⟩

theorem b_13 : play srv1 (cl 1001 (kk .eq) bp14) 13 false = .ok ((kk .eq), bp13, true) := by decide +kernel

def bp12 : Pt := ⟨fp 12810973714878841923371234740171782967223600172925856956772670492738327897532, fp
  34198333883930851054005281521069812878016343479357390708047847591752942872108, false, some 1⟩

theorem b_12 : play srv1 (cl 1001 (kk .eq) bp13) 12 false = .ok ((kk .eq), bp12, true) := by decide +kernel

def bp11 : Pt := ⟨fp 62054168288356702476828368375116272344890948285235553457363378291714626888787, fp
  69434869879505507644290710947285555231144314572602233773058783690602159134839, false, some 1⟩

theorem b_11 : play srv1 (cl 1001 (kk .eq) bp12) 11 false = .ok ((kk .eq), bp11, true) := by decide +kernel

def bp10 : Pt := ⟨fp 67355577733896615220272464470254410584815538538008247804379323414304567227949, fp
  75036340926625022777348129652842348642223465284905845305656532209581163183620, false, some 1⟩

theorem b_10 : play srv1 (cl 1001 (kk .eq) bp11) 10 false = .ok ((kk .eq), bp10, true) := by decide +kernel

def bp9 : Pt := ⟨fp 96840843566248444580464928689285293788581735253525060835408332346450082932889, fp
  28516930962049549357300575536374165291034289432544849973658246519841487919503, false, some 1⟩

theorem b_9 : play srv1 (cl 1001 (kk .eq) bp10) 9 true = .ok ((kk .eq), bp9, true) := by decide +kernel

def bp8 : Pt := ⟨fp 35582174452594705993381479006171734029750242410580078969022989905216372714094, fp
  29836075547861632335722917114002243287450314528996689757675247898757502722824, false, some 1⟩

theorem b_8 : play srv1 (cl 1001 (kk .eq) bp9) 8 true = .ok ((kk .eq), bp8, true) := by decide +kernel

def bp7 : Pt := ⟨fp 52350961416107202803169274284021514591724170046657667809152804951442435790353, fp
  40128851929864604741993504706173912100762831291034120775520168078400865739889, false, some 1⟩

theorem b_7 : play srv1 (cl 1001 (kk .eq) bp8) 7 true = .ok ((kk .eq), bp7, true) := by decide +kernel

def bp6 : Pt := ⟨fp 94100953794332865980861637912239310209102316613867041436035493557226742039899, fp
  30860380526058351332191386313362942590271282954883504125327227920066637932865, false, some 1⟩

theorem b_6 : play srv1 (cl 1001 (kk .eq) bp7) 6 true = .ok ((kk .eq), bp6, true) := by decide +kernel

def bp5 : Pt := ⟨fp 79628060344424496985979373263204111302040583396928713192469881743461979960126, fp
  55154595983960879114878639798285157863640982908053911724812287675537597476403, false, some 1⟩

theorem b_5 : play srv1 (cl 1001 (kk .eq) bp6) 5 true = .ok ((kk .eq), bp5, true) := by decide +kernel

def bp4 : Pt := ⟨fp 109505830775443081794492029234725142392394630876548280978017003392741284383585, fp
  81014703145528121580163355737774858405744083377562307290170343180827530856933, false, some 1⟩

theorem b_4 : play srv1 (cl 1001 (kk .eq) bp5) 4 false = .ok ((kk .eq), bp4, true) := by decide +kernel

def bp3 : Pt := ⟨fp 107857972049579521255785892052964689074197228204731393038060051063659927608372, fp
  113394299900651112820482237943481063622443945794121873577939292821435484292846, false, some 1⟩

theorem b_3 : play srv1 (cl 1001 (kk .eq) bp4) 3 true = .ok ((kk .eq), bp3, true) := by decide +kernel

def bp2 : Pt := ⟨fp 107908867423555628157665046318910448774068989857965727473046303286997270441647, fp
  47050743218597073974438806440883911874621534246054198092266807073310274522101, false, some 1⟩

theorem b_2 : play srv1 (cl 1001 (kk .eq) bp3) 2 false = .ok ((kk .eq), bp2, true) := by decide +kernel

def bp1 : Pt := ⟨fp 57479893688659283136806010417103042139979830440639240678949537853453471722504, fp
  45203656824089289556688897152501690282668925347080875639059171101487993327604, false, some 1⟩

theorem b_1 : play srv1 (cl 1001 (kk .eq) bp2) 1 false = .ok ((kk .eq), bp1, true) := by decide +kernel

def bp0 : Pt := ⟨fp 3377203876980582974657558632163092864481217374867954535943854536376972972454, fp
  696319389987107104349147723583262749031176776624651127819687781615673542379, false, some 1⟩

theorem b_0 : play srv1 (cl 1001 (kk .eq) bp1) 0 true = .ok ((kk .gt), bp0, true) := by decide +kernel

theorem b_fine (q : Pt) : FineRounds W draws.rounds 1001 16 srv1 (cl 1001 0 q) :=
  (play_fine b_15 <| play_fine b_14 <| play_fine b_13 <| play_fine b_12 <| play_fine b_11 <| play_fine b_10
  <| play_fine b_9 <| play_fine b_8 <| play_fine b_7 <| play_fine b_6 <| play_fine b_5 <| play_fine b_4
  <| play_fine b_3 <| play_fine b_2 <| play_fine b_1 <| play_fine b_0 fun _ => trivial) q

/-- the hypotheses of C52, C54 and C55 -/
example : Parties W.env srv0 (Client.ctor (some 1) crs) ∧ (Client.ctor (some 1) crs).result = Pt.infty CC ∧
    srv0.theta.toNat < (1001#16).toNat ∧ Undisturbed W srv0 (Client.ctor (some 1) crs) 1001#16 draws :=
  ⟨parties, rfl, by decide, undisturbed (by decide) _ (b_fine _)⟩

/-- so for these draws the conclusions of C52 and C54 hold -/
example : (Ends (evaluate W srv0 (Client.ctor (some 1) crs) 1001#16 draws) fun r => r.2.key = kk .gt) ∧
    Ends (evaluate W srv0 (Client.ctor (some 1) crs) 1001#16 draws) fun r => EqP W.env CC (.ok r.2.result)
      (aboveResult W (some 0) 77 ga 1001#16 r.1.r draws.okSum) :=
  ⟨C52_walk_partial parties (undisturbed (by decide) _ (b_fine _)),
    C54_partial parties rfl (by decide) (undisturbed (by decide) _ (b_fine _))⟩

/-- the last hypothesis of `C53_new_partial` -/
example : ∀ s p s', Server.ctor W.env (some 0) 1000#16 crs 3 = .ok s → s.setSecret W.env ga = .ok (p, s') →
    Undisturbed W s' (Client.ctor (some 1) crs) 1001#16 draws := by
  intro s p s' h h'
  have h1 := ctor_eq
  rw [show env2 = W.env from rfl, h, R.ok_bind, h'] at h1
  obtain ⟨-, rfl⟩ := Prod.mk.inj (Except.ok.inj h1)
  exact undisturbed (by decide) _ (b_fine _)

end Sample
end Opprf
end Verif
