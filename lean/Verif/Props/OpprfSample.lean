import Verif.Props.Opprf

/-!
# Two concrete evaluations

They show that the hypotheses of C52 to C55 can be met: threshold 1000, inputs 700 and 1001.
-/

namespace Verif
namespace Opprf
namespace Sample

open Dme Ot Aes EC

/-- a keystream that depends on key and position -/
def E : Cipher := fun k _ i => (k.getD ((i + 1) % 16) 0#8) + BitVec.ofNat 8 i

/-- asserts on, curve objects at addresses 0 and 1, eight spare bytes per heap block -/
def W : World := ⟨env2, pfSlack, E, tiv⟩

/-- the three keys, the same for every bit -/
def kk : Ordering → ℤ
  | .lt => 2 ^ 127 + 2 ^ 100 + 7
  | .eq => 2 ^ 126 + 2 ^ 90 + 99
  | .gt => 2 ^ 125 + 2 ^ 77 + 5

def rc : RoundCoins := ⟨⟨2, 3⟩, ⟨3, 1⟩, ⟨2, 7⟩, ⟨3, 2⟩, ⟨3, 4⟩, ⟨4, 3⟩, ⟨5, 3⟩, ⟨6, 3⟩, 4, 5⟩

def draws : Draws :=
  ⟨⟨2362, 17, (List.range 16).map fun j => ⟨kk .lt, kk .eq, kk .gt, j + 1⟩⟩, fun _ => ⟨3, rc⟩, ⟨77, 0, 0⟩, 3⟩

def fp (v : ℤ) : Fld := ⟨v, CC.fp⟩
def fn (v : ℤ) : Fld := ⟨v, CC.fn⟩

def inf : Pt := Pt.infty CC

def crs : Crs := ⟨⟨fp 36794669340896883012101473439538929759152396476648692591795318194054580155373, fp
  101659946828913883886577915207667153874746613498030835602133042203824767462820, false, some 0⟩, ⟨fp
  64375483017717711348634889601793836329966447963510648681625681211348943876771, fp
  52431391916983504423217627849020916729601969409053901192561322805962577543348, false, some 0⟩, ⟨fp
  79653159259317329199152975905021693207262715618295428672027927511489832980905, fp
  105099244361861367422779349381909628134794498213392835359532911141293690159074, false, some 0⟩, ⟨fp
  44710890534849379681007195543719586089737754824560621976448707498688874787731, fp
  78410552107786285403689301656392479612049391334024095564584156230482213311870, false, some 0⟩⟩

def dme (a : Addr) : Inst := ctorCrs (some a) crs

def ga : Pt := ⟨fp 52521004185641536627266600536804816931535329133355539962020980193802383057860, fp
  3365321999886721389269937144276711091585627196865605815969312301872807444947, false, some 0⟩

def gk : Pt := ⟨fp 42877656971275811310262564894490210024759287182177196162425349131675946712428, fp
  61154801112014214504178281461992570017247172004704277041681093927569603776562, false, some 0⟩

/-- the server before the preparation -/
def srv0 : Server := ⟨⟨dme 0, []⟩, some 0, 1000#16, ga, inf, inf, gk, [], [], [], [], .default, .default,
  List.replicate 16 .default, List.replicate 16 .default⟩

def Si0 : List InputI := [⟨0, 0, 0, inf⟩, ⟨730774693902504728626228302088748212239786167925, 365397886684498775876959522875175000142854216696,
  182710180662490157937465159761322860031821883412, ⟨fp
  32325191861646170820727200153045020440226161115493753094312025153945959180094, fp
  76893839243237387215994851577363012021771164750959278524015311355165214375132, false, some 0⟩⟩,
  ⟨730774693902504728626228302088748212239786167925, 365397886684498775876959522875175000142854216696,
  182710180662490157937465159761322860031821883412, ⟨fp
  21538630073048560509735576007149539115526969787353231629118474871518563178910, fp
  55603856257563662995711056162089459784965861117252987975873068253975100132143, false, some 0⟩⟩,
  ⟨730774693902504728626228302088748212239786167925, 365397886684498775876959522875175000142854216696,
  182710180662490157937465159761322860031821883412, ⟨fp
  46666477596086028741474043982420848626002660687557828641516919715899724669617, fp
  38242511415158947290363129965099452684166192860820598007352964213587123073284, false, some 0⟩⟩,
  ⟨730774693902504728626228302088748212239786167925, 730773301467059288146035809959854702324456750705,
  182710180662490157937465159761322860031821883412, ⟨fp
  72596226909668436959774442454142244613773195638732071686129863887962066693904, fp
  22207824003136076460702625815585445720072895318442384192733725318300315979022, false, some 0⟩⟩,
  ⟨730774693902504728626228302088748212239786167925, 365397886684498775876959522875175000142854216696,
  182710180662490157937465159761322860031821883412, ⟨fp
  60073511759358593341600214647896489228333175389880158771964257026862608699019, fp
  98056203004132380208320736079379779528399830344411127568759010159883106975961, false, some 0⟩⟩,
  ⟨730774693902504728626228302088748212239786167925, 730773301467059288146035809959854702324456750705,
  182710180662490157937465159761322860031821883412, ⟨fp
  101649017283612281751307422218711915857186714349722974794544892135435312319390, fp
  80682692466357820609194099521532493392471520564611699270689241705382944414931, false, some 0⟩⟩,
  ⟨730774693902504728626228302088748212239786167925, 730773301467059288146035809959854702324456750705,
  182710180662490157937465159761322860031821883412, ⟨fp
  2288242618228772977766217010702153671779988389513682686338376943203356647621, fp
  102970328107659380817691259232049494696785774531955242540625276763624754474480, false, some 0⟩⟩,
  ⟨730774693902504728626228302088748212239786167925, 730773301467059288146035809959854702324456750705,
  182710180662490157937465159761322860031821883412, ⟨fp
  42567506815117296984122555280449498563128708070709101216541005618332194180440, fp
  13452872250023409256986231545518869138805072326170037830889016304284600545459, false, some 0⟩⟩,
  ⟨730774693902504728626228302088748212239786167925, 730773301467059288146035809959854702324456750705,
  182710180662490157937465159761322860031821883412, ⟨fp
  41125370115403580883569766101411172603562813663165724739947761606270654105502, fp
  110356442531494430017271641473503935217967946284317465580044857299736005150657, false, some 0⟩⟩,
  ⟨730774693902504728626228302088748212239786167925, 730773301467059288146035809959854702324456750705,
  182710180662490157937465159761322860031821883412, ⟨fp
  114223362679005738809724585692348170538826429835008354286714904123246697824909, fp
  62025634737946796535461064250335299810499657925256063746682384652659830943296, false, some 0⟩⟩,
  ⟨730774693902504728626228302088748212239786167925, 365397886684498775876959522875175000142854216696,
  182710180662490157937465159761322860031821883412, ⟨fp
  48258898781900428293832872730160865454772994811424990776384679265823767635475, fp
  9164028575543462540320734061909638650323174693506865373241496749222415643755, false, some 0⟩⟩,
  ⟨730774693902504728626228302088748212239786167925, 365397886684498775876959522875175000142854216696,
  182710180662490157937465159761322860031821883412, ⟨fp
  15305616108124148545346828297203633045732720631980370698821659006556459082908, fp
  25251345342168757776999693993907820446901333292002501683536860309623962153451, false, some 0⟩⟩,
  ⟨730774693902504728626228302088748212239786167925, 365397886684498775876959522875175000142854216696,
  182710180662490157937465159761322860031821883412, ⟨fp
  70255038924027499990094303306191970672768587388530996138062626393310756565881, fp
  59875693189468034889173573150204698116461773829573167389173443718891497619820, false, some 0⟩⟩,
  ⟨730774693902504728626228302088748212239786167925, 365397886684498775876959522875175000142854216696,
  182710180662490157937465159761322860031821883412, ⟨fp
  12732886367605530984048125374423713558851634879582194894618904397986683026060, fp
  72009168900832632456678909608321668265916133743952114858237291139090706486369, false, some 0⟩⟩,
  ⟨730774693902504728626228302088748212239786167925, 365397886684498775876959522875175000142854216696,
  182710180662490157937465159761322860031821883412, ⟨fp
  110497245154268097231768214892177950696059615187171957235835761077073839256084, fp
  86382897821409119430649594902028883804654180695225764173886447166450806480606, false, some 0⟩⟩]

def Si1 : List InputI := [⟨0, 0, 0, inf⟩, ⟨730774693902504728626228302088748212239786167925, 182710182023453472121745899130708417367891650576,
  182710180662490157937465159761322860031821883412, ⟨fp
  97168160640222023765612992004343954269641955894621893919545248556563520048623, fp
  60006944357017578381795553614460480080177749835737837958658628419695448013990, false, some 0⟩⟩,
  ⟨730774693902504728626228302088748212239786167925, 182710182023453472121745899130708417367891650576,
  182710180662490157937465159761322860031821883412, ⟨fp
  106810302378278508265750288513706513507942295707684185105798276767401602292509, fp
  91455166806106316764322019477645955380031326911162335444598827714040685666270, false, some 0⟩⟩,
  ⟨730774693902504728626228302088748212239786167925, 182710182023453472121745899130708417367891650576,
  182710180662490157937465159761322860031821883412, ⟨fp
  15068632559078003596043641044455311296620948413734379324887373775751328063644, fp
  102662578494146010743210200304547566362217955988491424334122703343476746484917, false, some 0⟩⟩,
  ⟨730774693902504728626228302088748212239786167925, 365397886684498775876959522875175000142854216696,
  182710180662490157937465159761322860031821883412, ⟨fp
  42790389057801698827121453195362218593190437110507031333881952215781168871350, fp
  3240404321206403108915855926541685388453425566670222202946823696091146753831, false, some 0⟩⟩,
  ⟨730774693902504728626228302088748212239786167925, 182710182023453472121745899130708417367891650576,
  182710180662490157937465159761322860031821883412, ⟨fp
  86889130698947741161461838273913945114923588563317475255297078996486066216000, fp
  63882371806595270876275679686224600351960552275801725253421722667526126891487, false, some 0⟩⟩,
  ⟨730774693902504728626228302088748212239786167925, 365397886684498775876959522875175000142854216696,
  182710180662490157937465159761322860031821883412, ⟨fp
  50162585142986142488578608947791127418845142441709064011632317253226096069904, fp
  75591729557259005062254970009255442917448948930888684485392881603436017582595, false, some 0⟩⟩,
  ⟨730774693902504728626228302088748212239786167925, 365397886684498775876959522875175000142854216696,
  182710180662490157937465159761322860031821883412, ⟨fp
  18181608611886815100577329435623707573748293056800881203773771827085317881863, fp
  11534095125923326137739124641247803621186480788754352855426025985581003749871, false, some 0⟩⟩,
  ⟨730774693902504728626228302088748212239786167925, 365397886684498775876959522875175000142854216696,
  182710180662490157937465159761322860031821883412, ⟨fp
  4851110151169722284355475998313365192422796766701939243145897692959382595946, fp
  982838585717913467518418376985949462400305457893417320823884083409518015875, false, some 0⟩⟩,
  ⟨730774693902504728626228302088748212239786167925, 365397886684498775876959522875175000142854216696,
  182710180662490157937465159761322860031821883412, ⟨fp
  30102186393129278830814900212430890188458790794288802010544851965726317309963, fp
  20778928286875252410444484348583726128740452903039464354408880147026684264657, false, some 0⟩⟩,
  ⟨730774693902504728626228302088748212239786167925, 365397886684498775876959522875175000142854216696,
  182710180662490157937465159761322860031821883412, ⟨fp
  55233931524730798929819860618001328665627665775462924199333176924648597366881, fp
  91636787281979747253696357365288427131721815742167039391341075280885054222944, false, some 0⟩⟩,
  ⟨730774693902504728626228302088748212239786167925, 182710182023453472121745899130708417367891650576,
  182710180662490157937465159761322860031821883412, ⟨fp
  11145719843547280012930844365980715356726007592728858097133035177863798111122, fp
  15123581530327108002195533401900764061341807659978855218251018010589707730394, false, some 0⟩⟩,
  ⟨730774693902504728626228302088748212239786167925, 182710182023453472121745899130708417367891650576,
  182710180662490157937465159761322860031821883412, ⟨fp
  89272065552098078999601168813956534160444494478451589530890826772430029022671, fp
  91616599208401294577686089915067167378047321227736172047285164410915412636431, false, some 0⟩⟩,
  ⟨730774693902504728626228302088748212239786167925, 182710182023453472121745899130708417367891650576,
  182710180662490157937465159761322860031821883412, ⟨fp
  114740178535177297181591852783818148429774587291855643221356481557312876038051, fp
  37481205108815044025296672962172199853142552768395920729974134714958897107700, false, some 0⟩⟩,
  ⟨730774693902504728626228302088748212239786167925, 182710182023453472121745899130708417367891650576,
  182710180662490157937465159761322860031821883412, ⟨fp
  34734392169664047931405345465870977813788765088189458468815248600968685935225, fp
  13345943176261870859833628143316010457110640039914262182943712847316663056366, false, some 0⟩⟩,
  ⟨730774693902504728626228302088748212239786167925, 182710182023453472121745899130708417367891650576,
  182710180662490157937465159761322860031821883412, ⟨fp
  44078182142740782547058929818068884441172757975971742473523167061439303283076, fp
  52060960314694020783020215023104753794568965245670726080032751992005784987372, false, some 0⟩⟩]

/-- the server after the preparation -/
def srv1 : Server := ⟨⟨dme 0, []⟩, some 0, 1000#16, ga, ⟨fp 21866998269196215207953493822518239106663341992828888745968873838421087148813, fp
  46617337445506553454362544668692606536053467295017844126358256959832286197334, false, some 0⟩,
  ⟨fp 32325191861646170820727200153045020440226161115493753094312025153945959180094, fp
  76893839243237387215994851577363012021771164750959278524015311355165214375132, false, some 0⟩, gk,
  List.replicate 16 (kk .lt), List.replicate 16 (kk .eq), List.replicate 16 (kk .gt),
  (List.range 16).map fun j => fn (j + 1), ⟨85070591731472555905129032132841177187, ⟨fp
  77699123850440363438422674994979155367504279700597461349756751384780793410458, fp
  47201228451726366269685633104146032499960156815608972428420072724479121327247, false, some 0⟩⟩,
  ⟨42535295865117459048649277757617864709, ⟨fp
  112762703178886012699429945545698757498076635009499418160086267920477501932883, fp
  33552720145028759535808357831776813496205277040570828916747972564100527896157, false, some 0⟩⟩, Si0, Si1⟩

def cl (x : Msg) (key : ℤ) (result : Pt) : Client := ⟨some 1, ⟨dme 1, fn 0, none⟩, some x, result, key⟩

def fineB (c : Client) (m : OtCtxts) (b : Bool) : Bool :=
  (m.cprf :: m.ctxt.toList).all fun v => v.isEmpty || match index v (branch b) with
    | .ok ct => !ct.u.inf && decide (c.otr.sk.value ≠ 0) && !ct.mv.inf
    | .error _ => false

/-- one round: the client's next key and result, and whether all ciphertexts were fine -/
def play (s : Server) (c : Client) (n : ℕ) (b : Bool) : R (ℤ × Pt × Bool) := do
  let (pk, c) ← c.start W (n + 1 : ℕ) (draws.rounds (n + 1)).sk
  let (m, _) ← s.runOTRound W (n + 1 : ℕ) pk (draws.rounds (n + 1)).enc
  let c' ← c.finish W (n + 1 : ℕ) m
  .ok (c'.key, c'.result, fineB c m b)

theorem ctor_eq : (do
    let s ← Server.ctor env2 (some 0) 1000#16 crs 3
    s.setSecret env2 ga) = .ok (ga, srv0) := by decide +kernel

theorem client_eq (x : Msg) : (Client.ctor (some 1) crs).setMessage x = cl x 0 inf := rfl

theorem prepare_eq : srv0.prepare W draws.prep = .ok srv1 := by decide +kernel

/-! ### Keys -/

theorem key_eq (sy : Ordering) {j : ℕ} (hj : j < 16) : draws.key sy j = kk sy := by
  have : draws.prep.bits.getD j ⟨0, 0, 0, 0⟩ = ⟨kk .lt, kk .eq, kk .gt, j + 1⟩ := by
    interval_cases j <;> rfl
  rw [Draws.key, this]
  cases sy <;> rfl

/-- the ciphertexts of the table -/
def ct : Ordering → Ordering → ℤ
  | .lt, .lt => 730774693902504728626228302088748212239786167925
  | .eq, .lt => 730773301467059288146035809959854702324456750705
  | .eq, .eq => 365397886684498775876959522875175000142854216696
  | .eq, .gt => 182710182023453472121745899130708417367891650576
  | .gt, .gt => 182710180662490157937465159761322860031821883412
  | _, _ => 0

/-- pairs of outcomes that follow each other -/
def Follows (sy sy' : Ordering) : Prop := sy = .eq ∨ sy' = sy

theorem follows_next (x theta : Msg) (j : ℕ) (sy : Ordering) : Follows sy (next x theta j sy) := by
  cases sy
  exacts [.inr rfl, .inl rfl, .inr rfl]

theorem seal_eq {sy sy' : Ordering} (h : Follows sy sy') : W.seal (kk sy) (kk sy') = .ok (ct sy sy') := by
  cases sy <;> cases sy' <;> first | (rcases h with h | h <;> cases h; done) | decide +kernel

theorem unseal_eq {sy sy' : Ordering} (h : Follows sy sy') (sy0 : Ordering) :
    W.unseal (kk sy0) (ct sy sy') = .ok (if sy = sy0 then kk sy' else 0) := by
  cases sy <;> cases sy' <;> first | (rcases h with h | h <;> cases h; done) | (cases sy0 <;> decide +kernel)

theorem encodable_of (m : ℤ) (i : ℕ) (y : ℤ) (hi : i < 1024)
    (hy : (y * y - ((m * 1024 + i) * (m * 1024 + i) * (m * 1024 + i) + CC.a * (m * 1024 + i) + CC.b)) % CC.prime = 0) :
    Encodable m :=
  ⟨i, hi, y, (Int.modEq_iff_dvd.2 (Int.dvd_of_emod_eq_zero hy)).symm⟩

theorem ct_encodable {sy sy' : Ordering} (h : Follows sy sy') : Encodable (ct sy sy') := by
  cases sy <;> cases sy' <;> first
    | (rcases h with h | h <;> cases h; done)
    | exact encodable_of _ 0 3615212466639978727955988823986253479162884016576238518126750893578885025351 (by decide) (by decide +kernel)
    | exact encodable_of _ 0 32947550302441603449499075426040222592589868081211663869747515702995563017671 (by decide) (by decide +kernel)
    | exact encodable_of _ 0 32822020649868616124577132145877445525248050097432992563044240037104542530916 (by decide) (by decide +kernel)
    | exact encodable_of _ 0 79662840380326869068743340800727679047565164850487639364471879402145390572928 (by decide) (by decide +kernel)
    | exact encodable_of _ 0 43767853246636978170240099481879710063744328415872735534282607222355189340004 (by decide) (by decide +kernel)

theorem eq_encodable : Encodable (kk .eq) :=
  encodable_of _ 2 76902694461894726558318281894005258869026729847764725107927648825923540780075 (by decide) (by decide +kernel)

theorem kk_range (sy : Ordering) : 2 ^ 120 ≤ kk sy ∧ kk sy < 2 ^ 128 := by cases sy <;> decide +kernel

theorem legible {x : Msg} (h : sym x 1000#16 15 = .eq) : Legible W draws.key x 1000#16 := by
  refine ⟨?_, ?_, ?_, ?_⟩
  · rw [key_eq _ (by norm_num), h]
    exact eq_encodable
  · intro j hj sy e he
    rw [key_eq _ (by omega), key_eq _ (by omega), seal_eq (follows_next _ _ _ _)] at he
    rw [← Except.ok.inj he]
    exact ct_encodable (follows_next _ _ _ _)
  · intro j hj c hc
    rw [key_eq _ (by omega), key_eq _ (by omega), ← next_sym x _ j, seal_eq (follows_next _ _ _ _)] at hc
    rw [key_eq _ (by omega), key_eq _ (by omega), ← next_sym x _ j, ← Except.ok.inj hc]
    exact .inl (by rw [unseal_eq (follows_next _ _ _ _), if_pos rfl])
  · intro j hj sy hsy
    rw [key_eq _ (by omega), key_eq _ (by omega), key_eq _ (by omega)]
    exact ⟨_, seal_eq (follows_next _ _ _ _), by rw [unseal_eq (follows_next _ _ _ _), if_neg hsy]⟩

theorem pathOpens (x : Msg) : PathOpens W draws.key x 1000#16 := by
  intro j hj
  rw [key_eq _ (by omega), key_eq _ (by omega), ← next_sym x _ j]
  exact ⟨_, seal_eq (follows_next _ _ _ _), by rw [unseal_eq (follows_next _ _ _ _), if_pos rfl]⟩

/-! ### Masks -/

theorem mask_draw : draws.mask' = 50 := by decide +kernel

/-- the encodings of the mask (for `lt`, `eq`) and of the decoy (for `gt`) -/
def pay (sy : Ordering) : ℤ := if sy = .gt then 79726102825744567203549543724795141645246996922185569920284806493296409410806 else 168628350359195399586803470545932453340674035411373966090813999860876496975684

theorem pay_eq (sy : Ordering) : (do
    let P ← Curve.getRandomPoint W.env CC (some 0) (if sy = Ordering.gt then 77 else 50)
    P.getEncodedX W.env CC) = .ok (pay sy) := by
  cases sy <;> decide +kernel

theorem encodingOf_eq (sy : Ordering) (e : ℤ) : EncodingOf W (some 0) (if sy = Ordering.gt then 77 else 50) e ↔ e = pay sy := by
  have := pay_eq sy
  obtain ⟨P, h1, h2⟩ := R.bind_eq_ok.1 this
  constructor
  · rintro ⟨P', h3, h4⟩
    rw [h1] at h3
    obtain rfl := Except.ok.inj h3
    rw [h2] at h4
    exact (Except.ok.inj h4).symm
  · rintro rfl
    exact ⟨P, h1, h2⟩

theorem pay_opens (sy0 : Ordering) :
    ((W.seal (kk sy0) (pay sy0)).bind (W.unseal (kk sy0))) = .ok (pay sy0) := by
  cases sy0 <;> decide +kernel

theorem pay_rejects {sy0 sy : Ordering} (h : sy ≠ sy0) :
    ((W.seal (kk sy) (pay sy)).bind (W.unseal (kk sy0))) = .ok 0 := by
  cases sy0 <;> cases sy <;> first | exact absurd rfl h | decide +kernel

theorem maskOpens (sy0 : Ordering) :
    MaskOpens W (some 0) (fun sy => draws.key sy 0) sy0 draws.mask' draws.mask.rnd := by
  have hr : draws.mask.rnd = 77 := rfl
  rw [mask_draw, hr]
  intro e he
  rw [encodingOf_eq] at he
  rw [he]
  simp only [key_eq _ (show 0 < 16 by norm_num)]
  obtain ⟨c, h1, h2⟩ := R.bind_eq_ok.1 (pay_opens sy0)
  exact ⟨c, h1, h2⟩

theorem maskLegible (sy0 : Ordering) :
    MaskLegible W (some 0) (fun sy => draws.key sy 0) sy0 draws.mask' draws.mask.rnd := by
  have ho := maskOpens sy0
  have hr : draws.mask.rnd = 77 := rfl
  rw [mask_draw, hr] at ho ⊢
  refine ⟨by decide +kernel, by decide +kernel, ?_, ?_, ?_⟩
  · rw [encodingOf_eq]
    cases sy0 <;> decide +kernel
  · intro e he c hc
    obtain ⟨c', h1, h2⟩ := ho e he
    rw [hc] at h1
    rw [Except.ok.inj h1]
    exact .inl h2
  · intro sy hsy e he
    rw [encodingOf_eq] at he
    rw [he]
    simp only [key_eq _ (show 0 < 16 by norm_num)]
    obtain ⟨c, h1, h2⟩ := R.bind_eq_ok.1 (pay_rejects hsy)
    exact ⟨c, h1, h2⟩

/-! ### Rounds -/

theorem fineB_spec {c : Client} {m : OtCtxts} {b : Bool} (h : fineB c m b = true) : FineMsg c m b := by
  intro v hv hne
  have := List.all_eq_true.1 h v hv
  rw [Bool.or_eq_true] at this
  rcases this with h | h
  · exact absurd (List.isEmpty_iff.1 h) hne
  · rcases hi : index v (branch b) with e | ct
    · rw [hi] at h
      simp at h
    · rw [hi] at h
      simp only [Bool.and_eq_true, Bool.not_eq_true', decide_eq_true_eq] at h
      exact ⟨ct, hi, h.1.1, h.1.2, h.2⟩

theorem fine_frame {W : World} {d : ℕ → RoundDraws} {x : Msg} (n : ℕ) {s : Server} {ots : Sndr} (h : ots.dme = s.ots.dme)
    {c : Client} {otr : Recv} (h' : otr.dme = c.otr.dme) (hf : FineRounds W d x n s c) :
    FineRounds W d x n { s with ots := ots } { c with otr := otr } := by
  cases n with
  | zero => trivial
  | succ n =>
    intro pk c' m s' h1 h2
    rw [start_frame c h'] at h1
    rw [runOTRound_frame s h] at h2
    exact hf pk c' m s' h1 h2

theorem start_result (c : Client) (q : Pt) {i k : ℤ} {pk : PKey} {c' : Client} (h : c.start W i k = .ok (pk, c')) :
    { c with result := q }.start W i k = .ok (pk, { c' with result := q }) := by
  unfold Client.start at h ⊢
  cases hx : c.x with
  | none => rw [hx] at h; simp at h
  | some x =>
    rw [hx] at h
    simp only at h ⊢
    split_ifs at h ⊢
    obtain ⟨⟨pk, o⟩, h1, h⟩ := R.bind_eq_ok.1 h
    obtain ⟨rfl, rfl⟩ := Prod.mk.inj (Except.ok.inj h)
    rw [h1]
    rfl

theorem searchKey_result (c : Client) (q : Pt) (l : List (List Ctxt)) :
    searchKey W { c with result := q } l = searchKey W c l := by
  induction l with
  | nil => rfl
  | cons v vs ih => simp only [searchKey, ih]

theorem finish_result (c : Client) (q : Pt) {i : ℤ} {m : OtCtxts} {c' c'' : Client} (h : c.finish W i m = .ok c')
    (h' : { c with result := q }.finish W i m = .ok c'') : c'' = { c' with result := c''.result } := by
  unfold Client.finish at h h'
  rw [searchKey_result] at h'
  split_ifs at h h'
  · obtain ⟨k1, a1, h⟩ := R.bind_eq_ok.1 h
    obtain ⟨k2, a2, h'⟩ := R.bind_eq_ok.1 h'
    obtain rfl := Except.ok.inj (a1.symm.trans a2)
    obtain ⟨_, -, h⟩ := R.bind_eq_ok.1 h
    obtain ⟨_, -, h'⟩ := R.bind_eq_ok.1 h'
    obtain ⟨_, -, h⟩ := R.bind_eq_ok.1 h
    obtain ⟨_, -, h'⟩ := R.bind_eq_ok.1 h'
    rw [← Except.ok.inj h, ← Except.ok.inj h']
  · obtain ⟨f1, a1, h⟩ := R.bind_eq_ok.1 h
    obtain ⟨f2, a2, h'⟩ := R.bind_eq_ok.1 h'
    obtain rfl := Except.ok.inj (a1.symm.trans a2)
    obtain ⟨_, -, h⟩ := R.bind_eq_ok.1 h
    obtain ⟨_, -, h'⟩ := R.bind_eq_ok.1 h'
    cases f1 with
    | none => simp [R.error_bind] at h'
    | some f =>
      simp only [R.ok_bind] at h h'
      obtain ⟨_, -, h⟩ := R.bind_eq_ok.1 h
      obtain ⟨_, -, h'⟩ := R.bind_eq_ok.1 h'
      obtain ⟨_, -, h⟩ := R.bind_eq_ok.1 h
      obtain ⟨_, -, h'⟩ := R.bind_eq_ok.1 h'
      rw [← Except.ok.inj h, ← Except.ok.inj h']

theorem play_fine {x : Msg} {n : ℕ} {key key' : ℤ} {p p' : Pt}
    (h : play srv1 (cl x key p) n (x.toNat.testBit n) = .ok (key', p', true))
    (hf : ∀ q, FineRounds W draws.rounds x n srv1 (cl x key' q)) (q : Pt) :
    FineRounds W draws.rounds x (n + 1) srv1 (cl x key q) := by
  intro pk c' m s' h1 h2
  have h1p := start_result (cl x key q) p h1
  unfold play at h
  rw [show cl x key p = { cl x key q with result := p } from rfl, h1p, R.ok_bind] at h
  simp only at h
  rw [h2, R.ok_bind] at h
  simp only at h
  obtain ⟨c2, g3, h⟩ := R.bind_eq_ok.1 h
  obtain ⟨e1, h⟩ := Prod.mk.inj (Except.ok.inj h)
  obtain ⟨e2, e3⟩ := Prod.mk.inj h
  refine ⟨fineB_spec e3, fun c'' hc'' => ?_⟩
  obtain ⟨cc, rfl⟩ := runOTRound_inv h2
  have i0 := finish_result c' p hc'' g3
  have i1 := CCall.frozen (W := W) (c := cl x key q) (c' := c') (k := .start (n + 1 : ℕ) (draws.rounds (n + 1)).sk)
    (by simp only [CCall.run, h1, R.ok_bind])
  have i2 := CCall.frozen (W := W) (c := c') (c' := c'') (k := .finish (n + 1 : ℕ) m) hc''
  have i3 := client_x h1 hc''
  have : c'' = { cl x key' c''.result with otr := c''.otr } := by
    rcases c'' with ⟨a, b, c, d, e⟩
    rw [i0] at e1
    simp only at e1
    subst e1
    obtain ⟨-, j2⟩ := i1
    obtain ⟨-, j4⟩ := i2
    simp only at j4 i3
    subst j4 i3
    rw [j2]
    rfl
  rw [this]
  exact fine_frame (s := srv1) n (ots := { srv1.ots with c := cc }) rfl (c := cl x key' c''.result) (i2.1.trans i1.1) (hf _)

theorem liveGen0 : LiveGen env2 (some 0) := ⟨0, ⟨0⟩, rfl, rfl, ⟨0⟩, rfl⟩
theorem liveGen1 : LiveGen env2 (some 1) := ⟨1, ⟨1⟩, rfl, rfl, ⟨1⟩, rfl⟩

theorem onCurve_of (P : Pt) (h : P.inf = false) (h1 : P.x.p = CC.fp ∧ 0 ≤ P.x.value ∧ P.x.value < CC.fp)
    (h2 : P.y.p = CC.fp ∧ 0 ≤ P.y.value ∧ P.y.value < CC.fp)
    (h3 : (P.y.value * P.y.value - (P.x.value * P.x.value * P.x.value + CC.a * P.x.value + CC.b)) % CC.prime = 0) :
    OnCurve CC P :=
  .inr ⟨h, ⟨h1.1, h1.2.1, h1.2.2⟩, ⟨h2.1, h2.2.1, h2.2.2⟩, (Int.modEq_iff_dvd.2 (Int.dvd_of_emod_eq_zero h3)).symm⟩

/-- a client that has not been cleaned: it holds the result `q` of an earlier evaluation (its key is 0) -/
def old (q : Pt) : Client := { Client.ctor (some 1) crs with result := q }

theorem crs_on : OnCurve CC crs.g0 ∧ OnCurve CC crs.g1 ∧ OnCurve CC crs.h0 ∧ OnCurve CC crs.h1 :=
  ⟨onCurve_of _ rfl (by decide +kernel) (by decide +kernel) (by decide +kernel),
    onCurve_of _ rfl (by decide +kernel) (by decide +kernel) (by decide +kernel), onCurve_of _ rfl (by decide +kernel) (by decide +kernel) (by decide +kernel),
    onCurve_of _ rfl (by decide +kernel) (by decide +kernel) (by decide +kernel)⟩

theorem parties : Parties env2 srv0 (Client.ctor (some 1) crs) := by
  obtain ⟨r, h1, h2, -⟩ := parties_of_ctor env2 liveGen0 liveGen1 (crs := crs) crs_on 1000#16 3 (ga := ga)
    (onCurve_of _ rfl (by decide +kernel) (by decide +kernel) (by decide +kernel))
  rw [ctor_eq] at h1
  rw [← Except.ok.inj h1] at h2
  exact h2

theorem parties_old : Parties env2 srv0 (old ga) :=
  ⟨parties.ready, parties.server, parties.client, parties.ga, parties.ga, parties.noKeys, parties.si0, parties.si1⟩

theorem undisturbed {x : Msg} (h : sym x 1000#16 15 = .eq) (q : Pt)
    (hf : FineRounds W draws.rounds x 16 srv1 (cl x 0 q)) :
    Undisturbed W srv0 (old q) x draws := by
  refine ⟨⟨fun n => by simp [W, pfSlack], by unfold IvReadable; decide, by simp [draws], ?_, legible h, ?_, maskLegible _, by decide +kernel⟩,
    pathOpens x, maskOpens _⟩
  · intro sy j hj
    rw [key_eq _ hj]
    exact kk_range sy
  · intro s' hs
    rw [prepare_eq] at hs
    rw [← Except.ok.inj hs]
    exact hf

/-- the hypothesis of `C52_chain` -/
example : srv0.prepare W draws.prep = .ok srv1 := prepare_eq

/-- the hypotheses of `C54_every_value` -/
example : LiveGen W.env (some 0) ∧ Valid W.env CC ga ∧ Valid W.env CC inf :=
  ⟨liveGen0, parties.ga, parties.result⟩

/-- the hypotheses of `C55_clean`: a server and a client with a history that includes a preparation -/
example : ∃ s0 s s1 f s2 f2 c p p', Server.ctor W.env (some 0) 1000#16 crs 3 = .ok s0 ∧
    runAll (SCall.run W) s0 [.secret ga, .prepare draws.prep] = .ok s ∧
    runAll (CCall.run W) (Client.ctor (some 1) crs) [.message 5, .start 16 3, .message 700] = .ok c ∧
    s.clean W.env 4 = .ok s1 ∧ s1.setSecret W.env ga = .ok (p, s2) ∧
    Server.ctor W.env (some 0) 1000#16 crs 4 = .ok f ∧ f.setSecret W.env ga = .ok (p', f2) ∧
    s.k_eq ≠ [] ∧ c.otr ≠ (Client.ctor (some 1) crs).otr := by
  obtain ⟨s0, h1, h2⟩ := R.bind_eq_ok.1 ctor_eq
  have h3 : runAll (SCall.run W) s0 [.secret ga, .prepare draws.prep] = .ok srv1 := by
    have h2 : s0.setSecret W.env ga = .ok (ga, srv0) := h2
    simp only [runAll, SCall.run, h2, R.ok_bind, prepare_eq]
  obtain ⟨P, hP⟩ : ∃ P, Curve.getRandomPoint W.env CC (some 0) 4 = .ok P :=
    let ⟨P, h, _⟩ := randomPoint_rep (C := CC) liveGen0 4
    ⟨P, h⟩
  have hs : ∀ s : Server, s.curve = some 0 → s.setSecret W.env ga = .ok (ga, { s with ga := ga }) := by
    intro s hs
    unfold Server.setSecret
    rw [hs]
    rfl
  obtain ⟨c, hc, hc'⟩ : ∃ c, runAll (CCall.run W) (Client.ctor (some 1) crs) [.message 5, .start 16 3, .message 700] = .ok c ∧
      c.otr.sk.value = 3 := by
    have : (do
        let c ← runAll (CCall.run W) (Client.ctor (some 1) crs) [.message 5, .start 16 3, .message 700]
        .ok c.otr.sk.value) = .ok (3 : ℤ) := by decide +kernel
    obtain ⟨c, h, h'⟩ := R.bind_eq_ok.1 this
    exact ⟨c, h, Except.ok.inj h'⟩
  obtain ⟨s1, g1, g1'⟩ : ∃ s1, srv1.clean W.env 4 = .ok s1 ∧ s1.curve = some 0 := by
    unfold Server.clean
    rw [show srv1.curve = some 0 from rfl, hP]
    exact ⟨_, rfl, rfl⟩
  obtain ⟨f, g2, g2'⟩ : ∃ f, Server.ctor W.env (some 0) 1000#16 crs 4 = .ok f ∧ f.curve = some 0 := by
    unfold Server.ctor
    simp only
    rw [show (ctorCrs (some 0) crs).curve = some 0 from rfl, hP]
    exact ⟨_, rfl, rfl⟩
  refine ⟨s0, srv1, s1, f, _, _, c, ga, ga, h1, h3, hc, g1, hs _ g1', g2, hs _ g2', by decide, fun h => ?_⟩
  rw [h] at hc'
  exact absurd hc' (by decide)

end Sample
end Opprf
end Verif
