import Verif.Model.Opprf
import Verif.Model.Puda
import Verif.Model.Shamir

/-!
# The programs in `testsuit/`

Each `main` is a function of the values drawn while it runs; the result is its exit status (`0` or `-1`).  What is printed
is left out.  Curve objects constructed by a program are given by their addresses and are taken to be alive from the beginning
(no statement before a construction refers to the object).
-/

namespace Verif
namespace Tests

/-- the variable `success` at the end of a program that runs through a list of checks: `-1` as soon as one has failed -/
def verdict (checks : List Bool) : Int := if checks.all id then 0 else -1

/-! ## `test_fields.cpp` -/

/-- `if (x == FIELD(v))` for a field expression `x` -/
def fieldCheck : R Fld × Int → R Bool
  | (r, v) => do
    let x ← r
    .ok (x.beq (Fld.mk' secpP v))

/-- checks in sequence -/
def allChecks : List (R Bool) → R (List Bool)
  | [] => .ok []
  | r :: rs => do
    let b ← r
    let bs ← allChecks rs
    .ok (b :: bs)

/-- the operands (`testsuit/test_fields.cpp:20-21`) -/
def fa : Fld := Fld.mk' secpP 115792089210356248762697446911407573530086143415299914195533631308867097853953

@[inherit_doc fa]
def fb : Fld := Fld.mk' secpP 114123486102945789471102938563810123456789012678123898127389245018481290378472

/-- the expressions of `testsuit/test_fields.cpp:23-140` with the values they are compared with -/
def fieldCases (env : Env) (a b : Fld) : List (R Fld × Int) :=
  [
    (a.add env secpP b, 114123486102945789471102938525810123456789012678133498127389245018481290378474),
    (a.add env secpP a, 115792089210356248762697446873407573530086143415309514195533631308867097853955),
    (b.add env secpP b, 112454882995535330179508430178212673383491881940957482059244858728095482902993),
    (a.sub env secpP b, 1668603107410459291594508347597450073297130737176016068144386290385807475481),
    (b.sub env secpP a, 114123486102945789471102938601810123456789012678114298127389245018481290378470),
    (a.sub env secpP a, 0),
    (b.sub env secpP b, 0),
    (a.mul env secpP b, 64612386361951989056516811974132124533298328794823227983094747810559130757188),
    (a.div env secpP b, 78022135255180380122285888469357818367183359894755157665029097915500245715072),
    (b.invert secpP, 14571788612224318864831000442587039636655541211855231713863560926660394311888),
    (a.invert secpP, 8712139969365681565753642840680557109677220036619600254496360170439233380648),
    (a.square secpP, 104352153261626623953452628323589261248798252725060068905010816622861221411144),
    (b.square secpP, 42703936318985830561422526257309216918017484751181218668061004177165567807035)
  ]

/-- `main` of `testsuit/test_fields.cpp:12-144` -/
def testFields (env : Env) : R Int := do
  let bs ← allChecks ((fieldCases env fa fb).map fieldCheck)
  .ok (verdict bs)

/-! ## `test_ecc.cpp` -/

/-- `P` (`testsuit/test_ecc.cpp:28`) -/
def lP (c : Option Addr) : Pt :=
  Pt.ofStrings secp256r1 "84977697328889810205905983495378814169915355456656637049711992216827273875390".toList
    "113984765640120748176992606851862342793053973752254499151000631165261995767165".toList c 10

/-- `Q` (`testsuit/test_ecc.cpp:30`) -/
def lQ (c : Option Addr) : Pt :=
  Pt.ofStrings secp256r1 "63697252059872284381272932401874909409951463282505777844481084789510570568792".toList
    "42108181942940304799197775515120260512991621230487422734550324972312644964859".toList c 10

/-- `PplusQ` (`testsuit/test_ecc.cpp:33`) -/
def lPplusQ (c : Option Addr) : Pt :=
  Pt.ofStrings secp256r1 "101186946395279644513138790537604879293941435118431328907674518710966683828402".toList
    "6816289991419636437079674250297745566237099260731735769842810406514765603894".toList c 10

/-- `Ptimes10` (`testsuit/test_ecc.cpp:35`) -/
def lP10 (c : Option Addr) : Pt :=
  Pt.ofStrings secp256r1 "21353238564127361844413850988930366307036826902481189565622865528243313548234".toList
    " 19693254829710921034570991117370582129849796669680234808809542666479612482892".toList c 10

/-- `Ptimes99` (`testsuit/test_ecc.cpp:37`) -/
def lP99 (c : Option Addr) : Pt :=
  Pt.ofStrings secp256r1 "7351186338741311390390579546112325810531162022156291610136117810248366013335".toList
    " 20620688547460148735246365938363003834064651421739100004113374821348606164774".toList c 10

/-- `Ptimes90912389` (`testsuit/test_ecc.cpp:39`) -/
def lPbig (c : Option Addr) : Pt :=
  Pt.ofStrings secp256r1 "39713820183789898512483171409752538453383718839221188993776377142904537596963".toList
    " 48365718026147700096726340623511188595478532931695481815446315261246227175991".toList c 10

/-- `PminusQ` (`testsuit/test_ecc.cpp:41`) -/
def lPminusQ (c : Option Addr) : Pt :=
  Pt.ofStrings secp256r1 "17495055239713755065764498232777582223458639405056673754653767594082808961074".toList
    "114881897483998757494520577973324734261879933230870480577216288699002102291593".toList c 10

/-- `main` of `testsuit/test_ecc.cpp:14-201`; `c` is the address of the variable `curve`, `k1` and `k2` are drawn for `R1` and
`R2` -/
def testEcc (env : Env) (c : Option Addr) (k1 k2 : Int) : R Int := do
  let C := secp256r1
  let inf := Pt.infty C
  let P := lP c
  let Q := lQ c
  let r1 ← Curve.getRandomPoint env C c k1
  let r2 ← Curve.getRandomPoint env C c k2
  let e ← r1.getEncodedX env C
  let r2 ← r2.setEncodedX env C e
  let bs ← allChecks [
    r2.beq env C r1,
    do let g ← Curve.getDefaultGen env C c
       g.isValid env C,
    P.isValid env C,
    Q.isValid env C,
    do let x ← inf.add env C P
       x.beq env C P,
    do let x ← P.add env C inf
       x.beq env C P,
    do let x ← P.add env C P
       let y ← P.double env C
       x.beq env C y,
    do let x ← P.sub env C P
       x.beq env C inf,
    do let x ← inf.smulZ env C 1000
       x.beq env C inf,
    do let x ← P.add env C Q
       x.beq env C (lPplusQ c),
    do let x ← P.smulZ env C 10
       (lP10 c).beq env C x,
    do let x ← P.smulZ env C 99
       (lP99 c).beq env C x,
    do let x ← P.smulZ env C 90912389
       (lPbig c).beq env C x,
    do let x ← P.sub env C Q
       x.beq env C (lPminusQ c),
    do let x ← Curve.evaluateP env C c P.x
       P.beq env C x,
    do let x ← Curve.evaluateP env C c Q.x
       Q.beq env C x]
  .ok (verdict bs)

/-! ## `test_crc.cpp`, `test_aes.cpp` -/

/-- `main` of `testsuit/test_crc.cpp:10-26`; `a` is drawn by `getRandom(1024)` -/
def testCrc (pf : Platform) (a : Int) : R Int := do
  let n ← Crc.appendCRC pf a
  let v ← Crc.validateCRC pf n
  let success : Int := if v then 0 else -1
  let n ← Crc.removeCRC n
  if a = n then .ok success else .ok (-1)

/-- `main` of `testsuit/test_aes.cpp:59-86`; `key` and `plaintext` are drawn by `getRandom(128)`, `after` are the bytes behind
the terminating NUL of the empty string `AES::iv` -/
def testAes (pf : Platform) (E : Aes.Cipher) (after : List Byte) (key plaintext : Int) : R Int := do
  let s := Aes.init0 (Aes.ivStart after)
  let c ← Aes.encryptCRC pf E s key plaintext
  let d ← Aes.decryptCRC pf E s key c
  if d = plaintext then .ok 0 else .ok (-1)

/-! ## `test_shamirss.cpp`, `test_puda.cpp` -/

/-- `main` of `testsuit/test_shamirss.cpp:11-43`; `rand k` is the `k`-th value returned by `rand()` -/
def testShamir (env : Env) (rand : Nat → Int) : R Int := do
  let secret := Fld.mk' secpN 11
  let shares ← Shamir.getShares env 7 10 secret rand
  let result ← Shamir.reconSecret env shares
  .ok (verdict [result.beq secret])

/-- the loop of `testsuit/test_puda.cpp:35-42` from index `k`, with `left` iterations to go -/
def pudaLoop (env : Env) (pp : Puda.Param) (ks : Puda.Keys) (m : Puda.Msg) (t : Int) :
    Nat → Nat → List Pt → List Pt → R (List Pt × List Pt)
  | 0, _, cs, ts => .ok (cs, ts)
  | left + 1, k, cs, ts => do
    let ek ← Opprf.at' ks.ekv k
    let c ← Puda.enc env pp ek m t
    let sk ← Opprf.at' ks.skv k
    let tg ← Puda.tag env pp sk m t
    pudaLoop env pp ks m t left (k + 1) (cs ++ [c]) (ts ++ [tg])

/-- `main` of `testsuit/test_puda.cpp:11-58`; `c1` and `c2` are the addresses of the two curve objects of `PUDA`, `k` the draws of
`Setup`, with ten entries in `k.users` -/
def testPuda (env : Env) (c1 c2 : Option Addr) (k : Puda.Coins) : R Int := do
  let m : Puda.Msg := 2
  let (pp, ks) ← Puda.setup env (Puda.ctor c1 c2) k
  let (cs, ts) ← pudaLoop env pp ks m 99 10 0 [] []
  let (sum, tg) ← Puda.agg env pp ks.ak cs ts 99
  let _ := Puda.verify ks.vk sum tg 99
  .ok (verdict [decide ((sum.val : Int) = (m.val : Int) * 10)])

/-! ## `test_dme.cpp`, `test_ot.cpp` -/

open Dme Ot

/-- the draws of one of the blocks of `testsuit/test_dme.cpp` that generate a key, encrypt a random point on both branches and
decrypt -/
structure CaseCoins where
  sk : Int
  msg : Int
  s0 : Int
  t0 : Int
  s1 : Int
  t1 : Int

/-- `msg == decrypted` in such a block (e.g. `testsuit/test_dme.cpp:26-31`): key for branch `kb`, decryption of the ciphertext of
branch `db` -/
def dmeCase (env : Env) (d : Inst) (kb db : Branch) (k : CaseCoins) : R Bool := do
  let kp ← keyGen env d kb k.sk
  let msg ← Curve.getRandomPoint env CC d.curve k.msg
  let c0 ← enc env d kp.pk .b0 msg k.s0 k.t0
  let c1 ← enc env d kp.pk .b1 msg k.s1 k.t1
  let decrypted ← dec env kp.sk (match db with | .b0 => c0 | .b1 => c1)
  msg.beq env CC decrypted

/-- `!(e)` -/
def notR (r : R Bool) : R Bool := do
  let b ← r
  .ok (!b)

/-- the four blocks run for each of the three instances (`testsuit/test_dme.cpp:25-80`, `105-160`, `193-248`) -/
def fourCases (env : Env) (d : Inst) (k : Nat → CaseCoins) : List (R Bool) :=
  [dmeCase env d .b0 .b0 (k 0), notR (dmeCase env d .b0 .b1 (k 1)), notR (dmeCase env d .b1 .b0 (k 2)),
    dmeCase env d .b1 .b1 (k 3)]

/-- `FindMessy(keyp.pk) == b.other` after `KeyGen(b)` (`testsuit/test_dme.cpp:82-100`) -/
def findCase (env : Env) (d : Inst) (b b' : Branch) (sk : Int) : R Bool := do
  let kp ← keyGen env d b sk
  let x ← findMessy env d kp.pk
  .ok (decide (x = b'))

/-- `testsuit/test_dme.cpp:162-188`: a trapdoor key pair and both its decryptions; `k.sk` is drawn by `TrapKeyGen` -/
def trapCase (env : Env) (d : Inst) (k : CaseCoins) : R (List Bool) := do
  let (pk, sk0, sk1) ← trapKeyGen env d k.sk
  let msg ← Curve.getRandomPoint env CC d.curve k.msg
  let c0 ← enc env d pk .b0 msg k.s0 k.t0
  let c1 ← enc env d pk .b1 msg k.s1 k.t1
  let x ← dec env sk0 c0
  let b0 ← msg.beq env CC x
  let y ← dec env sk1 c1
  let b1 ← msg.beq env CC y
  .ok [b0, b1]

/-- `testsuit/test_dme.cpp:251-268`: the sum of two ciphertexts; `ma` and `mb` are drawn for the messages -/
def evalCase (env : Env) (d : Inst) (sk ma mb sa ta sb tb : Int) : R Bool := do
  let kp ← keyGen env d .b0 sk
  let a ← Curve.getRandomPoint env CC d.curve ma
  let b ← Curve.getRandomPoint env CC d.curve mb
  let ca ← enc env d kp.pk .b0 a sa ta
  let cb ← enc env d kp.pk .b0 b sb tb
  let cab ← eval env ca cb
  let x ← dec env kp.sk cab
  let ab ← a.add env CC b
  ab.beq env CC x

/-- `testsuit/test_dme.cpp:270-282`: an integer message -/
def numberCase (env : Env) (d : Inst) (sk number s0 t0 s1 t1 : Int) : R Bool := do
  let kp ← keyGen env d .b1 sk
  let _ ← encZ env d kp.pk .b0 number s0 t0
  let c1 ← encZ env d kp.pk .b1 number s1 t1
  let x ← decDecode env kp.sk c1
  .ok (decide (number = x))

/-- the draws of `testsuit/test_dme.cpp` in order -/
structure DmeDraws where
  ctor : MessyCoins
  messy : Nat → CaseCoins
  find0 : Int
  find1 : Int
  dctor : DecCoins
  dec : Nat → CaseCoins
  trap : CaseCoins
  copy : Nat → CaseCoins
  /-- `sk`, messages, first and second encryption of the test of `Eval` -/
  eval : Int × (Int × Int) × (Int × Int) × (Int × Int)
  /-- `sk`, the integer drawn by `getRandom(128)`, the two encryptions -/
  number : Int × Int × (Int × Int) × (Int × Int)

/-- `main` of `testsuit/test_dme.cpp:11-288`; `a`, `a'`, `a''` are the addresses of the curve objects of `DMHE_messy`, `DMHE_dec`
and `DMHE` -/
def testDme (env : Env) (a a' a'' : Option Addr) (k : DmeDraws) : R Int := do
  let m ← ctorMessy env a k.ctor
  let bs1 ← allChecks (fourCases env m k.messy ++ [findCase env m .b0 .b1 k.find0, findCase env m .b1 .b0 k.find1])
  let d ← ctorDec env a' k.dctor
  let bs2 ← allChecks (fourCases env d k.dec)
  let bs3 ← trapCase env d k.trap
  let e := ctorCrs a'' m.crs
  let (sk, (ma, mb), (sa, ta), (sb, tb)) := k.eval
  let (sk', number, (s0, t0), (s1, t1)) := k.number
  let bs4 ← allChecks (fourCases env e k.copy ++ [evalCase env e sk ma mb sa ta sb tb,
    numberCase env e sk' number s0 t0 s1 t1])
  .ok (verdict (bs1 ++ bs2 ++ bs3 ++ bs4))

/-- the draws of one oblivious transfer of random points: `sk` by the receiver, the rest by a sender -/
structure OtDraws where
  m0 : Int
  m1 : Int
  k0 : EncCoins
  k1 : EncCoins

/-- one block of `testsuit/test_ot.cpp:28-49` and `51-69`: two random messages, the receiver gets the one selected -/
def otCase (env : Env) (r : Recv) (s : Sndr) (b : Branch) (sk : Int) (k : OtDraws) : R (Bool × Recv × Sndr) := do
  let (pk, r) ← selectMsg env r b sk
  let m0 ← Curve.getRandomPoint env CC s.dme.curve k.m0
  let m1 ← Curve.getRandomPoint env CC s.dme.curve k.m1
  let (c, s) ← encMsgs env s pk m0 m1 k.k0 k.k1
  let m ← decryptMsg env r c
  let e ← m.beq env CC (match b with | .b0 => m0 | .b1 => m1)
  .ok (e, r, s)

/-- `testsuit/test_ot.cpp:71-89`: two integers -/
def otNumberCase (env : Env) (r : Recv) (s : Sndr) (sk : Int) (k0 k1 : EncCoins) : R (Bool × Recv × Sndr) := do
  let (pk, r) ← selectMsg env r .b0 sk
  let (c, s) ← encMsgsZ env s pk 19123 73812 k0 k1
  let m ← decryptMsgDecode env r c
  .ok (decide (19123 = m), r, s)

/-- two random messages of one sender and their encryptions (`testsuit/test_ot.cpp:103-107`) -/
def sendRandom (env : Env) (s : Sndr) (pk : PKey) (k : OtDraws) : R (Pt × List Ctxt) := do
  let m0 ← Curve.getRandomPoint env CC s.dme.curve k.m0
  let m1 ← Curve.getRandomPoint env CC s.dme.curve k.m1
  let (c, _) ← encMsgs env s pk m0 m1 k.k0 k.k1
  .ok (m0, c)

/-- `testsuit/test_ot.cpp:99-133`: three senders and the proxy -/
def dotCase (env : Env) (r : Recv) (sa sb sc : Sndr) (sk : Int) (ka kb kc : OtDraws) : R Bool := do
  let (pk, r) ← selectMsg env r .b0 sk
  let (m0a, ca) ← sendRandom env sa pk ka
  let (m0b, cb) ← sendRandom env sb pk kb
  let (m0c, cc) ← sendRandom env sc pk kc
  let c ← aggregate env [] [ca, cb, cc]
  let m ← decryptMsg env r c
  let s ← m0a.add env CC m0b
  let s ← s.add env CC m0c
  m.beq env CC s

/-- the draws of `testsuit/test_ot.cpp` in order -/
structure OtTestDraws where
  ctor : MessyCoins
  sk0 : Int
  first : OtDraws
  sk1 : Int
  second : OtDraws
  sk2 : Int
  num0 : EncCoins
  num1 : EncCoins
  sk3 : Int
  da : OtDraws
  db : OtDraws
  dc : OtDraws

/-- `main` of `testsuit/test_ot.cpp:11-136`; `a 0` to `a 6` are the addresses of the curve objects of `dme`, `otr`, `ots`, `dotr`,
`dotsa`, `dotsb`, `dotsc` -/
def testOt (env : Env) (a : Nat → Option Addr) (k : OtTestDraws) : R Int := do
  let d ← ctorMessy env (a 0) k.ctor
  let r := Recv.ctor (ctorCrs (a 1) d.crs)
  let s := Sndr.ctor (ctorCrs (a 2) d.crs)
  let (b1, r, s) ← otCase env r s .b0 k.sk0 k.first
  let (b2, r, s) ← otCase env r s .b1 k.sk1 k.second
  let (b3, _, _) ← otNumberCase env r s k.sk2 k.num0 k.num1
  let b4 ← dotCase env (Recv.ctor (ctorCrs (a 3) d.crs)) (Sndr.ctor (ctorCrs (a 4) d.crs))
    (Sndr.ctor (ctorCrs (a 5) d.crs)) (Sndr.ctor (ctorCrs (a 6) d.crs)) k.sk3 k.da k.db k.dc
  .ok (verdict [b1, b2, b3, b4])

/-! ## `test_opprf.cpp` -/

open Opprf

/-- the draws of one iteration of the loop in `testsuit/test_opprf.cpp:33-76`: `prep` by `prepareKeysAndInputs`, `rounds n` in round
`n` by the client and the server, `mask` by `sendEncryptedMasks`, `un` by `unmaskResult`, `gk` by `OPPRFserver::clean` -/
structure OpprfIter where
  prep : PrepCoins
  rounds : Nat → Int × RoundCoins
  mask : MaskCoins
  un : Int
  gk : Int

/-- the rounds `n` to 1 (`testsuit/test_opprf.cpp:48-56`) -/
def opprfRounds (W : World) (k : Nat → Int × RoundCoins) : Nat → Server → Client → R (Server × Client)
  | 0, s, c => .ok (s, c)
  | n + 1, s, c => do
    let (pk, c) ← c.start W (n + 1 : Nat) (k (n + 1)).1
    let (m, s) ← s.runOTRound W (n + 1 : Nat) pk (k (n + 1)).2
    let c ← c.finish W (n + 1 : Nat) m
    opprfRounds W k n s c

/-- one iteration (`testsuit/test_opprf.cpp:33-76`): whether the check succeeds, the variable `ga`, server and client afterwards -/
def opprfIter (W : World) (ga : Pt) (s : Server) (c : Client) (x : Msg) (k : OpprfIter) : R (Bool × Pt × Server × Client) := do
  let (ga, s) ← s.setSecret W.env ga
  let c := c.setMessage x
  let s ← s.prepare W k.prep
  let (s, c) ← opprfRounds W k.rounds 16 s c
  let m ← s.sendEncryptedMasks W k.mask
  let c ← c.unmaskResult W m k.un
  let gx ← ga.smulZ W.env CC x.toNat
  let _ ← s.kopprf.add W.env CC gx
  let gx ← ga.smulZ W.env CC x.toNat
  let t ← s.kopprf.add W.env CC gx
  let e ← c.result.beq W.env CC t
  let s ← s.clean W.env k.gk
  .ok (e, ga, s, c.clean)

/-- the loop from iteration `j` on, with `left` iterations to go -/
def opprfLoop (W : World) (x : Nat → Msg) (k : Nat → OpprfIter) : Nat → Nat → Pt → Server → Client → R (List Bool)
  | 0, _, _, _, _ => .ok []
  | left + 1, j, ga, s, c => do
    let (b, ga, s, c) ← opprfIter W ga s c (x j) (k j)
    let bs ← opprfLoop W x k left (j + 1) ga s c
    .ok (b :: bs)

/-- the draws of `testsuit/test_opprf.cpp`: for `ga`, for the CRS, by `rand()`, for the server's first `gk`, in the loop -/
structure OpprfTestDraws where
  ga : Int
  g0 : Int
  h0 : Int
  g1 : Int
  h1 : Int
  rand : Nat → Int
  gk : Int
  iter : Nat → OpprfIter

/-- `main` of `testsuit/test_opprf.cpp:12-83`.  `t` and `t'` are the addresses of the curve objects of the temporaries in lines 18
and 19, which live in `env'` only; `a` and `a'` those of the curve objects of server and client.  `x[j]` is
`(uint16_t) (rand() % 1000)`. -/
def testOpprf (W : World) (env' : Env) (t t' a a' : Option Addr) (k : OpprfTestDraws) : R Int := do
  let ga ← Curve.getRandomPoint env' CC t k.ga
  let d ← ctorRandom env' t' k.g0 k.h0 k.g1 k.h1
  let s ← Server.ctor W.env a 1000#16 d.crs k.gk
  let c := Client.ctor a' d.crs
  let bs ← opprfLoop W (fun j => BitVec.ofInt 16 ((k.rand j).tmod 1000)) k.iter 3 0 ga s c
  .ok (verdict bs)

end Tests
end Verif
