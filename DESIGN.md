# Formal model of crypto-utils in Lean 4

## 1. What is modelled

The C++ sources under `/repo` were read as text and transcribed function by function into total,
computable Lean functions (`lean/Verif/Model/*.lean`).  Every definition cites file and lines.

* **Outcome monad.** `R α = Except Fault α`.  A `Fault` is anything that is not a defined return:
  failed `assert`, `abort`, thrown exception, null dereference, use of a destroyed curve object,
  double free, reading an undefined result of `mpz_invert`, division by zero, out-of-bounds
  read/write, stack overflow of a fixed buffer, uninitialised read, signed overflow, flowing off the end of a
  non-void function, and non-termination.  Nothing is totalised silently: an undefined behaviour is never mapped to a value.
* **Build mode.** `Env.ndebug` says whether `assert` is compiled in.  (CMake's `RelWithDebInfo`
  defines `NDEBUG`, so asserts are *off* in the shipped build.)  Theorems quantify over both modes.
* **Memory.** `Env.heap : Addr → Option CurveObj` tells which curve objects are alive, and, for each,
  which curve object its default generator points to.  A point carries `curve : Option Addr`
  (`none` = null pointer).  Dereferencing null or a dead address faults.
* **Big integers.** `mpz_class` is `Int`.  GMP is trusted to implement: `+ - *`, `mpz_mod` (floor, non-negative),
  `mpz_invert`, `mpz_powm`, `mpz_mul_2exp`, `mpz_div_2exp` (floor), `mpz_tstbit`, `get_str(2)`,
  `set_str`, `mpz_export`/`mpz_import`.  GMP memory exhaustion is not modelled.
* **Randomness.** Draws are explicit arguments (coins), one per call of `getRandomScalar`,
  `getRandomPoint`, `rand()`, `random_shuffle`, `utils::getRandom`.  Theorems quantify over all coins in the range the generator can return.  The quality of the
  generator is outside the model; what is proved about secrecy is exact counting over coins.  That it is never seeded is the subject of C68 (`Model/Process.lean`) and C101 (`Model/ProcessOpprf.lean`); that `rand()` is not seeded either, of C68 and C110.
* **AES.** OpenSSL's AES-128-CTR is an arbitrary keystream function `ks : key bytes → iv bytes → ℕ → byte`.
  All results hold for every such function.  The IV string carries the bytes that happen to follow its terminator, because OpenSSL reads 16 bytes of it whatever its length.  OpenSSL allocation/initialisation failures are not modelled.
* **Memory blocks of GMP/heap.** `Platform.usable n` is the number of writable bytes of a heap block requested with
  `n` bytes; `usable n = n` is the strict C++ semantics, glibc gives more.
* **Machine integers.** `uint16_t`, `uint32_t`, `unsigned int` lengths, `int` timestamps, `size_t` are modelled with their wrap-around
  where it matters (CRC length truncation, `t-1` in Shamir, `rand()+1`, 16-bit messages).

The programs in `testsuit/` are modelled as functions of their draws that return the exit status; `test_elgamal.cpp` is empty.  Curve objects
of a program are taken to live from the beginning; output is left out.

The stream output operators are modelled by the characters they append to a stream in its default format.  In `test_opprf.cpp` the initialisations of server and client from
temporaries are taken without copies (copy elision).

Member-wise constructors, copies and assignments (`src/dme/dme.cpp:12-27,86-95,103-112,119-129`,
`includes/field_template.hpp:122-126`, `includes/ecc_template.hpp:125-130`) are plain Lean structure values.

Not modelled: other stream formats, `topprf.hpp` (does not compile: it names members that do not exist),
the empty files `kob`, `vsa`, `dopprf`, the declared-but-undefined functions
(`Point::operator*=(mpz)`, `EncCRC/DecCRC` on points, `OPPRFserver::Enc`, `getKeyi`), threads (there are none), exceptions thrown by `std::bad_alloc`,
the internal state of random generators, OpenSSL and GMP internals, big-endian machines (both branches of the byte-order conditional in crc.hpp are modelled, for a little-endian machine).

## 2. Trusted base

* the Lean 4.33 kernel (and `leanchecker`/gate replay);
* axioms: only `propext`, `Classical.choice`, `Quot.sound` (checked with `#print axioms`; the gate checks it too).  No axioms of our own, no `sorry`, no `native_decide`, no `bv_decide`;
* the reading of the C++ code embodied in `Verif/Model` (this is the part to review against `/repo`);
* the specifications in `Verif/Spec` (small, independent of the model's helper functions);
* Mathlib definitions used by the specifications: `ZMod`, `Nat.Prime`, `Polynomial` and, inside proofs only,
  `WeierstrassCurve.Affine.Point` with its group law.

## 3. Layout

* `Verif/Model/*` transcription of the code. * `Verif/Spec/*` specifications. * `Verif/Lemmas/*` helper lemmas, prime certificates,
  group-order certificates. * `Verif/Props/*` the property theorems, named `Cnn_…`, with `example`s showing that the hypotheses are satisfiable by non-trivial data.

A property that is false of the code is kept with its full English statement; the provable part is a theorem with suffix `_partial`
and the failure is a separate theorem (suffix `_counterexample` or a general negative statement).

## 4. Proof strategy of the hard parts

* *Fields.* Canonical elements are `ofZ (z : ZMod m)`; each operation is shown to map `ofZ` to `ofZ` of the ring operation.
* *Curves.* `Rep P A` relates a model point to a Mathlib `WeierstrassCurve.Affine.Point`; `operator+`/`pointDouble` are shown to compute Mathlib's group law
  (so associativity is inherited), scalar multiplication is an invariant proof over the bit string.
* *Primality* of the four moduli: Pratt certificates checked by the kernel via Lucas' criterion.
* *Group order.*  `n•G = 0` by a kernel-checked double-and-add certificate with explicit slopes; `#E ≤ 2p+1 < 3n` and `n ∣ #E` leave `n` or `2n`;
  `2n` would give a 2-torsion point (Cauchy), i.e. a root of `x³+ax+b`, excluded by computing `X^p` modulo the cubic and a Bezout identity.  Hence `#E = n` and the group is cyclic generated by `G`.
* *CRC.*  Bit-serial LFSR specification; every table entry is compared with it by kernel computation over the whole (finite) table, then lifted by linearity and induction on the buffer.
* *Shamir.* Lagrange interpolation over `ZMod n`.
* *OPPRF.* Composition of the OT, AES/CRC, encoding lemmas; the comparison chain by induction on the bit index.

## 5. Per property

| id | model functions | approach / remark |
|----|-----------------|-------------------|
| C01 | `Fld.add sub mul neg square mulZ` | exact integer result `mod p`, both builds |
| C02 | `Fld.mk beq` | `Int.emod` congruence |
| C03 | `Fld.invert div` | extended Euclid; zero shown to fault |
| C04 | `Fld.addAssign …` and a small program of assignments | induction on the program |
| C05 | all of the above | laws stated through `==` |
| C07 | `Fld.setField` | direct |
| C09–C12, C15 | `Pt.add double smul` | refinement to Mathlib group law + group order |
| C13 | `Curve.getRandomPoint generateKeyPair` | bijection from cyclicity; `generateKeyPair` as if it compiled |
| C14 | `Pt.sub` | **false** for infinity operands: counterexamples; `_partial` for the rest; `C14_exact`: an iff |
| C15 | `Pt.double` | **false** for infinity: counterexample; `_partial`; `C15_exact`: an iff |
| C16 | `Pt.beq` | iff |
| C17 | `Curve.evaluateP evaluatePneg evaluatePy2` | Euler criterion, `p ≡ 3 mod 4` |
| C18 | `Pt.getEncodedX setEncodedX` | via C17 |
| C20, C22, C23 | `Shamir.*` | Lagrange interpolation; negative results direct |
| C21 | `Shamir.getShares` | **false** for the code (coefficients in 0..99): counterexample; `_partial`: with coefficients free in the field it is exact |
| C24 | `Dme.keyGen enc dec` | **false** for degenerate coins: counterexample; `_partial` with the exact condition |
| C25–C28 | `Dme.*` | linear algebra over `ZMod n` through discrete logs; `C26_exact`, `C34_exact`: iffs that include the degenerate draws |
| C29 | `Dme.eval` | as C24; `C29_exact`: an iff |
| C30 | `Dme.encode decode` | termination proved; round trip exactly when a point exists in the window (`_partial`: that every window contains one is an open number-theoretic statement); `C30_exact`: the iff for every integer, windows cut off by the prime included |
| C31 | `Ctxt.beq` | **false**: compares with itself |
| C32 | `Crs.beq`, `TdMessy.beq`, `TdDec.beq`, `Dme.ofCrs` | direct |
| C33–C35 | `Ot.*`, `Dot.aggregate` | state machines over call histories; `C33_int_exact`: the iff for arbitrary integer messages |
| C36 | lifetimes | **false**: use after free proved |
| C37 | `Puda.*` | `_partial`: sums below 65535; 65535 returns 0 |
| C38 | `Puda.*` | any bilinear map |
| C39 | `Puda.verify` | **false**: always true |
| C40 | `Puda.enc` | `_partial`: t not divisible by the order; t = 0 reveals; cross-time relation |
| C41 | `ElGamal.*` | `_partial`; `C41_exact`: the iff for every integer; `C41_debug`: no condition on draws; `keyGen` flows off the end |
| C42 | `Crc.calculate …` | tables + slicing |
| C43 | `Crc.append validate remove` | on platforms with 4 bytes of slack |
| C44 | same | **false** under strict allocation; exact characterisation |
| C45, C46 | same | linearity and invertibility of the LFSR; C45 **false** for payloads of 2^32 bytes |
| C47 | `getRawMpz setRawMpz` | base-256 digits |
| C48 | `Aes.encrypt decrypt` | exact iff; **false** in general |
| C49 | `Aes.encryptCRC decryptCRC` | as C48 |
| C50 | header-order call | **false**: witness; `C50_exact` from the exact results of `encrypt` and `decrypt` |
| C51 | `Aes.init` | **false**: no-op |
| C52 | `Opprf.Server.prepare`, `Client.start finish` | chain of keys unconditional (induction on the loop); the walk `_partial` for draws not hit by the failures of C18, C24, C30, C44, C48, C49 (`Undisturbed`) |
| C53, C54 | whole evaluation | as C52; C54 by counting over the decoy draw |
| C55 | histories of calls | a frame argument: `clean` restores everything the next evaluation reads |
| C56 | ownership machine | **false** for copies: double free; `_partial` without copies; `C56_exact`: an iff, by comparing the number of pointers with the number of allocated objects |
| C58 | same | parity is invariant under the division step (the polynomial has an even number of terms) |
| C59 | same | the division step has period 2^31-1, a prime; **false** from 2^28 bytes on |
| C60 | `Aes.encrypt decrypt` | exact iff (key ≥ 16 bytes, IV readable, ≤ 128 bytes); **false** otherwise |
| C61 | `Aes.decryptCRC` | **false**: CTR and CRC are both linear, so checksummed differences forge; `_partial`: at most five flipped bits (C104), bursts of four bytes |
| C62 | `Aes.encrypt` | **false**: constant IV, keystream reuse |
| C63 | `Server.prepare` | both directions: the only faults are the key-length check and the conversion of an empty plaintext; the count is a product over the draws |
| C64 | `Server.prepare` twice | **false** without `clean`: the new keys are appended behind the old ones, which the tables go on using; `_partial`: a server without keys |
| C65 | `Client.start`, `Server.runOTRound` | an invariant of all histories (table lengths, valid points), then case analysis on the round |
| C66 | `evaluate` | the lemmas behind C52-C55 carried out with 'right or stopped' in every round instead of 'right'; sample D is a run that stops; `C66_exact` (debug builds) from `C95_debug`: only the first opened mask matters |
| C67 | `Client.finishState`, `Client.unmaskState` | the functions that return the object state at the end of the call agree with `finish` and `unmaskResult`; nothing after the first assignment can throw |
| C69 | `sent` (keys sent until a call does not return), `Client.start finish` | decryption mode proved by a bijection of the draws; **false** in messy mode and for aborts |
| C70 | `view`, `SameView`, `userCoins` | bijection of all users' keys that preserves ak, vk, ciphertexts and tags; **false** for a reused timestamp |
| C71 | `SameEntry`, `SameMsg`, `roundCoins` | coin bijection for servers that differ on the branch `FindMessy` names; **false** for the infinite key |
| C72 | `StreamSpec.keystream combine`, `CrcSpec.tail` | exact functional description, with leading zeros |
| C73 | `StreamSpec.difference` | exact condition by linearity of the checksum; **false** in general |
| C74 | `Shows`, `Apart`, `Plain` | C72, C73 put into C52-C54, C66 |
| C75 | `Key16` | exact counts; **false** for 1 key in 255 |
| C76 | exit status of the modelled `main` | evaluation in the kernel for the literals, group law for the random points; **false** for draw 0 |
| C77 | exit status of the modelled `main`, `IsBytes` | exact conditions from C43, C44 and C49; **false** outside them |
| C78 | exit status of the modelled `main` | from C20, C23 and the group law; **false** if `rand()` returns `INT_MAX` |
| C79 | `Spec/Tests`: linear conditions on discrete logarithms | all points as multiples of the generator; sufficient in all builds, necessary in debug builds because infinity has no curve object |
| C80 | exit status of the modelled `main`, `NotMisled`, `AllShow` | the state at the start of each iteration behaves like new objects (C55), then C66 and C74; **false** for colliding keystream bytes; `C80_sessions`, `C80_exact` need no `NotMisled`; sample H is a run with status -1 |
| C81 | `Fld.print`, `Pt.print`, `CurveClass.print`; `Numeral` | separators do not occur in numbers; C19 and C16 |
| C08 | `Pt.isValid` | iff with the integer congruence, for every point object |
| C19 | `Pt.ofStrings`, `Numeral` | the parser model of `set_str` reads exactly the numerals |
| C06 | constants, `Numeral` | Pratt certificates; curve checks by computation; the strings of the source are numerals for the constants |
| C82 | cardinality of the set of coins for which the calls return a point equal to the message | `dec_iff` (C23, C24) and counting solutions of s g + t h = A in the group |
| C83 | cardinality of the set of messages that come back | number of points of the curve, pigeonhole |
| C84 | exact result of `Agg`; use before `Setup` | `agg_rep` with an arbitrary multiple of the generator; induction over the search loop |
| C85 | an iff on the returned number | `agg_rep`; the module is torsion free |
| C86 | an iff on the returned number | as C85 |
| C87 | copies of curve objects (`Env.copyCurve`) | **false** once the original is destroyed; `_partial` before; `C87_exact`: an iff; the second digit of the scalar makes `operator*` double a point with a dead curve |
| C88 | the four constructors as maps from coins to CRS | each CRS in the stated set has exactly one preimage (discrete logarithms exist and are unique in the group of prime order); trapdoors that were not drawn are zero |
| C89 | `Puda.tag`, `agg`, `setup`; `forge`: what is computed without keys | tags as linear combinations; the equation for every pairing through a bilinear map on the group; **false** |
| C90 | `Puda.setup` twice | `setup` replaces the hash and keeps the curves; iffs by discrete logarithms |
| C91 | `Shamir.reconSecret` | the result is an affine function of each value with non-zero slope; **false** |
| C92 | `Shamir.getShares`, `reconSecret` | interpolation error `c ∏ (0 - x_i)`; **false**, with the exact condition |
| C93 | `Dme.trapKeyGen`, `keyGen`, `ctorDec`, `ctorMessy` | division by the trapdoor is a bijection of the draws; discrete logarithms |
| C94 | `Dme.enc`, `dec` | `dec` is additive in the second component; **false** |
| C95 | `Opprf.evaluate` | the points travel in ciphertexts of their own (`cprf`), so their sum does not depend on which keys open; `rounds_any`; `C95_debug` covers all draws of debug builds; sample G; release sample for the excluded draws |
| C96 | `Opprf.again` (an evaluation without the preparation) | `runRounds` changes nothing but the sender's last ciphertexts (`runRounds_inv`), so `runRounds_frame` applies; linear combination of the two results; sample H (inputs 700 and 701, value at 60000) |
| C98 | `ElGamal.decrypt`, `decode` | the group is cyclic of prime order, so V - T is a multiple of u for every target point T; x-coordinates of T and -T agree |
| C99 | `Puda.enc`, `computeDlog`; `maskAt`, `encFrom`, `openWith` are the attacker's computations, with the library's own operations | linear algebra over the scalars after `enc_rep` |
| C100 | `Server.runOTRound`, `Client.start`, `finish`, `unmaskResult`, `sendEncryptedMasks`; `Walk` is stated with the abscissas of the curve and `unseal`, without the ciphertexts | what a transfer delivers is a function of the integer (`ot_received`); induction over the rounds in both directions; uniqueness of the walk |
| C101 | `Proc.prepDraws`, `prepare`, `runRounds` | **false**: an attacker written in the model itself, proved to succeed for every pair of generators, every nonzero input and every threshold; the result before unmasking is `ga*x + r*sum(ok)` (`rounds_any`) |
| C102 | `aggregate`, `encMsgs`, `eval` | induction over the senders on the group elements behind both components (`aggregate_rep`); hiding by shifting the target point by the other senders' answers |
| C103 | `Server.clean`, `Server.ctor`, `runOTRound`, `finish` | `clean` leaves the fields that round 16 reads; group elements of the two answers (`round_any`), division by `2^15`; debug builds via `finePoints_debug`; default entries encode 0, an abscissa |
| C104 | `Crc.validateCRC`, `Crc.calculate` | the parity factor of the polynomial settles odd numbers of flips; for four, 1 + x^a = x^c (1 + x^b) would need the discrete logarithms of two of the 1 + x^d, d up to 5271, to lie close together; the logarithms are a certificate checked by the kernel on all lanes at once (`sweep4`) |
| C105 | `Pt.smulT`, `Dme.decT`, `ElGamal.decryptT`: `operator*`, `Dec`, `decrypt` with the calls of `operator+` and `pointDouble` recorded | **false**: induction over the digits; the operations are a function of the digits, and a fold gives the number back |
| C106 | `Crc.crc32_tab`, `Crc.crc32` | all 256 entries computed by the kernel; the register step is linear, the low byte selects the entry |
| C107 | `Crc.validateCRC`, `Aes.decryptCRC` | six bits cancel only if the logarithms of two sets of three bits are close; all 21321 logarithms (a group of prime order 2^31-1) are checked and compared by the kernel |
| C108 | `Pt.smul`, `Pt.sub`, `Dme.dec`, `ElGamal.decrypt`, `Pt.isValid` | y²=x³-3x-2 and y²=x³ are singular; the multiplicative and the additive group of the field parametrise them, and the code's formulas compute the group law there |
| C109 | `Verif.Model.Leak`: `getRawMpzH` and every caller once more, with the list of blocks allocated and not released | each function with heap returns what the one without returns and adds a list of blocks that depends on the arguments only |
| C68 | `Proc.Gen`, `Proc.selectMsg encMsgs setup`, `Shamir.getShares` | **false**: four attackers written in the model itself, proved to succeed for every generator and all inputs |
| C111 | `Opprf.tapEvaluate`: `Spec.evaluate` with a function applied to the server's answers; `addAt` | **false**: induction over the rounds with the difference of the results as invariant |
| C110 | `Opprf.Arr3.shuffle`, `Server.runOTRound`, `Server.sendEncryptedMasks` with `sh1`, `sh2` taken from a sequence `rand` | **false**: a client written in the model itself, proved to find out all prefix comparisons, and with 16 evaluations the threshold (binary search); exact counting for uniform numbers |
| C112 | `Opprf.evaluateWith`: `Spec.evaluate` with a server that changes its tables; `spoil`, `spoilTop` | **false**: congruence of the rounds for branch 0, induction down to the spoiled round for branch 1 |
| C113 | `Ot.selectMsg` twice, `encMsgs`, `decryptMsg`, any calls in between (`Ot.calls`) | **false**, exact condition: the decrypted point is m_b + (coin - coin')·u |
| C114 | `Opprf.collect`, `harvest`, `openAll`, `offline`: a client written with the model's own `trapKeyGen`, `finish`, `unmaskResult` | **false**: the keys are the same objects as those of `KeyGen(0)` and `KeyGen(1)` (`smul_plain`), hence the answers are those to an honest client, for every input at once |
| C115 | `Puda.testPair`: an outsider's test written with the model's `smulZ`, `add`, `beq` | **false**: eliminates the key from the two representations; the integers stay below 2^60, so equality modulo the order is equality; **exact**: solves for the other key |
| C97 | `Opprf.pointAt`, `cipherAt`, `maskOf` (parts of the prepared server's state), `serveAll`, `SameSession` | `sameEntries_iff` turns equal views into 16 + 1 linear equations over the scalars, which have one solution if r is not infinity; sample H |
| C116 | `Puda.shiftTag`, `testTags`: the key holder's computations, written with the model's operations | **false**: `setup_rep` gives vk_2 as `a` times the generator of `Tag`; the rest is linear, through the bilinear form of the pairing for the equation |
| C117 | `Opprf.ask`, `steal`: a client written with the model's `selectMsg`, `runOTRound`, `decryptMsg` | **false**: both points of a table entry represented, the mask cancels |
| C118 | `Puda.dlogLoopT`, `aggT` (Model/TimingPuda): the loop with a counter | **false**: induction over the loop with the discrete logarithm as in C37 |
| C119 | `Puda.dtor`: the heap after `~Puda` | **false**: doubling the stored generator reads the dead curve object; the loop of `compute_dlog` cannot pass 2 |
| C120 | `Puda.insider`, `SameFor`: the view of C70 with the keys of a set of users | the bijection of C70 leaves the keys of a user alone whose message stays; converse by comparing ciphertexts under the same key |
| C121 | `Opprf.STrack`, `CTrack`: curve pointers of the points that reach the client | a set of curve pointers that contains null is closed under all point operations; followed through `prepareKeysAndInputs`, the rounds and `unmaskResult`; `smul_dead` |
| C122 | `Opprf.searchKeyT`, `Client.nextKeyT`, `Client.finishT`, `searchMaskT`, `Client.unmaskResultT`: the search loops with the number of iterations | `C122_same` ties the counting functions to `evaluate`; the position of the ciphertext that opens is read off with the inverse of the shuffle; binary search over the threshold |
| C123 | `Dme.encodeLoopT`, `encodeT`, `encZT`, `ElGamal.encodeLoopT`, `encryptT`: the loops of `encode` with the number of iterations | induction on the distance to the first abscissa; the concrete abscissas by evaluating `evaluateP` |
| C124 | `Ot.encMsgs`, `encMsgsZ`, `Dme.enc` on points off the curve | `OffCurve.node`: the chord and tangent formulas on y^2=x^3-3x-2 form a group; 3 is no abscissa of the curve; the chord formula can be undone whatever curves the two points are on |
