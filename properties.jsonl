{"id": "C01", "title": "Field arithmetic is exact modular arithmetic", "statement": "For two elements of one field class, a+b, a-b, a*b, -a, a.square() and a*k (k any big integer, any sign) complete without an assertion failure or division by zero and return the canonical representative in [0,p) of the corresponding integer result modulo p.", "quantifier": "all four field classes, all pairs of elements, all big-integer multipliers, both build modes (asserts on / NDEBUG)", "why_tests_cant": "the domain has about 2^512 pairs per operation; a test samples a dozen", "anchors": ["includes/field_template.hpp:PrimeField::operator+,operator-,operator*,square", "src/fields/field_bn254.cpp", "src/fields/field_secp256r1.cpp"]}
{"id": "C02", "title": "Constructor canonicalises, equality is congruence", "statement": "F(x) holds the representative of x in [0,p) for every integer x including negatives, and F(x)==F(y) is true exactly when x and y are congruent modulo p.", "quantifier": "all field classes, all pairs of integers of any size and sign", "why_tests_cant": "infinitely many integers map to each residue", "anchors": ["includes/field_template.hpp:PrimeField(const mpz_class&,const mpz_class&),operator=="]}
{"id": "C03", "title": "Inversion and division", "statement": "For every a and every non-zero b of one field class, b.invert()*b==1 and (a/b)*b==a, with no undefined result; inverting or dividing by zero never reaches a defined value.", "quantifier": "all field classes, all a, all b, both build modes", "why_tests_cant": "the extended-gcd path depends on every bit of b; a test tries a few b", "anchors": ["includes/field_template.hpp:invert,operator/,operator/="]}
{"id": "C04", "title": "Compound assignment and histories of operations", "statement": "a op= b leaves in a exactly the value of a op b for op in + - * /, and after any finite sequence of such updates on a field variable its content is the canonical representative of the same integer/rational expression evaluated modulo p.", "quantifier": "all field classes, all elements, every finite sequence of compound assignments whose divisors are non-zero", "why_tests_cant": "sequences are unbounded", "anchors": ["includes/field_template.hpp:operator+=,operator-=,operator*=,operator/="]}
{"id": "C05", "title": "Commutative-field laws observed through ==", "statement": "Addition and multiplication are associative and commutative, multiplication distributes over addition, 0 and 1 are neutral, a-b==a+(-b), a.square()==a*a, and a*k==a*F(k), all as judged by operator==.", "quantifier": "all field classes, all triples of elements, all big integers k", "why_tests_cant": "universally quantified algebraic laws over ~2^768 triples", "anchors": ["includes/field_template.hpp"]}
{"id": "C06", "title": "The four moduli are prime and the curve constants are consistent", "statement": "Each of the four field classes uses a prime modulus; for both curves the curve prime equals the coordinate field's modulus, the curve order equals the scalar field's modulus, the prime is 3 mod 4, the curve is non-singular and the default generator satisfies the curve equation. The constants are the values of the hexadecimal strings in the source.", "quantifier": "the closed set of constants in the repository (a finite table, primality quantifies over all potential divisors)", "why_tests_cant": "primality of 254/256-bit constants is a statement about all divisors", "anchors": ["src/fields/field_bn254.cpp", "src/fields/field_secp256r1.cpp", "src/ecc/ecc_bn254.cpp", "src/ecc/ecc_secp256r1.cpp"]}
{"id": "C07", "title": "Re-labelled moduli (setField)", "statement": "When setField gave the operands different moduli, every binary field operation fails its assertion in debug builds; when both were given the same modulus q>0, a+b in either build is the value (a+b mod q) reduced modulo the class's own prime and labelled with the class's own prime, so setField does not survive an operation. Operator == on re-labelled elements is true exactly when moduli and values agree.", "quantifier": "all elements, all moduli q, both build modes", "why_tests_cant": "depends on two independent moduli ranging over all integers", "anchors": ["includes/field_template.hpp:setField,operator+"]}
{"id": "C08", "title": "isValid decides membership of the curve", "statement": "isValid() returns true exactly when the point is infinity, or its curve object is alive, both coordinates are labelled with the prime of the curve, and their values satisfy y^2=x^3+ax+b modulo that prime; for a finite point with no curve it returns false.", "quantifier": "both curves, all point objects, also with coordinates that are not reduced or carry another modulus", "why_tests_cant": "2^512 coordinate pairs", "anchors": ["includes/ecc_template.hpp:Point::isValid"]}
{"id": "C09", "title": "Point addition and scalar multiplication are total and closed on valid points", "statement": "For valid P, Q and any scalar, P+Q, P+=Q, P*k and pointDouble of a finite P finish without assertion failure, null or dangling dereference or undefined inversion, and return a valid point.", "quantifier": "both curves, all valid points, all scalars, both build modes", "why_tests_cant": "exceptional cases (equal x, opposite points, y=0, infinity inside the doubling loop) are hit with negligible probability by random tests", "anchors": ["includes/ecc_template.hpp:operator+,operator*,pointDouble"]}
{"id": "C10", "title": "Point addition is an abelian group law", "statement": "As judged by operator==: (P+Q)+R==P+(Q+R), P+Q==Q+P, P+Inf==P, Inf+P==P, and every valid P has a valid N with P+N==Inf.", "quantifier": "both curves, all triples of valid points", "why_tests_cant": "associativity over ~2^768 triples", "anchors": ["includes/ecc_template.hpp:operator+,operator=="]}
{"id": "C11", "title": "Scalar multiplication is repeated addition", "statement": "P*k equals the sum of k copies of P for k>=0; for negative k it is the inverse of P*|k|; P*(a+b)==P*a+P*b, (P*a)*b==P*(a*b), (P+Q)*a==P*a+Q*a; the field-scalar overload agrees with the integer overload.", "quantifier": "both curves, all valid P, Q, all integers a, b, k of any size and sign", "why_tests_cant": "unbounded scalars and all points", "anchors": ["includes/ecc_template.hpp:operator*(const mpz_class&),operator*(const Field_XXX_n&)"]}
{"id": "C12", "title": "Group order", "statement": "P*order is infinity for every valid P, and for a finite valid P, P*k is infinity exactly when order divides k.", "quantifier": "both curves, all valid points (not only multiples of the generator), all integers k", "why_tests_cant": "requires knowing the exact number of points on the curve", "anchors": ["includes/ecc_template.hpp:operator*", "src/ecc/ecc_secp256r1.cpp", "src/ecc/ecc_bn254.cpp"]}
{"id": "C13", "title": "Every valid point is a unique multiple of the default generator; random points are uniform", "statement": "The map k -> G*k from [0,order) to valid points is a bijection: each valid point is obtained from exactly one value of the random draw, so getRandomPoint (and generateKeyPair's public key) is uniform over the whole curve whenever the draw is uniform; its result is always valid.", "quantifier": "both curves, all valid points, all values of the random draw", "why_tests_cant": "a counting statement over 2^256 outcomes", "anchors": ["includes/ecc_template.hpp:Curve::getRandomPoint,generateKeyPair,getRandomScalar"]}
{"id": "C14", "title": "Point subtraction", "statement": "(P-Q)+Q==P and P-Q is valid for all valid P and Q.", "quantifier": "both curves, all pairs of valid points including infinity, both build modes", "why_tests_cant": "the failing cases (an operand is infinity) have probability 2^-256 under random testing; the test-suite only checks P-P and one P-Q", "anchors": ["includes/ecc_template.hpp:operator-,operator-="]}
{"id": "C15", "title": "Point doubling", "statement": "P.pointDouble()==P+P for every valid P.", "quantifier": "both curves, all valid points including infinity", "why_tests_cant": "needs absence of points with y=0 on either curve", "anchors": ["includes/ecc_template.hpp:pointDouble"]}
{"id": "C16", "title": "Point equality", "statement": "On valid points operator== never dereferences a null or dead curve and returns true exactly when both are infinity or both are finite with the same coordinates; it is an equivalence relation.", "quantifier": "both curves, all pairs of valid points, whatever curve object each was made from as long as it is alive", "why_tests_cant": "null-curve infinities compared with finite points that share coordinates cannot be sampled", "anchors": ["includes/ecc_template.hpp:Point::operator=="]}
{"id": "C17", "title": "Evaluating the curve at x", "statement": "evaluateP(x) and evaluatePneg(x) return infinity exactly when no point has abscissa x; otherwise they return two valid points with abscissa x that are each other's inverse and are the only points with that abscissa; evaluatePy2(x) is x^3+ax+b.", "quantifier": "both curves, all field elements x", "why_tests_cant": "quadratic residuosity of 2^256 values", "anchors": ["includes/ecc_template.hpp:evaluateP,evaluatePneg,evaluatePy2"]}
{"id": "C18", "title": "Compressed-point codec", "statement": "For every finite valid P, setEncodedX(getEncodedX(P)) on any point with a live curve reproduces P; getEncodedX is injective on finite valid points and its value is below 2*prime.", "quantifier": "both curves, all finite valid points, all receiving points", "why_tests_cant": "2^256 points; the sign bit depends on a modular square root", "anchors": ["includes/ecc_template.hpp:getEncodedX,setEncodedX"]}
{"id": "C19", "title": "Textual point constructor", "statement": "Point(Px,Py,c,base) built from numerals of two integers (optional minus sign, white space, digits up to the end or the first NUL) equals the point built from the integers; when a string is no numeral the constructor still returns, silently keeping the previous value (so a bad Py yields y=Px and a bad Px yields x=0).", "quantifier": "all strings, all bases from 2 to 36", "why_tests_cant": "unbounded strings", "anchors": ["includes/ecc_template.hpp:Point(const std::string&,const std::string&,Curve_XXX*,int)"]}
{"id": "C20", "title": "Shamir reconstruction from any sufficient set of shares", "statement": "For threshold t>=1 and n users, any selection of at least t of the returned shares with distinct indices, in any order, reconstructs the shared secret.", "quantifier": "all t>=1, all n (machine size_t), all secrets, all coefficient draws, every duplicate-free selection of at least t shares in every order", "why_tests_cant": "exponentially many subsets and 2^256 secrets; the repository test reconstructs from all 10 shares once", "anchors": ["src/shamirss/shamirss.cpp:getShares,reconSecret,evalPoly"]}
{"id": "C21", "title": "Shamir secrecy below the threshold", "statement": "Fewer than t shares are consistent with every secret (the dealer could have drawn coefficients producing the same shares for any other secret).", "quantifier": "all t, all sets of fewer than t shares, all pairs of secrets", "why_tests_cant": "secrecy is a statement about all secrets and all dealer randomness", "anchors": ["src/shamirss/shamirss.cpp:getShares"]}
{"id": "C22", "title": "Shamir sharing is linear", "statement": "Adding two share vectors made with the same t and n index by index and reconstructing from any t of the sums gives the sum of the two secrets; scaling shares scales the secret.", "quantifier": "all pairs of sharings, all sufficient selections", "why_tests_cant": "all secrets and coefficients", "anchors": ["src/shamirss/shamirss.cpp"]}
{"id": "C23", "title": "Shamir on degenerate input", "statement": "reconSecret of a share list with a repeated index never returns a defined value; reconSecret of the empty list returns 0; getShares with t=0, t>=2^58 or n>=2^57 does not terminate normally; a coefficient draw equal to INT_MAX is signed overflow.", "quantifier": "all share lists with repeated indices, all t and n", "why_tests_cant": "the duplicated pair may be anywhere in an arbitrarily long list", "anchors": ["src/shamirss/shamirss.cpp:getShares,reconSecret"]}
{"id": "C24", "title": "Dual-mode encryption decrypts", "statement": "For a CRS of valid points, a key pair from KeyGen(b) and any valid message point m, Dec(sk,Enc(pk,b,m))==m.", "quantifier": "all CRS, both branches, all secret keys, all messages, all encryption coins, both build modes", "why_tests_cant": "all coins and keys; the degenerate coins that break it are not reachable by sampling", "anchors": ["src/dme/dme.cpp:KeyGen,Enc,Dec"]}
{"id": "C25", "title": "Messy branch loses the message", "statement": "If the public key is not a Diffie-Hellman pair for branch b's (g_b,h_b) then every ciphertext on branch b is produced from every message by exactly one pair of encryption coins, so the ciphertext carries no information about the message.", "quantifier": "all CRS, all public keys, all messages, all ciphertexts", "why_tests_cant": "statistical hiding quantifies over all coins and messages", "anchors": ["src/dme/dme.cpp:Enc"]}
{"id": "C26", "title": "FindMessy names a messy branch", "statement": "In a messy-mode instance FindMessy(pk) returns a branch on which ciphertexts under pk hide the message; in particular for keys from KeyGen(b) it returns the other branch.", "quantifier": "all messy-mode set-ups, all public keys, honest or not", "why_tests_cant": "adversarial public keys range over all pairs of points", "anchors": ["src/dme/dme.cpp:DME_DDH(mode_t),FindMessy"]}
{"id": "C27", "title": "Trapdoor keys open both branches", "statement": "In a decryption-mode instance, TrapKeyGen returns (pk,sk0,sk1) such that ciphertexts under pk on branch 0 decrypt with sk0 and on branch 1 with sk1.", "quantifier": "all decryption-mode set-ups, all trapdoor coins, all messages, all encryption coins", "why_tests_cant": "all coins", "anchors": ["src/dme/dme.cpp:TrapKeyGen"]}
{"id": "C28", "title": "Decryption mode hides the receiver's branch", "statement": "In a decryption-mode instance the public keys produced by KeyGen(b0) and KeyGen(b1) have the same distribution: there is a bijection of the random draw under which both branches output the same public key.", "quantifier": "all decryption-mode set-ups with non-zero trapdoor, all draws", "why_tests_cant": "distribution equality over 2^256 draws", "anchors": ["src/dme/dme.cpp:KeyGen,DME_DDH(mode_t)"]}
{"id": "C29", "title": "Homomorphic evaluation", "statement": "Eval of ciphertexts of m1 and m2 under one key and branch decrypts to m1+m2.", "quantifier": "all CRS, keys, messages and coins", "why_tests_cant": "all coins", "anchors": ["src/dme/dmhe.cpp:Eval"]}
{"id": "C30", "title": "Integer message codec", "statement": "encode(m) terminates for every integer m and returns a valid finite point; decode(encode(m))==m for every m with 0<=m and (m+1)*1024<=prime.", "quantifier": "all integers m", "why_tests_cant": "each m needs a quadratic residue in its own window of 1024 abscissae", "anchors": ["src/dme/dme.cpp:encode,decode"]}
{"id": "C31", "title": "Ciphertext equality", "statement": "c1==c2 for DME ciphertexts is true exactly when both components are equal points.", "quantifier": "all pairs of ciphertexts", "why_tests_cant": "a defect only shows for unequal ciphertexts, which the tests never compare", "anchors": ["src/dme/dme.cpp:CTXT::operator=="]}
{"id": "C32", "title": "Struct equality and CRS transport", "statement": "CRS, trapdoor, public-key and key-pair == are true exactly when every component is equal; an instance built from a CRS (DME_DDH(crs)) uses only its own curve object, so the CRS may outlive the instance and curve that created it.", "quantifier": "all CRS values including those whose points refer to destroyed curve objects", "why_tests_cant": "lifetime: all destruction orders", "anchors": ["src/dme/dme.cpp:CRS_DDH::operator==,updateCurve,DME_DDH(crs_ddh_t)", "includes/dme.hpp"]}
{"id": "C33", "title": "Oblivious transfer delivers the selected message", "statement": "After any history of selectMsg and encMsgs calls, if the receiver's last selection was b and the sender encrypted (m0,m1) under the public key it returned, decryptMsg yields m_b (and decryptMsgDecode the integer m_b when the messages were integers in range).", "quantifier": "all histories of calls on both objects, all messages, all coins, both selections", "why_tests_cant": "state carried between calls: unbounded histories", "anchors": ["src/ot/ot.cpp", "includes/ot.hpp"]}
{"id": "C34", "title": "Oblivious transfer hides the other message", "statement": "With a messy-mode CRS, the ciphertext on the branch the receiver did not select is compatible with every message for exactly one choice of sender coins.", "quantifier": "all messy set-ups, selections, messages, ciphertexts", "why_tests_cant": "all coins", "anchors": ["src/ot/ot.cpp", "src/dme/dme.cpp"]}
{"id": "C35", "title": "Aggregated OT delivers the sum", "statement": "For any number k>=1 of senders answering the same public key, decrypting the proxy's aggregate yields the sum of the k selected messages, whatever was aggregated before.", "quantifier": "all k, all messages, all coins, all previous uses of the proxy", "why_tests_cant": "unbounded number of senders", "anchors": ["src/ot/dot.cpp:aggregate"]}
{"id": "C36", "title": "Lifetime of ciphertexts", "statement": "decryptMsg depends only on the receiver object and the ciphertext value, so it still works after the sender object has been destroyed.", "quantifier": "all receivers, senders, messages, destruction orders", "why_tests_cant": "use-after-free is not visible in ordinary test runs", "anchors": ["includes/ecc_template.hpp:Point::curve", "src/dme/dme.cpp:~DME_DDH,Dec", "src/ot/ot.cpp"]}
{"id": "C37", "title": "PUDA aggregation returns the sum", "statement": "For any number of users set up together, Agg over all users' ciphertexts for one timestamp returns the sum of their 16-bit messages whenever that sum fits in 16 bits.", "quantifier": "all n, all messages, all timestamps (any int), all key draws, ciphertexts in any order", "why_tests_cant": "unbounded user count, and a boundary value (65535) no random test hits", "anchors": ["src/puda/puda.cpp:Setup,Enc,Agg,compute_dlog"]}
{"id": "C38", "title": "PUDA aggregate tag satisfies the verification equation", "statement": "The tag returned by Agg over all users' tags, the sum and the verification key satisfy the bilinear equation e(tag,g2)=e(H(t),vk1)+e(g1*sum,vk2) for every bilinear map e.", "quantifier": "all n, messages, timestamps, keys, all bilinear maps into any abelian group", "why_tests_cant": "quantifies over all pairings and coins", "anchors": ["src/puda/puda.cpp:Setup,Tag,Agg,Verify"]}
{"id": "C39", "title": "PUDA verification rejects wrong sums", "statement": "Verify returns false for any (sum, tag) that does not satisfy the verification equation.", "quantifier": "all verification keys, sums, tags, timestamps", "why_tests_cant": "soundness quantifies over all forgeries", "anchors": ["src/puda/puda.cpp:Verify"]}
{"id": "C40", "title": "PUDA ciphertexts hide single messages", "statement": "For every timestamp, a ciphertext is compatible with every message for exactly one encryption key, and ciphertexts of one user at different timestamps do not determine each other.", "quantifier": "all messages, keys, timestamps", "why_tests_cant": "secrecy is universally quantified over keys", "anchors": ["src/puda/puda.cpp:Enc"]}
{"id": "C41", "title": "ElGamal round trip", "statement": "decrypt(sk,encrypt(G*sk,m)) returns m for integer messages; keyGen returns a matching key pair.", "quantifier": "all secret keys, messages in range, coins", "why_tests_cant": "all coins; the module is not even compiled by the test-suite", "anchors": ["src/elgamal/elgamal.cpp", "includes/elgamal.hpp"]}
{"id": "C42", "title": "calculate_crc32c equals the CRC-32C definition", "statement": "For every buffer address alignment, length, content and initial value, calculate_crc32c returns the bit-serial CRC-32C register (reflected polynomial 0x82F63B78) after the buffer, although it switches between single-table and sliced eight-table code.", "quantifier": "all byte sequences of any length (below 2^32), all addresses, all initial values", "why_tests_cant": "unbounded lengths times 4 alignments; 2304 table constants", "anchors": ["includes/crc.hpp:calculate_crc32c,singletable_crc32c,multitable_crc32c,crc32c_sb8_64_bit,crc32Table,sctp_crc_tableil8_o32..o88"]}
{"id": "C43", "title": "CRC append/validate/remove round trip", "statement": "For every positive integer n, validateCRC(appendCRC(n)) is true and removeCRC(appendCRC(n))==n.", "quantifier": "all positive integers n of any size below 2^32 bytes", "why_tests_cant": "unbounded integers", "anchors": ["includes/crc.hpp:appendCRC,validateCRC,removeCRC"]}
{"id": "C44", "title": "CRC helpers are memory safe", "statement": "appendCRC, validateCRC and removeCRC never read or write outside the buffer they obtained.", "quantifier": "all integers n, all allocators", "why_tests_cant": "heap slack hides the overflow in ordinary runs", "anchors": ["includes/crc.hpp:appendCRC,validateCRC,removeCRC", "src/utilities/utilities.cpp:getRawMpz"]}
{"id": "C45", "title": "CRC detects bursts", "statement": "Changing a checksummed integer in any way confined to at most four consecutive bytes makes validateCRC return false.", "quantifier": "all checksummed integers, all positions, all non-zero changes confined to four consecutive bytes", "why_tests_cant": "all error patterns at all positions in messages of any length", "anchors": ["includes/crc.hpp:validateCRC"]}
{"id": "C46", "title": "CRC composes and is linear", "statement": "The checksum of a concatenation is the checksum of the second part started from the checksum of the first; the checksum of the XOR of two equal-length buffers is the XOR of their checksums; leading zero bytes do not change a checksum started from 0.", "quantifier": "all buffers, all splits, all alignments of each part", "why_tests_cant": "unbounded lengths", "anchors": ["includes/crc.hpp:calculate_crc32c"]}
{"id": "C47", "title": "Integer/byte conversion", "statement": "setRawMpz(getRawMpz(n)) is |n|; getRawMpz yields no leading zero byte and ceil(bits/8) bytes; converting bytes to an integer and back drops exactly the leading zero bytes.", "quantifier": "all integers, all byte strings", "why_tests_cant": "unbounded", "anchors": ["src/utilities/utilities.cpp:getRawMpz,setRawMpz"]}
{"id": "C48", "title": "AES-CTR wrapper round trip", "statement": "decrypt(encrypt(m,key),key)==m for every key of 16 bytes and every message of at most 128 bytes.", "quantifier": "all keys, messages, IVs and every possible block cipher behaviour", "why_tests_cant": "fails only for about 1/256 of the (key,message) pairs; the test uses one fixed pair", "anchors": ["src/utilities/aes.cpp:encrypt,decrypt"]}
{"id": "C49", "title": "AES with CRC round trip and rejection", "statement": "decryptCRC(key,encryptCRC(key,m))==m for every 16-byte key and positive message; decryptCRC returns 0 or the checksummed payload, never an unchecked value.", "quantifier": "all keys, messages, IVs, ciphertexts", "why_tests_cant": "all keys and ciphertexts", "anchors": ["src/utilities/aes.cpp:encryptCRC,decryptCRC"]}
{"id": "C50", "title": "AES argument order", "statement": "encrypt(key,plaintext) and decrypt(key,ciphertext) called in the order the public header declares are inverse to each other.", "quantifier": "all keys and messages", "why_tests_cant": "the header's parameter names differ from the definition; the tests only call the CRC variants", "anchors": ["includes/aes.hpp:AES::encrypt,decrypt", "src/utilities/aes.cpp"]}
{"id": "C51", "title": "AES::init resets the IV", "statement": "After init() the IV is the default one, whatever was set before; encryption and decryption performed with no intervening change of IV use the same keystream.", "quantifier": "all histories of init calls", "why_tests_cant": "histories of a process-wide static", "anchors": ["src/utilities/aes.cpp:AES::init", "includes/aes.hpp"]}
{"id": "C52", "title": "OPPRF key chain implements the comparison", "statement": "Walking the server's per-bit key tables with the client's bits ends with the less-than, equal or greater-than key of bit 0 exactly according to the comparison of the client's input with the threshold.", "quantifier": "all thresholds, all 16-bit inputs, all key material", "why_tests_cant": "2^32 (input, threshold) pairs times all keys; the test tries three inputs", "anchors": ["src/opprf/opprf.cpp:prepareKeysAndInputs,runOTRound_end"]}
{"id": "C53", "title": "OPPRF result at or below the threshold", "statement": "If the client's input x is at most theta, the run ends with getResult()==getKOPPRF()+ga*x, whatever the shuffles.", "quantifier": "all thresholds, inputs, secrets, key draws, OT coins, shuffles", "why_tests_cant": "all coins and shuffles", "anchors": ["src/opprf/opprf.cpp"]}
{"id": "C54", "title": "OPPRF result above the threshold", "statement": "If x is greater than theta the client's result is masked by an independent random point: it equals R+ga*x+r*sum(ok) where R is the server's fresh random point, and so it takes every value as R varies.", "quantifier": "all thresholds, inputs, secrets, draws, shuffles", "why_tests_cant": "all coins and shuffles", "anchors": ["src/opprf/opprf.cpp:sendEncryptedMasks,unmaskResult"]}
{"id": "C55", "title": "OPPRF sessions are independent after clean()", "statement": "After clean() on both sides a new evaluation behaves like one on fresh objects; without the client's clean() the previous result is added in.", "quantifier": "all histories of evaluations", "why_tests_cant": "unbounded histories", "anchors": ["src/opprf/opprf.cpp:clean,prepareKeysAndInputs"]}
{"id": "C56", "title": "Ownership of the curve object in DME_DDH", "statement": "Any sequence of constructing, copying and destroying DME instances (and objects containing them) frees each curve object exactly once.", "quantifier": "all sequences of construct/copy/destroy", "why_tests_cant": "double free needs a copy followed by two destructions, not exercised by tests", "anchors": ["includes/dme.hpp:DME_DDH", "src/dme/dme.cpp:~DME_DDH"]}
{"id": "C58", "title": "CRC detects every odd number of flipped bits", "statement": "If validateCRC accepts an integer, it does not accept any integer obtained from it by flipping an odd number of bits.", "quantifier": "all checksummed integers with a payload below 2^32 bytes, all error patterns of odd weight", "why_tests_cant": "exponentially many error patterns at unbounded lengths", "anchors": ["includes/crc.hpp:validateCRC,calculate_crc32c"]}
{"id": "C59", "title": "Checksummed integers differ in at least four bits", "statement": "Two different integers that validateCRC both accepts differ in at least four bits, so that one, two or three flipped bits are always noticed.", "quantifier": "all integers below 2^28 bytes; all patterns of one to three flipped bits", "why_tests_cant": "cubically many patterns in messages of up to 2^31 bits; depends on the period of the polynomial", "anchors": ["includes/crc.hpp:validateCRC,calculate_crc32c"]}
{"id": "C60", "title": "AES wrapper stays within its buffers", "statement": "encrypt and decrypt never write past their 128-byte stack buffer and never make OpenSSL read outside the key's heap block or the IV string.", "quantifier": "all messages, ciphertexts, keys and IV states", "why_tests_cant": "needs long messages or keys with leading zero bytes; over-reads are silent", "anchors": ["src/utilities/aes.cpp:encrypt,decrypt"]}
{"id": "C61", "title": "decryptCRC rejects altered ciphertexts", "statement": "If decryptCRC accepts a ciphertext, it returns 0 for every other ciphertext that was not produced by encryptCRC under that key.", "quantifier": "all keys, IVs, keystreams, accepted ciphertexts and alterations", "why_tests_cant": "all alterations; the failing ones are structured (checksummed differences)", "anchors": ["src/utilities/aes.cpp:decryptCRC", "includes/crc.hpp:validateCRC"]}
{"id": "C62", "title": "Ciphertexts under one key hide the relation of their messages", "statement": "Two ciphertexts produced with the same key do not determine the exclusive or of the two messages.", "quantifier": "all keys, IVs, keystreams, pairs of messages", "why_tests_cant": "a secrecy property over all keys", "anchors": ["src/utilities/aes.cpp:AES::init,encrypt"]}
{"id": "C63", "title": "prepareKeysAndInputs completes on every draw of keys", "statement": "On a server without keys, prepareKeysAndInputs returns normally exactly when the three 128-bit keys drawn for the lowest bit are not 0 and the 45 keys drawn for the other bits have all 16 bytes; otherwise it throws or has undefined behaviour. The number of good draws is (2^128-1)^3 * (2^128-2^120)^45, about 84 percent of all.", "quantifier": "all servers without keys, thresholds, secrets, keystreams, and all 48 key draws", "why_tests_cant": "failure depends on 48 random keys; a test that passes once says nothing about the sixth of all draws that fail", "anchors": ["src/opprf/opprf.cpp:prepareKeysAndInputs", "src/utilities/aes.cpp:AES,encrypt", "src/utilities/utilities.cpp:getRandom"]}
{"id": "C64", "title": "Every preparation uses fresh keys", "statement": "After prepareKeysAndInputs the tables sent to the client and the keys of the masks are built from the keys drawn in that call.", "quantifier": "all servers, histories and draws", "why_tests_cant": "visible only by comparing two preparations for all draws", "anchors": ["src/opprf/opprf.cpp:prepareKeysAndInputs,clean"]}
{"id": "C65", "title": "Which rounds are defined", "statement": "The client's runOTRound_start(round) is defined exactly when a message was set and 1 <= round <= 32, and it selects bit round-1 of the message without changing message, key or result; the server's runOTRound(round, pk) is defined exactly for 0 <= round <= 16 and changes nothing but its sender.", "quantifier": "all clients, all servers reached by any history of completed calls, all rounds, keys and coins", "why_tests_cant": "all histories and all round numbers, including those a test would not try", "anchors": ["src/opprf/opprf.cpp:runOTRound_start,runOTRound"]}
{"id": "C66", "title": "An evaluation either gives the right result or stops", "statement": "An OPPRF evaluation (setMessage, 16 rounds, unmaskResult) completes exactly when the 15 sealed keys and the mask meant for the client open under their own keys; otherwise the client stops with std::runtime_error (with a failed assert in a debug build). A completed evaluation with a fresh or cleaned client gives the right result.", "quantifier": "all servers, thresholds, secrets, inputs, draws and keystreams", "why_tests_cant": "the failing draws have a chance of a few percent each, and their effect on the outcome has to be excluded for all of them", "anchors": ["src/opprf/opprf.cpp:runOTRound_end,unmaskResult,runOTRound,prepareKeysAndInputs,prepareMasks"]}
{"id": "C67", "title": "An exception leaves the client unchanged", "statement": "When runOTRound_end or unmaskResult throws, the client object is as it was before the call, so a caller that catches the exception can go on as if the call had not been made.", "quantifier": "all clients, rounds, messages, masks, coins, builds, and all histories of calls with caught exceptions", "why_tests_cant": "needs the state after every possible way of throwing", "anchors": ["src/opprf/opprf.cpp:runOTRound_end,unmaskResult"]}
{"id": "C68", "title": "Processes do not share secrets", "statement": "What one process draws at random (OT selection key, encryption coins, PUDA keys, Shamir coefficients) is not known to another process that runs the same library.", "quantifier": "all generators GMP could use, all states of it, all sequences rand() could return, all CRSs, keys, messages, secrets, thresholds, numbers of users and timestamps", "why_tests_cant": "a statement about what any other process can compute, for all inputs; a test run in one process cannot see it", "anchors": ["includes/ecc_template.hpp:Curve::rand,getRandomScalar,getRandomPoint", "src/ot/ot.cpp:selectMsg,encMsgs", "src/puda/puda.cpp:Setup,Agg", "src/shamirss/shamirss.cpp:getShares"]}
{"id": "C69", "title": "The OPPRF client's keys hide its input", "statement": "The server learns nothing about the client's input x: for any two inputs the public keys sent by runOTRound_start are equally distributed, whatever the server answers.", "quantifier": "all pairs of 16-bit inputs, all CRSs drawn in a mode, all client draws, all answers of the server in all 16 rounds", "why_tests_cant": "equality of distributions over 2^256-sized coin spaces against every server", "anchors": ["src/opprf/opprf.cpp:OPPRFclient::runOTRound_start,runOTRound_end", "src/ot/ot.cpp:selectMsg", "src/dme/dme.cpp:KeyGen"]}
{"id": "C70", "title": "The PUDA aggregator learns only the sum", "statement": "At one timestamp, two vectors of messages with the same sum give the aggregator (public parameters, ak, vk, all ciphertexts and tags) the same view.", "quantifier": "all numbers of users, all message vectors with equal sums, all int timestamps, all draws of Setup", "why_tests_cant": "equality of distributions over 2^256-sized key spaces for any number of users", "anchors": ["src/puda/puda.cpp:Setup,Enc,Tag", "includes/puda.hpp"]}
{"id": "C71", "title": "One OPPRF answer tells one entry", "statement": "Whatever key a client sends, the server's answer in a round tells nothing about its table entries for one of the two branches.", "quantifier": "all messy-mode CRSs, all valid public keys (also dishonest ones), all servers and rounds, all draws", "why_tests_cant": "equality of distributions over 2^256-sized coin spaces against every client key", "anchors": ["src/opprf/opprf.cpp:OPPRFserver::runOTRound", "src/ot/ot.cpp:encMsgs", "src/dme/dme.cpp:Enc,FindMessy"]}
{"id": "C72", "title": "What AES::encryptCRC and AES::decryptCRC compute", "statement": "encryptCRC(key, m) is the number whose bytes are those of m followed by their CRC-32C, combined with the keystream of key and IV; decryptCRC(key, c) combines the bytes of c with the keystream and returns what precedes the last four bytes if these are its CRC-32C, and 0 otherwise.", "quantifier": "all keystream functions, keys, IVs, messages, ciphertexts and heap allocators", "why_tests_cant": "every message and ciphertext of every length under every key; leading zero bytes and short plaintexts are rare", "anchors": ["src/utilities/aes.cpp:encryptCRC,decryptCRC,encrypt,decrypt", "includes/crc.hpp:appendCRC,validateCRC,removeCRC"]}
{"id": "C73", "title": "A wrong key is noticed", "statement": "decryptCRC with another key than the one given to encryptCRC returns 0.", "quantifier": "all keystream functions, all pairs of keys, all messages", "why_tests_cant": "a wrong key is accepted once in about 2^32 pairs of keys", "anchors": ["src/utilities/aes.cpp:encryptCRC,decryptCRC", "includes/crc.hpp:validateCRC"]}
{"id": "C74", "title": "OPPRF evaluations in terms of keystream bytes", "statement": "An evaluation gives kopprf + ga*x (input at most the threshold) or the masked value (above) unless a key on the client's path or its mask starts with the first keystream byte of the key it is sealed with; then the client stops.", "quantifier": "all servers and clients with a common CRS, all inputs and thresholds, all draws, all keystream functions", "why_tests_cant": "depends on single bytes of AES keystreams under random keys", "anchors": ["src/opprf/opprf.cpp:prepareKeysAndInputs,runOTRound,runOTRound_end,unmaskResult", "src/utilities/aes.cpp:encryptCRC,decryptCRC"]}
{"id": "C75", "title": "How often the OPPRF client can decrypt the next key", "statement": "A key of 16 bytes sealed with another key of 16 bytes can be opened with that key.", "quantifier": "all keys of 16 bytes, all keystream functions", "why_tests_cant": "a count over 2^128 keys; failures occur once in 255 seals", "anchors": ["src/opprf/opprf.cpp:prepareKeysAndInputs,runOTRound_end", "src/utilities/aes.cpp:encryptCRC,decryptCRC"]}
{"id": "C76", "title": "test_fields and test_ecc", "statement": "The program testsuit/test_fields.cpp exits with status 0 in all builds. testsuit/test_ecc.cpp exits with status 0 exactly when neither of its two draws of random points is a multiple of the group order; for the other draws it dereferences a null pointer.", "quantifier": "all builds (assertions on or off), all pairs of draws for the random points of test_ecc", "why_tests_cant": "the programs draw from a generator that is not seeded: every run of the test suite exercises the same pair of draws", "anchors": ["testsuit/test_fields.cpp:main", "testsuit/test_ecc.cpp:main", "includes/field_template.hpp", "includes/ecc_template.hpp"]}
{"id": "C77", "title": "test_crc and test_aes", "statement": "The program testsuit/test_crc.cpp exits with status 0 exactly when the integer drawn is not 0 and the heap block of its bytes has four spare bytes; otherwise it writes through a null pointer or behind the block, and it never exits with -1. testsuit/test_aes.cpp exits with status 0 exactly when the plaintext drawn is not 0 and does not start with the first byte of the keystream, the key drawn has 16 significant bytes, 15 bytes can be read behind the empty IV, and the heap block of the plaintext's bytes has four spare bytes.", "quantifier": "all integers getRandom(1024) and getRandom(128) can return, all keystream functions, all heap allocators, all bytes behind the IV", "why_tests_cant": "the generator is not seeded, so the test suite sees one key and one message; the failing ones are about 1 in 128", "anchors": ["testsuit/test_crc.cpp:main", "testsuit/test_aes.cpp:main", "includes/crc.hpp", "src/utilities/aes.cpp"]}
{"id": "C78", "title": "test_shamirss and test_puda", "statement": "The program testsuit/test_puda.cpp exits with status 0 for all draws. testsuit/test_shamirss.cpp exits with status 0 exactly when none of the first six values of rand() is INT_MAX; otherwise rand()+1 overflows.", "quantifier": "all sequences of values of rand(), all draws of the PUDA setup", "why_tests_cant": "the generators are not seeded, so the test suite sees one sequence of draws", "anchors": ["testsuit/test_shamirss.cpp:main", "testsuit/test_puda.cpp:main", "src/shamirss/shamirss.cpp", "src/puda/puda.cpp"]}
{"id": "C79", "title": "test_dme and test_ot", "statement": "The programs testsuit/test_dme.cpp and testsuit/test_ot.cpp exit with status 0 for all draws but degenerate ones, in all builds. A draw is degenerate if a mask or a masked message is infinity in a block, if the masks of the two branches agree in a block that expects a wrong decryption, if FindMessy or the trapdoor key meets a zero factor (base, key, trapdoor y, difference of the trapdoors), or if the window of the integer drawn contains no abscissa of the curve. In debug builds with trapdoors e0 and e1 that are not multiples of the group order they exit with status 0 exactly for the other draws; in all builds the conditions on correct decryption, FindMessy and the trapdoor are necessary.", "quantifier": "all draws of common reference strings, keys, messages and encryption randomness", "why_tests_cant": "the generator is not seeded, so the test suite sees one vector of more than a hundred draws", "anchors": ["testsuit/test_dme.cpp:main", "testsuit/test_ot.cpp:main", "src/dme/dme.cpp", "src/ot/ot.cpp"]}
{"id": "C80", "title": "test_opprf", "statement": "The program testsuit/test_opprf.cpp exits with status 0, whatever it draws.", "quantifier": "all values of rand(), all draws of the secret, the CRS, the keys, the OT coins and the shuffles, all keystream functions, builds with and without assertions", "why_tests_cant": "the generators are not seeded, so the test suite sees one sequence of draws", "anchors": ["testsuit/test_opprf.cpp:main", "src/opprf/opprf.cpp"]}
{"id": "C81", "title": "Printed fields, points and curves", "statement": "The text that operator<< writes for a field element shows its value and modulus and determines them: two elements print alike exactly when operator== holds. Two valid points print alike exactly when operator== holds, and the two numbers printed for a finite point, given to the textual constructor, give back the point. Two curves print alike exactly when prime, a, b, order and cofactor agree.", "quantifier": "all field objects (whatever their modulus), all valid points of both curves, all curve parameters", "why_tests_cant": "2^256 values", "anchors": ["includes/field_template.hpp:operator<<", "includes/ecc_template.hpp:operator<<(std::ostream&,const Point&)", "includes/ecc_template.hpp:operator<<(std::ostream&,const Curve&)", "includes/ecc_template.hpp:Point(const std::string&,const std::string&,Curve_XXX*,int)"]}
{"id": "C82", "title": "How many encryption coins make a decryption fail", "statement": "For a dual-mode instance whose two CRS points of the branch are not both infinity and a key drawn as k with 0<k<n, exactly 2n of the n^2 pairs of encryption coins make dec(enc(m)) differ from a finite message m (fail or return another point), and exactly n for m=infinity; for k=0 all of them do. For ElGamal with a secret key that is not 0 modulo n, at most 2 of the n coins make decryption of an encodable message fail.", "quantifier": "all valid CRSs, keys, messages and builds; the count is over all n^2 (n) coins", "why_tests_cant": "the failing coins are 2 in 2^256", "anchors": ["src/dme/dme.cpp:keyGen,enc,dec", "src/elgamal/elgamal.cpp:encrypt,decrypt"]}
{"id": "C83", "title": "How many integers can be encoded", "statement": "Of the integers m>=0 whose window [1024m,1024m+1023] lies below the prime, at least 49.9999% are returned by DualModeEnc::decode(encode(m)); likewise for ElGamal with windows of 2^20.", "quantifier": "all live curve objects, both builds; the count is over all about 2^246 (2^236) messages", "why_tests_cant": "2^246 messages", "anchors": ["src/dme/dme.cpp:encode,decode", "src/elgamal/elgamal.cpp:encode,decode"]}
{"id": "C84", "title": "What Agg returns for arbitrary points, and before Setup", "statement": "After Setup, Agg returns for every list of valid points given as ciphertexts and tags, every key and timestamp: a number below 65535, equal to m>0 exactly if g1*m equals the sum of the ciphertexts plus (hash*t)*ak, and the sum of the tags. Without Setup, Enc and Tag return infinity for all arguments and Agg returns 0 for all valid points; nothing faults.", "quantifier": "all lists of valid points, keys, timestamps, draws of Setup, both builds", "why_tests_cant": "all points and keys; unbounded lists", "anchors": ["src/puda/puda.cpp:Puda,Setup,Enc,Tag,Agg,compute_dlog"]}
{"id": "C85", "title": "Aggregating with another timestamp", "statement": "If the users' messages add up to a number between 1 and 65534 and are encrypted at timestamp t, Agg with timestamp t' returns that number exactly if t=t', the hash is infinity or the users' keys add up to 0 modulo the group order.", "quantifier": "all numbers of users, messages, draws of Setup and pairs of int timestamps", "why_tests_cant": "all pairs of 2^32 timestamps, all keys", "anchors": ["src/puda/puda.cpp:Enc,Agg"]}
{"id": "C86", "title": "Aggregating with users missing", "statement": "If only the ciphertexts of the first n users are aggregated and their messages add up to a number between 1 and 65534, Agg returns that number exactly if the timestamp is 0, the hash is infinity or the keys of the other users add up to 0 modulo the group order.", "quantifier": "all numbers of users and missing users, messages, draws of Setup and int timestamps", "why_tests_cant": "all keys, unbounded numbers of users", "anchors": ["src/puda/puda.cpp:Setup,Enc,Agg"]}
{"id": "C87", "title": "Copies of curve objects", "statement": "A copy of a curve object, or of an ElGamal object (which holds one by value), works like the original, also after the original has been destroyed.", "quantifier": "all draws, both curves, both builds, all keys and messages", "why_tests_cant": "needs a copy that outlives its original; use after free often goes unnoticed", "anchors": ["includes/ecc_template.hpp:Curve,getDefaultGen,getRandomPoint,generateKeyPair", "src/ecc/ecc_secp256r1.cpp:20", "includes/elgamal.hpp:ElGamal"]}
{"id": "C88", "title": "Distribution of the CRS; instances without a trapdoor", "statement": "DME_DDH() draws the CRS uniformly from all quadruples of curve points; DME_DDH(messy) uniformly from those with finite g0 and g1 (apart from degenerate draws); DME_DDH(dec) uniformly from the Diffie-Hellman quadruples with finite g0. On an instance that was not given the trapdoor in question TrapKeyGen never returns and FindMessy's answer does not depend on the CRS.", "quantifier": "all CRS, all draws, all public keys", "why_tests_cant": "a distribution over 2^1024 draws", "anchors": ["src/dme/dme.cpp:DME_DDH(mode_t),DME_DDH(),DME_DDH(crs_ddh_t),FindMessy,TrapKeyGen"]}
{"id": "C89", "title": "PUDA tags cannot be made without the signing keys", "statement": "Somebody who has only seen aggregates (sum, tag, timestamp) returned by Agg cannot make a tag that satisfies the verification equation for another sum or timestamp.", "quantifier": "all set-ups, users, messages, timestamps, claimed sums, all pairings", "why_tests_cant": "Verify is a stub, and no test makes tags for other sums", "anchors": ["src/puda/puda.cpp:Tag,Agg,Verify,Setup"]}
{"id": "C90", "title": "A second Setup on the same object", "statement": "After another Setup the keys of the earlier one still work with each other: Agg returns the sum as before and the tags satisfy the verification equation under the old verification key. Ciphertexts made before it are not aggregated to their sum after it (unless the timestamp is 0, both hashes agree or the keys add up to 0), and ciphertexts under new keys are not with the old aggregation key (unless the timestamp is 0, the hash is infinity or the key sums agree).", "quantifier": "all draws of both set-ups, any number of users, all messages, timestamps", "why_tests_cant": "state carried between calls; all draws", "anchors": ["src/puda/puda.cpp:Setup,Enc,Tag,Agg"]}
{"id": "C91", "title": "An altered Shamir share is noticed", "statement": "If one of the shares given to reconSecret has been altered, reconSecret does not return a wrong secret.", "quantifier": "all selections of shares with different non-zero indices, every position, every altered value", "why_tests_cant": "quantifies over all alterations and all other shares", "anchors": ["src/shamirss/shamirss.cpp:reconSecret"]}
{"id": "C92", "title": "Fewer than t shares do not give the secret back", "statement": "reconSecret applied to fewer than t different shares of getShares(t,n,secret) does not return the secret, and these shares leave every secret possible.", "quantifier": "all thresholds from 2, numbers of users, secrets, draws, selections", "why_tests_cant": "one draw in a hundred, all selections", "anchors": ["src/shamirss/shamirss.cpp:getShares,reconSecret"]}
{"id": "C93", "title": "Keys of TrapKeyGen are keys of the receiver", "statement": "In a decryption-mode object with non-zero trapdoor the public key and first secret key of TrapKeyGen are what KeyGen(0) returns for the same draw, and the public key and second secret key what KeyGen(1) returns for another draw, each draw once: each pair has the distribution of an honest receiver's key. In a messy-mode object with different trapdoors and bases other than infinity no key of branch 0 is a key of branch 1, except the zero keys.", "quantifier": "all draws of the constructors, TrapKeyGen and KeyGen", "why_tests_cant": "equality of distributions over 2^256 draws", "anchors": ["src/dme/dme.cpp:TrapKeyGen,KeyGen,DME(DMEMode)"]}
{"id": "C94", "title": "An altered DME ciphertext is noticed", "statement": "Dec does not return another message for a ciphertext whose second component has been altered on its way.", "quantifier": "all CRSs, branches, keys, messages, draws, alterations", "why_tests_cant": "quantifies over all alterations", "anchors": ["src/dme/dme.cpp:Enc,Dec"]}
{"id": "C95", "title": "The result of every completed OPPRF evaluation", "statement": "Whatever keys are drawn, whatever the cipher, the machine and the build, a completed evaluation of a fresh client leaves result = ga*x + r*sum(ok) + P, where P is the point setEncodedX gives for the first of the three masks that the client's last key opens.", "quantifier": "all servers, thresholds, secrets, inputs, draws, shuffles, keystream functions, machines and builds", "why_tests_cant": "includes the draws under which the client is misled by keys that collide or by seals accepted under a wrong key", "anchors": ["src/opprf/opprf.cpp:runOTRound,runOTRound_end,sendEncryptedMasks,unmaskResult"]}
{"id": "C96", "title": "One preparation answers one evaluation", "statement": "After prepareKeysAndInputs() the server lets clients learn kopprf + ga*x for one input x only; further rounds without a new preparation give nothing more.", "quantifier": "all worlds, servers, clients, inputs and draws", "why_tests_cant": "the tests prepare and clean before every evaluation; the loss concerns all inputs above the threshold and all keys", "anchors": ["src/opprf/opprf.cpp:prepareKeysAndInputs,runOTRound,sendEncryptedMasks"]}
{"id": "C97", "title": "The answers on the path of one input tell only kopprf + ga*x", "statement": "The points a client receives for the bits of its input x, together with the mask it can open, determine kopprf + ga*x and nothing else about ga and kopprf; without the mask (x above the threshold) they tell nothing about either. This holds even for a client that knows all keys.", "quantifier": "all worlds, servers, secrets ga and ga', inputs, keys and draws with r not infinity", "why_tests_cant": "counts the draws that lead to the same view over all 2^256 secrets", "anchors": ["src/opprf/opprf.cpp:prepareKeysAndInputs,runOTRound,sendEncryptedMasks"]}
{"id": "C98", "title": "A wrong key or an altered ElGamal ciphertext is noticed", "statement": "decrypt reports a failure when it is given a key other than the receiver's, or a ciphertext that was altered on the way.", "quantifier": "all keys, all ciphertexts with finite components, all messages that fit", "why_tests_cant": "all keys and ciphertexts; the module is not even compiled by the test-suite", "anchors": ["src/elgamal/elgamal.cpp:decrypt,encrypt,decode"]}
{"id": "C99", "title": "One known message of a PUDA user does not open its other ciphertexts", "statement": "Somebody who knows one message of a user and its ciphertext at one timestamp, but no key, can neither read that user's messages at other timestamps nor make ciphertexts for them.", "quantifier": "all set-ups, keys, messages and timestamps", "why_tests_cant": "all keys, messages and timestamps", "anchors": ["src/puda/puda.cpp:Enc,compute_dlog"]}
{"id": "C100", "title": "The last key of an OPPRF evaluation depends on the tables, the shuffles and the input only", "statement": "For a server that has prepared its tables and draws that put no infinity into a ciphertext on the client's branch, an evaluation of x completes with the key k exactly if these hold. Starting with what arrives for the key of the top entry on x's branch, in each round from 15 to 1 the current key opens one of the three integers that arrive from the entry on x's branch, in shuffled order, and rejects those before it, and this walk ends with k. The masks can be computed and k opens one of them. The client's draw for the mask is not 0 modulo the order. What arrives for an integer v is the first abscissa at or after 1024*v, reduced modulo the prime and divided by 1024. In debug builds with finite ga and CRS the last key of every completed evaluation is the end of such a walk, whatever the draws, so two completed evaluations with the same preparation and shuffles end with the same key whatever the draws of the oblivious transfers.", "quantifier": "all worlds, keys, inputs and draws", "why_tests_cant": "all keys, ciphers, platforms, inputs and draws", "anchors": ["src/opprf/opprf.cpp:runOTRound,runOTRound_start,runOTRound_end,unmaskResult", "src/ot/ot.cpp:decryptMsgDecode", "src/dme/dme.cpp:encode,decode"]}
{"id": "C101", "title": "A client above the threshold learns nothing that lets it compute OPPRF values", "statement": "A client whose input is above the threshold cannot compute ga, kopprf or the value kopprf + ga*z of any input z from what it holds after the oblivious transfers, even if it runs the same library in another process.", "quantifier": "all generators GMP could use, all states of them, all worlds, thresholds, inputs and draws", "why_tests_cant": "a statement about what another process can compute, for all generators, inputs and draws", "anchors": ["src/opprf/opprf.cpp:prepareKeysAndInputs,runOTRound_end", "src/utilities/utilities.cpp:rand,getRandom", "includes/ecc_template.hpp:Curve::rand,getRandomScalar,getRandomPoint"]}
{"id": "C102", "title": "An aggregate of OT answers is one answer to the sums, and one hiding sender hides the sum", "statement": "DOTprxy::aggregate over the answers of any number n >= 1 of senders (same CRS, any valid public key, even one no selectMsg made) holds the same points as what a single sender's encMsgs returns for the sums of the senders' messages with the sums of their draws; so it depends on the messages only through their two sums. If encryption under the key on a branch hides the message for one of the senders, wherever it stands among the others, then for each of its messages every pair of points arises as the aggregate's ciphertext on that branch for exactly one pair of its draws.", "quantifier": "all numbers of senders n >= 1, all messages, draws, valid CRSs and keys, both branches, all worlds", "why_tests_cant": "lists of any length, any key a dishonest receiver could send, and a bijection over the draws", "anchors": ["src/ot/dot.cpp:aggregate", "src/ot/ot.cpp:encMsgs", "src/dme/dme.cpp:Enc", "src/dme/dmhe.cpp:Eval"]}
{"id": "C103", "title": "After OPPRFserver::clean nothing of the last session is answered", "statement": "After clean, until the next prepareKeysAndInputs, the server answers nothing that depends on the session before: in every round of runOTRound a client with any input gets the key 0 and infinity, and sendEncryptedMasks does not return.", "quantifier": "all servers, prepared with any draws, all rounds, inputs, public keys and draws, both builds", "why_tests_cant": "the tests never call clean; the claim is about all inputs and draws, and what two answers together reveal is not visible in either", "anchors": ["src/opprf/opprf.cpp:OPPRFserver::clean", "src/opprf/opprf.cpp:OPPRFserver::runOTRound", "src/opprf/opprf.cpp:OPPRFserver::sendEncryptedMasks", "src/opprf/opprf.cpp:OPPRFclient::runOTRound_end"]}
{"id": "C104", "title": "Checksummed integers of up to 659 bytes differ in at least six bits", "statement": "Two different integers of up to 659 bytes that validateCRC both accepts differ in at least six bits, so that up to five flipped bits, anywhere, are always noticed; both numbers are sharp: in integers of 660 bytes four flipped bits can go unnoticed, and in integers of 27 bytes six.", "quantifier": "all integers of up to 659 bytes that validateCRC accepts; all patterns of one to five flipped bits", "why_tests_cant": "there are more than 10^16 patterns of five bits for each of the 2^5240 payloads", "anchors": ["includes/crc.hpp:validateCRC,calculate_crc32c"]}
{"id": "C105", "title": "The point operations of a scalar multiplication do not depend on the scalar", "statement": "operator* on a finite point performs the same additions and doublings in the same order for every scalar, so that somebody who can tell them apart learns nothing about the scalar; in particular the operations of DME_DDH::Dec and ElGamal::decrypt do not depend on the secret key.", "quantifier": "both curves, all finite valid points, all scalars in [0,order), all ciphertexts with a finite first component and all secret keys", "why_tests_cant": "the tests compare results, not the way to them; the claim compares all pairs of scalars", "anchors": ["includes/ecc_template.hpp:Point::operator*", "includes/ecc_template.hpp:Point::operator+=", "src/dme/dme.cpp:DME_DDH::Dec", "src/elgamal/elgamal.cpp:decrypt"]}
{"id": "C106", "title": "crc32_tab is the table of CRC-32", "statement": "The 256 entries of crc32_tab are the remainders of all bytes for the polynomial named in the header, and the function given with it returns the CRC-32 of the first size bytes of its buffer.", "quantifier": "all 256 entries; all buffers and sizes", "why_tests_cant": "no test and no function reads the table; the claim is about buffers of every length", "anchors": ["includes/crc.hpp:crc32_tab"]}
{"id": "C107", "title": "Checksummed integers of up to 26 bytes differ in at least eight bits", "statement": "Two different integers of up to 26 bytes that validateCRC both accepts differ in at least eight bits, so that up to seven flipped bits, anywhere, are always noticed; the same holds for ciphertexts of up to 26 bytes given to decryptCRC, such as the sealed keys of the OPPRF tables. Both numbers are sharp: in integers of 27 bytes six flipped bits can go unnoticed (C104), and in integers of ten bytes eight.", "quantifier": "all integers of up to 26 bytes that validateCRC accepts, all ciphertexts of up to 26 bytes that decryptCRC accepts, all ciphers, keys and IVs; all patterns of one to seven flipped bits", "why_tests_cant": "there are more than 10^12 patterns of seven bits for each of the 2^176 integers; testing reaches a vanishing part", "anchors": ["includes/crc.hpp:validateCRC,calculate_crc32c", "src/utilities/aes.cpp:decryptCRC"]}
{"id": "C108", "title": "Points off the curve are rejected by scalar multiplication and decryption", "statement": "operator*, DME_DDH::Dec and ElGamal::decrypt do not compute with a point that is not on the curve, so that what they return for a chosen point or ciphertext says nothing about the scalar or the secret key.", "quantifier": "all points and ciphertexts, all scalars and secret keys, all live curve objects, both build modes", "why_tests_cant": "tests use points of the curve only; that an answer determines the key modulo r is a statement about all pairs of keys", "anchors": ["includes/ecc_template.hpp:operator+,operator*,pointDouble,isValid", "src/dme/dme.cpp:Dec", "src/elgamal/elgamal.cpp:decrypt"]}
{"id": "C109", "title": "The AES wrapper and the CRC helpers release what they allocate", "statement": "appendCRC, validateCRC, removeCRC and the functions of AES leave the heap as they found it; in particular, after OPPRFserver::clean and OPPRFclient::clean no memory block holds a key of the session.", "quantifier": "all keys, messages, keystreams, servers, clients, draws, numbers of sessions, heaps", "why_tests_cant": "the blocks are not observable through the API, and tests look at results; the number of blocks after any number of sessions and their contents are statements about all runs", "anchors": ["src/utilities/utilities.cpp:getRawMpz", "includes/crc.hpp:appendCRC,validateCRC,removeCRC", "src/utilities/aes.cpp:encrypt,decrypt,encryptCRC,decryptCRC", "src/opprf/opprf.cpp:prepareKeysAndInputs,sendEncryptedMasks,runOTRound_end,unmaskResult,clean"]}
{"id": "C110", "title": "The order of an OPPRF answer hides the comparison", "statement": "The three ciphertexts of an answer of OPPRFserver come in an order that the client cannot tell, so which of them it can open tells it nothing about the threshold.", "quantifier": "all worlds, servers, clients, thresholds, inputs, sequences returned by rand(), undisturbing draws", "why_tests_cant": "a statement about what a client can infer from every run; the tests look at results and run in one process", "anchors": ["src/opprf/opprf.cpp:runOTRound,sendEncryptedMasks,runOTRound_end,unmaskResult"]}
{"id": "C111", "title": "An OPPRF answer altered on its way is noticed", "statement": "If somebody between OPPRFserver and OPPRFclient changes an answer of runOTRound without knowing any key, the client does not complete with a result other than the one it would have had.", "quantifier": "all worlds (cipher, machine, build), servers, clients, thresholds, inputs, draws, rounds 1 to 16 and points added", "why_tests_cant": "a statement about every alteration of every message; the tests pass the answers on unchanged", "anchors": ["src/opprf/opprf.cpp:runOTRound,runOTRound_end,unmaskResult", "src/ot/ot.cpp:decryptMsg", "src/dme/dme.cpp:Dec"]}
{"id": "C112", "title": "Whether a client completes an OPPRF evaluation does not depend on a bit of its input", "statement": "An OPPRFserver that sees only whether the client completes the evaluation (the 16 rounds and unmaskResult) cannot find out a bit of the client's input, whatever tables it answers with.", "quantifier": "all worlds, servers, clients, thresholds, inputs, undisturbing draws, the 16 bits", "why_tests_cant": "a statement about servers that do not follow prepareKeysAndInputs; the tests have one honest server", "anchors": ["src/opprf/opprf.cpp:prepareKeysAndInputs,runOTRound,runOTRound_end,unmaskResult"]}
{"id": "C113", "title": "An answer to an earlier selection of an OTrecv still opens after another selection", "statement": "If an OTrecv has called selectMsg(b) and an OTsend has answered the returned key with encMsgs(m0, m1), then decryptMsg returns m_b for this answer also if selectMsg(b) was called again in between.", "quantifier": "all receivers and senders that are ready, all histories before and in between, all branches, draws, messages", "why_tests_cant": "the tests call selectMsg, encMsgs, decryptMsg strictly in turn; the outcome for all pairs of draws is a statement over the whole group", "anchors": ["src/ot/ot.cpp:selectMsg,decryptMsg,encMsgs"]}
{"id": "C114", "title": "A client that made the CRS learns no more from an OPPRF evaluation than any other", "statement": "A client that has constructed the DME_DDH object whose CRS the OPPRFserver uses, and sends keys that an honest client could have sent, learns from one evaluation the value of one input only.", "quantifier": "all worlds, servers, decryption-mode objects with non-zero draws, draws of TrapKeyGen, draws of the server, inputs", "why_tests_cant": "test_opprf has an honest client; that one set of answers determines the outcomes for all 65536 inputs is a statement about all of them", "anchors": ["src/dme/dme.cpp:TrapKeyGen", "src/opprf/opprf.cpp:runOTRound,sendEncryptedMasks,runOTRound_end,unmaskResult"]}
{"id": "C115", "title": "The ciphertexts of a PUDA user at two timestamps hide both messages", "statement": "Whoever has the public parameters and the results of Enc of one user at two different timestamps, but no key, learns nothing about the two messages.", "quantifier": "all draws of Setup, keys, pairs of int timestamps, pairs of messages, guesses", "why_tests_cant": "what can and cannot be told from two ciphertexts is a statement about all keys and all pairs of 65536 messages", "anchors": ["src/puda/puda.cpp:Setup,Enc", "includes/puda.hpp"]}
{"id": "C116", "title": "The PUDA verification key does not let its holder change tags or read messages", "statement": "Whoever has the verification key and tags, but no signing key, can neither make the tag of another message or sum from a tag nor learn anything about the messages from tags of one user at two timestamps.", "quantifier": "all draws of Setup, users, messages, sums, timestamps, pairings", "why_tests_cant": "test_puda only calls Verify, which always returns true; that a tag can be altered is a statement about all tags and all pairings", "anchors": ["src/puda/puda.cpp:Setup,Tag,Verify", "includes/puda.hpp:CURVE1,CURVE2"]}
{"id": "C117", "title": "A client that never completes an OPPRF evaluation learns nothing about ga", "statement": "A client that only calls for rounds of a prepared OPPRFserver, but does not complete an evaluation and does not ask for the masks, learns nothing about the secret ga.", "quantifier": "all worlds, fresh servers, draws of the preparation, rounds 1 to 16, keys of the client, draws of the two answers", "why_tests_cant": "test_opprf asks for each round once; that the difference of two answers is ga for all tables, thresholds and draws is a statement about all of them", "anchors": ["src/opprf/opprf.cpp:prepareKeysAndInputs,runOTRound"]}
{"id": "C118", "title": "The time Agg takes does not depend on the messages", "statement": "The number of multiplications and comparisons made by compute_dlog inside Puda::Agg is the same for all messages, so that somebody who measures the time of an aggregation learns nothing about the sum.", "quantifier": "any number of users, all messages, draws of Setup, timestamps, orders of the ciphertexts, both builds", "why_tests_cant": "test_puda looks at the result only; how often the loop runs for every sum is a statement about all of them", "anchors": ["src/puda/puda.cpp:Agg,compute_dlog"]}
{"id": "C119", "title": "A copy of a Puda object works after the original has been destroyed", "statement": "Enc, Tag and Agg on a copy of a Puda object that has been set up give the same results as on the original, also after the original has been destroyed.", "quantifier": "all draws of Setup, keys, messages, timestamps, lists of points, both builds", "why_tests_cant": "test_puda uses one object and no copy; use after free need not show in a run", "anchors": ["includes/puda.hpp:Puda", "src/puda/puda.cpp:~Puda,Enc,Tag,Agg"]}
{"id": "C120", "title": "A PUDA aggregator that colludes with some users learns only the sum of the others", "statement": "At one timestamp, two vectors of messages that agree on the colluding users and have the same sum give the aggregator (public parameters, ak, vk, all ciphertexts and tags) together with the encryption and signing keys of the colluding users the same view.", "quantifier": "all numbers of users, all sets of colluding users, all message vectors with equal sums, all int timestamps, all draws of Setup", "why_tests_cant": "a statement about what cannot be told apart, over all keys", "anchors": ["src/puda/puda.cpp:Setup,Enc,Tag"]}
{"id": "C121", "title": "The result of an OPPRF evaluation outlives the parties", "statement": "The point that OPPRFclient::getResult() returns can be used after the client and the server have been destroyed.", "quantifier": "all worlds, thresholds, CRS, secrets, inputs, draws, completed evaluations, later heaps in which the curve objects of both parties are gone", "why_tests_cant": "the test compares the result while both objects are alive; use after free often goes unnoticed", "anchors": ["includes/opprf.hpp:getResult", "src/opprf/opprf.cpp:runOTRound_end,unmaskResult", "src/dme/dme.cpp:~DME_DDH"]}
{"id": "C122", "title": "The time the OPPRF client takes does not tell the server its input", "statement": "How many ciphertexts OPPRFclient::runOTRound_end and OPPRFclient::unmaskResult try before one opens tells the server nothing about the client's input.", "quantifier": "all worlds, parties, inputs, thresholds, undisturbing draws", "why_tests_cant": "the test checks the result of an evaluation and measures no times", "anchors": ["src/opprf/opprf.cpp:runOTRound_end,unmaskResult,runOTRound,sendEncryptedMasks"]}
{"id": "C123", "title": "The time encode takes does not depend on the message", "statement": "DME_DDH::Enc(pk, b, m) and ElGamal::encrypt(pk, m) for integers m compute the same number of square roots for all m.", "quantifier": "all instances, keys, branches, draws, integers", "why_tests_cant": "the tests measure no times", "anchors": ["src/dme/dme.cpp:encode,Enc", "src/elgamal/elgamal.cpp:encode", "includes/elgamal.hpp:encrypt"]}
{"id": "C124", "title": "An OT receiver that sends a key without infinity learns one message only", "statement": "OTsndr::encMsgs gives a receiver whose key has two finite components at most one of the two messages.", "quantifier": "all senders, CRSs of valid points in either mode, pairs of messages, encryption draws", "why_tests_cant": "the tests only use keys made by KeyGen", "anchors": ["src/ot/ot.cpp:encMsgs", "src/dme/dme.cpp:Enc", "includes/ecc_template.hpp:operator+,operator*"]}
