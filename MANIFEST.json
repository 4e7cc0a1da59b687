{
 "claims": [
  {
   "property": "C01",
   "status": "proved",
   "theorems": [
    "Verif.C01_add",
    "Verif.C01_sub",
    "Verif.C01_mul",
    "Verif.C01_neg",
    "Verif.C01_square",
    "Verif.C01_mulZ"
   ],
   "note": "All four field classes (any IsModulus), both build modes."
  },
  {
   "property": "C02",
   "status": "proved",
   "theorems": [
    "Verif.C02_ctor",
    "Verif.C02_eq",
    "Verif.C02_default"
   ],
   "note": "Constructor, default constructor and ==."
  },
  {
   "property": "C03",
   "status": "proved",
   "theorems": [
    "Verif.C03_invert",
    "Verif.C03_div",
    "Verif.C03_zero"
   ],
   "note": "Includes that zero divisors never yield a defined result."
  },
  {
   "property": "C04",
   "status": "proved",
   "theorems": [
    "Verif.C04_programs",
    "Verif.C04_agrees"
   ],
   "note": "Arbitrary straight-line programs of compound assignments over any number of variables, aliasing included."
  },
  {
   "property": "C05",
   "status": "proved",
   "theorems": [
    "Verif.C05_field_laws"
   ],
   "note": "Laws observed through operator==."
  },
  {
   "property": "C06",
   "status": "proved",
   "theorems": [
    "Verif.C06_primes",
    "Verif.C06_constants",
    "Verif.C06_text"
   ],
   "note": "Primality by Pratt certificates checked in the kernel."
  },
  {
   "property": "C07",
   "status": "proved",
   "theorems": [
    "Verif.C07_different",
    "Verif.C07_same",
    "Verif.C07_same_sub_mul",
    "Verif.C07_div_relabelled",
    "Verif.C07_eq"
   ],
   "note": "Also shows that division of relabelled elements fails its assertion."
  },
  {
   "property": "C08",
   "status": "proved",
   "theorems": [
    "Verif.C08_isValid",
    "Verif.C08_isValid_object",
    "Verif.C08_special",
    "Verif.C08_exact"
   ],
   "note": ""
  },
  {
   "property": "C09",
   "status": "proved",
   "theorems": [
    "Verif.C09_add",
    "Verif.C09_smul",
    "Verif.C09_double"
   ],
   "note": ""
  },
  {
   "property": "C10",
   "status": "proved",
   "theorems": [
    "Verif.C10_assoc",
    "Verif.C10_comm",
    "Verif.C10_neutral",
    "Verif.C10_inverse"
   ],
   "note": "Refinement to the group law of Mathlib."
  },
  {
   "property": "C11",
   "status": "proved",
   "theorems": [
    "Verif.C11_repeated_addition",
    "Verif.C11_negative",
    "Verif.C11_add_scalar",
    "Verif.C11_mul_scalar",
    "Verif.C11_add_point",
    "Verif.C11_overloads"
   ],
   "note": ""
  },
  {
   "property": "C12",
   "status": "proved",
   "theorems": [
    "Verif.C12_order",
    "Verif.C12_exact"
   ],
   "note": "The group order is established by kernel-checked certificates."
  },
  {
   "property": "C13",
   "status": "proved",
   "theorems": [
    "Verif.C13_bijection",
    "Verif.C13_keyPair"
   ],
   "note": "generateKeyPair is modelled as intended (the template passes a base-class object)."
  },
  {
   "property": "C14",
   "status": "partial",
   "theorems": [
    "Verif.C14_sub_partial",
    "Verif.C14_debug_counterexample",
    "Verif.C14_minus_infinity_counterexample",
    "Verif.C14_infinity_minus_counterexample",
    "Verif.C14_exact"
   ],
   "note": "False for infinity operands: counterexample theorems show a null dereference in debug builds and wrong results in release builds. Proved for finite operands. C14_exact: for valid P and Q the property holds exactly if Q is finite and the curve pointer of P is live."
  },
  {
   "property": "C15",
   "status": "partial",
   "theorems": [
    "Verif.C15_double_partial",
    "Verif.C15_infinity_counterexample",
    "Verif.C15_exact"
   ],
   "note": "False for infinity (always undefined). Proved for finite points. C15_exact: it holds exactly for finite P."
  },
  {
   "property": "C16",
   "status": "proved",
   "theorems": [
    "Verif.C16_eq",
    "Verif.C16_equivalence"
   ],
   "note": ""
  },
  {
   "property": "C17",
   "status": "proved",
   "theorems": [
    "Verif.C17_py2",
    "Verif.C17_evaluate"
   ],
   "note": ""
  },
  {
   "property": "C18",
   "status": "proved",
   "theorems": [
    "Verif.C18_roundtrip",
    "Verif.C18_injective",
    "Verif.C18_infinity",
    "Verif.C18_decode_total"
   ],
   "note": ""
  },
  {
   "property": "C19",
   "status": "proved",
   "theorems": [
    "Verif.C19_exact",
    "Verif.C19_unique",
    "Verif.C19_digits",
    "Verif.C19_decimal",
    "Verif.C19_malformed"
   ],
   "note": "mpz_set_str is modelled for bases 2 to 36."
  },
  {
   "property": "C20",
   "status": "proved",
   "theorems": [
    "Verif.Shamir.C20_reconstruct",
    "Verif.Shamir.C20_indices"
   ],
   "note": "Sizes within std::vector limits and draws below INT_MAX (the excluded cases are C23)."
  },
  {
   "property": "C21",
   "status": "partial",
   "theorems": [
    "Verif.Shamir.C21_free_coefficients_partial",
    "Verif.Shamir.C21_free_coefficients_fewer_partial",
    "Verif.Shamir.C21_leak_counterexample",
    "Verif.Shamir.C21_candidates_counterexample"
   ],
   "note": "False in the code: coefficients lie in 0..99, a single share excludes almost every other secret (counterexample for every t and n). Proved for coefficients free in the field. C21_candidates_counterexample: k of the t shares leave at most 100^(t-k) secrets open, t-1 shares at most 100."
  },
  {
   "property": "C22",
   "status": "proved",
   "theorems": [
    "Verif.Shamir.C22_sum",
    "Verif.Shamir.C22_scale"
   ],
   "note": ""
  },
  {
   "property": "C23",
   "status": "proved",
   "theorems": [
    "Verif.Shamir.C23_repeated",
    "Verif.Shamir.C23_empty",
    "Verif.Shamir.C23_zero_threshold",
    "Verif.Shamir.C23_int_max",
    "Verif.Shamir.C23_too_many"
   ],
   "note": ""
  },
  {
   "property": "C24",
   "status": "partial",
   "theorems": [
    "Verif.Dme.C24_decrypts_partial",
    "Verif.Dme.C24_zero_coins_counterexample"
   ],
   "note": "False for degenerate coins (subtraction of infinity, C14): counterexample. Proved with the exact condition for a defined result."
  },
  {
   "property": "C25",
   "status": "partial",
   "theorems": [
    "Verif.Dme.C25_hides_iff_partial",
    "Verif.Dme.C25_infinite_crs_counterexample"
   ],
   "note": "Exact characterisation of the keys under which the message is hidden; false for a CRS containing infinity (counterexample)."
  },
  {
   "property": "C26",
   "status": "partial",
   "theorems": [
    "Verif.Dme.C26_findMessy_partial",
    "Verif.Dme.C26_honest_partial",
    "Verif.Dme.C26_infinite_key_counterexample",
    "Verif.Dme.C26_equal_trapdoors_counterexample",
    "Verif.Dme.C26_exact",
    "Verif.Dme.C26_instance_exact"
   ],
   "note": "False for the infinite key and for equal trapdoors (counterexamples); proved otherwise. C26_exact: the exact condition for every draw and key; C26_instance_exact: FindMessy is right about all keys with a finite component exactly if the trapdoors differ and both bases are finite."
  },
  {
   "property": "C27",
   "status": "partial",
   "theorems": [
    "Verif.Dme.C27_trapdoor_partial",
    "Verif.Dme.C27_zero_trapdoor_counterexample"
   ],
   "note": "False for a zero trapdoor or degenerate coins (counterexample); proved otherwise."
  },
  {
   "property": "C28",
   "status": "proved",
   "theorems": [
    "Verif.Dme.C28_branch_hidden"
   ],
   "note": "Non-zero trapdoor as in the statement."
  },
  {
   "property": "C29",
   "status": "partial",
   "theorems": [
    "Verif.Dme.C29_eval_partial",
    "Verif.Dme.C29_zero_coins_counterexample",
    "Verif.Dme.C29_exact"
   ],
   "note": "Same exclusion of degenerate coins as C24 (counterexample). C29_exact gives the exact condition."
  },
  {
   "property": "C30",
   "status": "partial",
   "theorems": [
    "Verif.Dme.C30_encode_terminates",
    "Verif.Dme.C30_round_trip_partial",
    "Verif.Dme.C30_exact"
   ],
   "note": "Termination and validity proved for every integer; the round trip is proved exactly when the 1024-wide window of the message contains an abscissa of the curve. That every window does is an open number-theoretic statement. C30_exact: for every integer m, decode(encode(m))=m exactly if m>=0 and some field element in [1024m,1024m+1024) is an abscissa."
  },
  {
   "property": "C31",
   "status": "partial",
   "theorems": [
    "Verif.Dme.C31_equal_partial",
    "Verif.Dme.C31_counterexample"
   ],
   "note": "False: operator== compares a component with itself (counterexample). The provable direction is kept."
  },
  {
   "property": "C32",
   "status": "proved",
   "theorems": [
    "Verif.Dme.C32_crs_eq",
    "Verif.Dme.C32_key_eq",
    "Verif.Dme.C32_transport",
    "Verif.Dme.C32_trapdoor_eq"
   ],
   "note": "C32_trapdoor_eq: the trapdoor structs."
  },
  {
   "property": "C33",
   "status": "partial",
   "theorems": [
    "Verif.Ot.C33_delivers_partial",
    "Verif.Ot.C33_delivers_int_partial",
    "Verif.Ot.C33_before_selection",
    "Verif.Ot.C33_zero_coins_counterexample",
    "Verif.Ot.C33_int_exact",
    "Verif.Ot.C33_int_debug"
   ],
   "note": "False for degenerate coins (counterexample); otherwise proved for arbitrary histories. C33_int_exact: for arbitrary integers and non-degenerate draws the receiver gets an integer, equal to m_b exactly if m_b fits in that sense. C33_int_debug: in debug builds with a CRS of finite points the integer arrives exactly if the draws are not degenerate and it fits."
  },
  {
   "property": "C34",
   "status": "partial",
   "theorems": [
    "Verif.Ot.C34_other_hidden_partial",
    "Verif.Ot.C34_exact"
   ],
   "note": "Degenerate draws of the CRS and the key are excluded (C26 shows failure there). C34_exact: the other message is hidden exactly if the trapdoors differ, both bases are finite and the key is not zero."
  },
  {
   "property": "C35",
   "status": "partial",
   "theorems": [
    "Verif.Ot.C35_sum_partial",
    "Verif.Ot.C35_empty",
    "Verif.Ot.C35_exact"
   ],
   "note": "Degenerate coins excluded as in C33; aggregating an empty list is shown undefined. C35_exact gives the exact condition."
  },
  {
   "property": "C36",
   "status": "partial",
   "theorems": [
    "Verif.Ot.C36_use_after_free_counterexample",
    "Verif.Ot.C36_alive_partial",
    "Verif.Ot.C36_exact"
   ],
   "note": "False: every ciphertext refers to the curve object of its sender, use after free proved. The part for live senders is proved. C36_exact: with a non-zero key and finite components, decryption after the destruction is undefined except with assertions off, the secret key 1 and components that do not cancel (or a second component of another object)."
  },
  {
   "property": "C37",
   "status": "partial",
   "theorems": [
    "Verif.Puda.C37_exact",
    "Verif.Puda.C37_sum_partial",
    "Verif.Puda.C37_counterexample"
   ],
   "note": "The exact result for every sum is proved; the property fails for the sum 65535, for which 0 is returned (counterexample for all such inputs)."
  },
  {
   "property": "C38",
   "status": "proved",
   "theorems": [
    "Verif.Puda.C38_tag_verifies"
   ],
   "note": ""
  },
  {
   "property": "C39",
   "status": "partial",
   "theorems": [
    "Verif.Puda.C39_counterexample"
   ],
   "note": "False: Verify always returns true. Counterexample for every non-degenerate pairing and every set-up with a non-zero secret."
  },
  {
   "property": "C40",
   "status": "partial",
   "theorems": [
    "Verif.Puda.C40_hides_partial",
    "Verif.Puda.C40_reveals_counterexample",
    "Verif.Puda.C40_linked_counterexample",
    "Verif.Puda.C40_exact"
   ],
   "note": "Exactly one key per (message, ciphertext) for non-zero timestamps; false for timestamp 0 and across timestamps (counterexamples). C40_exact: the first part holds exactly if timestamp and draw of the hash point are not 0."
  },
  {
   "property": "C41",
   "status": "partial",
   "theorems": [
    "Verif.ElGamal.C41_round_trip_partial",
    "Verif.ElGamal.C41_zero_coin_counterexample",
    "Verif.ElGamal.C41_keyGen_counterexample",
    "Verif.ElGamal.C41_exact",
    "Verif.ElGamal.C41_debug"
   ],
   "note": "Round trip exactly when the window contains an abscissa, for non-degenerate coins; zero coin and keyGen shown to fail. C41_exact: the same for every integer with windows of 2^20. C41_debug: the exact condition for every key, draw and integer in debug builds."
  },
  {
   "property": "C42",
   "status": "proved",
   "theorems": [
    "Verif.C42_crc32c",
    "Verif.C42_truncates"
   ],
   "note": "all lengths below 2^32, all alignments, both preprocessor branches; longer buffers are truncated (C42_truncates)"
  },
  {
   "property": "C43",
   "status": "partial",
   "theorems": [
    "Verif.C43_round_trip_partial",
    "Verif.C43_format_partial",
    "Verif.C43_exact"
   ],
   "note": "holds on platforms whose heap blocks have four spare bytes; without them appendCRC is undefined (C44) C43_exact: the round trip works exactly if the block has four spare bytes."
  },
  {
   "property": "C44",
   "status": "partial",
   "theorems": [
    "Verif.C44_append_partial",
    "Verif.C44_append_counterexample",
    "Verif.C44_validate_remove_partial",
    "Verif.C44_short_counterexample"
   ],
   "note": "False: appendCRC always writes four bytes past its block, validateCRC/removeCRC read outside for integers below 2^24; exact characterisations proved"
  },
  {
   "property": "C45",
   "status": "partial",
   "theorems": [
    "Verif.C45_burst_partial",
    "Verif.C45_uncovered",
    "Verif.C45_long_counterexample"
   ],
   "note": "proved for payloads below 2^32 bytes; false beyond (length truncated to unsigned int); when fewer than four bytes remain the code reads out of bounds instead of rejecting"
  },
  {
   "property": "C46",
   "status": "proved",
   "theorems": [
    "Verif.C46_concat",
    "Verif.C46_linear",
    "Verif.C46_leading_zeros"
   ],
   "note": "composition, linearity and leading zeros for all buffers below 2^32 bytes, all alignments"
  },
  {
   "property": "C47",
   "status": "proved",
   "theorems": [
    "Verif.C47_read_back",
    "Verif.C47_length",
    "Verif.C47_no_leading_zero",
    "Verif.C47_value",
    "Verif.C47_drops_zeros",
    "Verif.C47_unique"
   ],
   "note": "all integers, all byte strings"
  },
  {
   "property": "C48",
   "status": "partial",
   "theorems": [
    "Verif.C48_exact_partial",
    "Verif.C48_zero_partial",
    "Verif.C48_counterexample",
    "Verif.C48_exact",
    "Verif.C48_encrypt_exact",
    "Verif.C48_decrypt_exact"
   ],
   "note": "False when the first message byte equals the first keystream byte (leading ciphertext zeros are lost); exact iff proved for all keystreams, plus a counterexample for every keystream with non-zero first byte C48_exact: the exact condition for every integer key and message below 2 GB. C48_encrypt_exact, C48_decrypt_exact: exactly when the two functions return, and what."
  },
  {
   "property": "C49",
   "status": "partial",
   "theorems": [
    "Verif.C49_checked",
    "Verif.C49_round_trip_partial",
    "Verif.C49_counterexample",
    "Verif.C49_exact"
   ],
   "note": "rejection proved in full (C49_checked); round trip holds iff the first message byte differs from the first keystream byte and the platform has four spare heap bytes C49_exact: the exact condition for every integer key and message below 2 GB."
  },
  {
   "property": "C50",
   "status": "partial",
   "theorems": [
    "Verif.C50_short_counterexample",
    "Verif.C50_counterexample",
    "Verif.C50_equal_partial",
    "Verif.C50_exact"
   ],
   "note": "False: header and definition disagree on the parameter order C50_exact: the exact condition for every key, message and cipher: the message is only used as a key, so it comes back only by coincidence."
  },
  {
   "property": "C51",
   "status": "partial",
   "theorems": [
    "Verif.C51_history_partial",
    "Verif.C51_counterexample",
    "Verif.C51_same_iv_partial",
    "Verif.C51_default_unreadable_counterexample"
   ],
   "note": "False: init() assigns the IV to itself; exact description of the IV after any history proved"
  },
  {
   "property": "C52",
   "status": "partial",
   "theorems": [
    "Verif.Opprf.C52_chain",
    "Verif.Opprf.C52_walk_partial"
   ],
   "note": "The prepared table links the keys along the comparison of every input, for every preparation that returns (C52_chain, unconditional). The walk of a client through it is proved for draws that do not disturb the evaluation (Undisturbed: each condition is an exact failure mode shown elsewhere, e.g. C48, C49)."
  },
  {
   "property": "C53",
   "status": "partial",
   "theorems": [
    "Verif.Opprf.C53_partial",
    "Verif.Opprf.C53_new_partial"
   ],
   "note": "Proved for undisturbed draws, every input, threshold and shuffle; C49 shows that a step can fail for other draws."
  },
  {
   "property": "C54",
   "status": "partial",
   "theorems": [
    "Verif.Opprf.C54_partial",
    "Verif.Opprf.C54_every_value",
    "Verif.Opprf.C53_new_partial",
    "Verif.Opprf.C54_counterexample"
   ],
   "note": "Value for inputs above the threshold proved for undisturbed draws; every group element arises from exactly one value of the random draw. False in general: with three equal keys for bit 0 and another mask in front a client above the threshold gets kopprf+ga*x (C54_counterexample)."
  },
  {
   "property": "C55",
   "status": "partial",
   "theorems": [
    "Verif.Opprf.C55_clean",
    "Verif.Opprf.C55_no_clean_partial"
   ],
   "note": "Equality with a fresh pair after clean proved for all histories; without clean the results add up (undisturbed draws)."
  },
  {
   "property": "C56",
   "status": "partial",
   "theorems": [
    "Verif.Life.C56_no_copy_partial",
    "Verif.Life.C56_copy_counterexample",
    "Verif.Life.C56_assign_leak_counterexample",
    "Verif.Life.C56_exact"
   ],
   "note": "False for copies (double free) and assignments (leak): counterexamples from every sound state. Proved for all histories of constructions and destructions. C56_exact: for programs that destroy all their objects it holds exactly if nothing is copied and nothing assigned except to itself; otherwise there is always a double free."
  },
  {
   "property": "C58",
   "status": "proved",
   "theorems": [
    "Verif.C58_odd_flips"
   ],
   "note": "for payloads below 2^32 bytes; when fewer than four bytes remain the code reads out of bounds instead of rejecting"
  },
  {
   "property": "C59",
   "status": "proved",
   "theorems": [
    "Verif.C59_distance",
    "Verif.C59_bound_sharp"
   ],
   "note": "below 2^28 bytes, and the bound is sharp (C59_bound_sharp); six bits up to 659 bytes (C104); fewer than four remaining bytes as in C45"
  },
  {
   "property": "C60",
   "status": "partial",
   "theorems": [
    "Verif.C60_encrypt_partial",
    "Verif.C60_decrypt_partial",
    "Verif.C60_counterexample"
   ],
   "note": "False: stack overflow above 128 bytes, over-read of short keys and IVs; exact characterisation proved"
  },
  {
   "property": "C61",
   "status": "partial",
   "theorems": [
    "Verif.C61_forgery_counterexample",
    "Verif.C61_few_flips_partial",
    "Verif.C61_burst_partial"
   ],
   "note": "False: general key-less forgery proved; detection of up to five flipped bits and of four-byte bursts proved"
  },
  {
   "property": "C62",
   "status": "partial",
   "theorems": [
    "Verif.C62_reuse_counterexample"
   ],
   "note": "False: the relation is fully determined, proved for all keystreams"
  },
  {
   "property": "C63",
   "status": "proved",
   "theorems": [
    "Verif.Opprf.C63_prepare_exact",
    "Verif.Opprf.C63_count"
   ],
   "note": "exact characterisation; assumes a heap allocator that leaves at least four bytes of slack after each block and a readable IV (C60 covers what happens otherwise)"
  },
  {
   "property": "C64",
   "status": "partial",
   "theorems": [
    "Verif.Opprf.C64_fresh_partial",
    "Verif.Opprf.C64_stale_counterexample"
   ],
   "note": "False for a second preparation without clean(): all key material in the tables is that of the first; proved for a server without keys"
  },
  {
   "property": "C65",
   "status": "proved",
   "theorems": [
    "Verif.Opprf.C65_client",
    "Verif.Opprf.C65_server"
   ],
   "note": "points given to setSecret and in the CRS must lie on the curve; out-of-range rounds are undefined behaviour (vector index, shift width)"
  },
  {
   "property": "C66",
   "status": "partial",
   "theorems": [
    "Verif.Opprf.C66_completes_iff_partial",
    "Verif.Opprf.C66_right_if_completes_partial",
    "Verif.Opprf.C66_counterexample",
    "Verif.Opprf.C66_exact"
   ],
   "note": "missing: draws that mislead the client (a seal accepted under the wrong key, a key shorter than 16 bytes, an integer without encoding, infinity among the ciphertexts); the hypotheses are NotMisled False in general: with three equal keys for bit 0 the client takes the first mask of the shuffle and completes with a wrong result (C66_counterexample, for every cipher). For those draws see C95. C66_exact: in debug builds with a finite ga and CRS, for all draws and keystreams, a completed evaluation is right exactly if the first mask the client opens gives the point kopprf - r*sum(ok)."
  },
  {
   "property": "C67",
   "status": "proved",
   "theorems": [
    "Verif.Opprf.C67_unchanged",
    "Verif.Opprf.C67_history",
    "Verif.Opprf.finishState_eq",
    "Verif.Opprf.unmaskState_eq"
   ],
   "note": "about the exceptions of the modelled code; std::bad_alloc and exceptions of the standard library are not modelled"
  },
  {
   "property": "C68",
   "status": "partial",
   "theorems": [
    "Verif.Proc.C68_branch_counterexample",
    "Verif.Proc.C68_messages_counterexample",
    "Verif.Proc.C68_users_counterexample",
    "Verif.Proc.C68_shamir_counterexample"
   ],
   "note": "False: neither the generator nor rand() is ever seeded, so both start in the same state in every process. Programs that use nothing but the library recover the OT branch, both OT messages, every PUDA message, and the secret behind any single Shamir share, for every deterministic generator. What holds for independent uniform draws is C21, C28, C34 and C40."
  },
  {
   "property": "C69",
   "status": "partial",
   "theorems": [
    "Verif.Opprf.C69_input_hidden_partial",
    "Verif.Opprf.C69_messy_counterexample",
    "Verif.Opprf.C69_abort_counterexample"
   ],
   "note": "holds for the keys with a decryption-mode CRS (coin bijection); false with a messy-mode CRS (the keys determine the input) and false for a server that sees whether the client goes on (it can make the client stop exactly if a chosen bit is 1)."
  },
  {
   "property": "C70",
   "status": "partial",
   "theorems": [
    "Verif.Puda.C70_only_sum_partial",
    "Verif.Puda.C70_difference_counterexample",
    "Verif.Puda.C70_exact"
   ],
   "note": "proved for timestamps other than 0 and a finite hash point, one message per user and timestamp; false for two messages of one user at one timestamp (their difference is public) and, with more timestamps, see C40. C70_exact: for timestamp and hash draw other than 0 the views can agree exactly if the sums are equal; otherwise exactly if all messages are."
  },
  {
   "property": "C71",
   "status": "partial",
   "theorems": [
    "Verif.Opprf.C71_one_branch_partial",
    "Verif.Opprf.C71_infinite_key_counterexample",
    "Verif.Opprf.C71_off_curve_counterexample"
   ],
   "note": "proved for non-degenerate messy-mode CRSs and all keys but (inf, inf); false for that key, which is accepted: the answer then holds both points in the clear and their difference in round 1 is the server's secret ga. C71_off_curve_counterexample: false as well for the finite key ((3,4),(3,4)), which is not on the curve: the two points are known up to three candidates each, and a pair of candidates differs by ga."
  },
  {
   "property": "C72",
   "status": "partial",
   "theorems": [
    "Verif.C72_encrypt_partial",
    "Verif.C72_decrypt_partial",
    "Verif.C72_encrypt_exact",
    "Verif.C72_decrypt_exact"
   ],
   "note": "proved for keys of at least 16 bytes, readable IVs, messages up to 124 and ciphertexts up to 128 bytes and (encryption) heap blocks with four spare bytes; a plaintext of less than four bytes makes decryptCRC read before its buffer (proved as part of C72_decrypt_partial). C72_encrypt_exact, C72_decrypt_exact: for every integer below 2 GB, exactly when the functions return, and what."
  },
  {
   "property": "C73",
   "status": "partial",
   "theorems": [
    "Verif.C73_wrong_key_partial",
    "Verif.C73_counterexample",
    "Verif.C73_every_message_partial"
   ],
   "note": "False in general (counterexample for all one-byte messages but three); exactly when a wrong key is accepted is proved: when the exclusive or of the keystreams carries its own checksum, whatever the message, and then decryptCRC returns the message altered.  C73_every_message_partial: exactly what happens to every message, also one that starts with the first keystream byte.  Missing: limits of C72."
  },
  {
   "property": "C74",
   "status": "partial",
   "theorems": [
    "Verif.Opprf.C74_opens_iff",
    "Verif.Opprf.C74_rejects",
    "Verif.Opprf.C74_rejects_iff",
    "Verif.Opprf.C74_completes_iff_partial",
    "Verif.Opprf.C74_right_partial"
   ],
   "note": "C52-C54 and C66 without assumptions about the cipher: their hypotheses are replaced by conditions on bytes.  Missing: draws with unencodable values, infinity or keystreams that confuse the client. For those draws see C95."
  },
  {
   "property": "C75",
   "status": "partial",
   "theorems": [
    "Verif.Opprf.C75_count",
    "Verif.Opprf.C75_path"
   ],
   "note": "False for exactly one key in 255 (none if the keystream starts with a zero byte). Over the 15 seals of an evaluation the fraction that opens is at least (254/255)^15 for every cipher, and exactly that if no keystream starts with zero: more than one evaluation in 18 stops."
  },
  {
   "property": "C76",
   "status": "proved",
   "theorems": [
    "Verif.Tests.C76_fields",
    "Verif.Tests.C76_ecc_ok",
    "Verif.Tests.C76_ecc_null"
   ],
   "note": "\"Exits with 0 whatever it draws\" is therefore false for test_ecc (getEncodedX of infinity)."
  },
  {
   "property": "C77",
   "status": "proved",
   "theorems": [
    "Verif.Tests.C77_crc",
    "Verif.Tests.C77_crc_faults",
    "Verif.Tests.C77_aes"
   ],
   "note": "\"Exits with 0 whatever it draws\" is therefore false for both programs."
  },
  {
   "property": "C78",
   "status": "proved",
   "theorems": [
    "Verif.Tests.C78_shamir",
    "Verif.Tests.C78_puda"
   ],
   "note": "\"Exits with 0 whatever it draws\" is therefore false for test_shamirss on platforms where rand() can return INT_MAX."
  },
  {
   "property": "C79",
   "status": "proved",
   "theorems": [
    "Verif.Tests.C79_dme_ok",
    "Verif.Tests.C79_ot_ok",
    "Verif.Tests.C79_dme_debug",
    "Verif.Tests.C79_ot_debug",
    "Verif.Tests.C79_dme_needs",
    "Verif.Tests.C79_ot_needs"
   ],
   "note": "\"Exit with 0 whatever they draw\" is therefore false. The conditions are congruences on the draws (DmeFine, OtTestFine). In release builds, and in debug builds for copies of a CRS that contains infinity, subtracting infinity gives a meaningless point instead of a fault, so a wrong-branch check can also succeed for degenerate draws."
  },
  {
   "property": "C80",
   "status": "partial",
   "theorems": [
    "Verif.Tests.C80_opprf_partial",
    "Verif.Tests.C80_sessions",
    "Verif.Tests.C80_exact",
    "Verif.Tests.C80_failure_counterexample"
   ],
   "note": "False: if some key on the client's path (or the mask) starts with the first keystream byte of the key sealing it, the program is stopped by an assertion or an exception. If no evaluation misleads the client, it exits with 0 exactly when no such collision occurs, and never with -1. Missing: draws that mislead the client. For those draws see C95. C80_sessions: for all draws and builds the program does the same as three independent evaluations with new objects. C80_exact: in debug builds it exits with 0 exactly if each of them completes and opens the server's mask. C80_failure_counterexample: a run that reports a failure."
  },
  {
   "property": "C81",
   "status": "proved",
   "theorems": [
    "Verif.C81_field",
    "Verif.C81_point_text",
    "Verif.C81_point_eq",
    "Verif.C81_point_reads",
    "Verif.C81_curve"
   ],
   "note": "stream in its default format"
  },
  {
   "property": "C82",
   "status": "proved",
   "theorems": [
    "Verif.Dme.C82_dme",
    "Verif.ElGamal.C82_elgamal"
   ],
   "note": ""
  },
  {
   "property": "C83",
   "status": "proved",
   "theorems": [
    "Verif.Dme.C83_dme",
    "Verif.ElGamal.C83_elgamal"
   ],
   "note": "A lower bound from the number of points (exactly n, Lemmas/OrderCert): each abscissa has at most two points and each window at most 1024 (2^20) abscissas. That every window contains one is open (C30, C41)."
  },
  {
   "property": "C84",
   "status": "proved",
   "theorems": [
    "Verif.Puda.C84_agg",
    "Verif.Puda.C84_before_setup"
   ],
   "note": ""
  },
  {
   "property": "C85",
   "status": "proved",
   "theorems": [
    "Verif.Puda.C85_timestamp"
   ],
   "note": ""
  },
  {
   "property": "C86",
   "status": "proved",
   "theorems": [
    "Verif.Puda.C86_missing"
   ],
   "note": "The users are numbered so that the missing ones come last; the order of the ciphertexts does not matter to Agg (C84: the sum)."
  },
  {
   "property": "C87",
   "status": "partial",
   "theorems": [
    "Verif.C87_copy_partial",
    "Verif.C87_dangling_counterexample",
    "Verif.C87_rest",
    "Verif.C87_exact"
   ],
   "note": "False: the copied generator refers to the original object, so after its destruction getRandomPoint, generateKeyPair and ElGamal::encrypt on the copy are use after free for all draws but 0 and 1 (C87_dangling_counterexample). Proved while the original lives (C87_copy_partial) and for what does not use the generator (C87_rest); C87_exact says for every live curve object when getRandomPoint returns."
  },
  {
   "property": "C88",
   "status": "proved",
   "theorems": [
    "Verif.Dme.C88_random",
    "Verif.Dme.C88_messy",
    "Verif.Dme.C88_dec",
    "Verif.Dme.C88_no_dec_trapdoor",
    "Verif.Dme.C88_no_messy_trapdoor",
    "Verif.Dme.C88_no_messy_trapdoor_counterexample"
   ],
   "note": "Uniform means: each CRS of the set comes from exactly one tuple of coins in [0,n). C88_no_messy_trapdoor_counterexample: on an instance made from a CRS, FindMessy names the receiver's own branch for honest keys of branch 0, so it must not be called there (C26 is about messy-mode instances only)."
  },
  {
   "property": "C89",
   "status": "partial",
   "theorems": [
    "Verif.Puda.C89_unique_partial",
    "Verif.Puda.C89_forgery_counterexample",
    "Verif.Puda.C89_scaling_counterexample"
   ],
   "note": "False: the hash of a timestamp is hash*t, so tags are linear in timestamp and sum. Two aggregates whose sums are not in the ratio of their timestamps give a valid tag for every sum at every timestamp, one aggregate gives one for x times the sum at x times the timestamp. Proved: for a non-degenerate pairing exactly one point satisfies the equation for a sum and a timestamp."
  },
  {
   "property": "C90",
   "status": "proved",
   "theorems": [
    "Verif.Puda.C90_old_keys",
    "Verif.Puda.C90_old_ciphertexts",
    "Verif.Puda.C90_old_agg_key"
   ],
   "note": "The two exclusions are iffs, for sums between 1 and 65534."
  },
  {
   "property": "C91",
   "status": "partial",
   "theorems": [
    "Verif.Shamir.C91_changes_partial",
    "Verif.Shamir.C91_shift_counterexample"
   ],
   "note": "False: reconSecret always returns, and a shareholder who knows the indices that will be used can add any chosen amount to the secret without knowing anybody's value. Proved: every alteration changes the result, each result comes from exactly one value."
  },
  {
   "property": "C92",
   "status": "partial",
   "theorems": [
    "Verif.Shamir.C92_exact",
    "Verif.Shamir.C92_counterexample",
    "Verif.Shamir.C92_fewer_counterexample"
   ],
   "note": "False: the last coefficient is (rand()+1)%100. t-1 shares give the secret plus or minus that coefficient times the product of the indices (C92_exact, so a hundred candidates remain), the secret itself exactly if the draw is 99 modulo 100; m shares are enough if the draws from the m-th on are."
  },
  {
   "property": "C93",
   "status": "proved",
   "theorems": [
    "Verif.Dme.C93_trapdoor_keys",
    "Verif.Dme.C93_messy_keys"
   ],
   "note": ""
  },
  {
   "property": "C94",
   "status": "partial",
   "theorems": [
    "Verif.Dme.C94_changes_partial",
    "Verif.Dme.C94_shift_counterexample"
   ],
   "note": "False: adding a point D to the second component, which takes no key, makes Dec return the message plus D. Proved: each alteration between finite second components changes the message."
  },
  {
   "property": "C95",
   "status": "partial",
   "theorems": [
    "Verif.Opprf.C95_form",
    "Verif.Opprf.C95_debug",
    "Verif.Opprf.C95_release_counterexample"
   ],
   "note": "False in release builds for draws that put infinity into a ciphertext of a point on the client's branch: an evaluation completes with a result that is no point of the curve (C95_release_counterexample). Proved for all other draws and every key, cipher, machine and build (C95_form). C95_debug: with assertions on, a finite ga and a finite CRS all draws are covered, because such a round does not return."
  },
  {
   "property": "C96",
   "status": "partial",
   "theorems": [
    "Verif.Opprf.C96_replay",
    "Verif.Opprf.C96_counterexample"
   ],
   "note": "False: the server keeps no state of the rounds. C96_replay: for all draws a server that completed an evaluation answers another client exactly as if it had just been prepared with the same draws. C96_counterexample: the results of two different inputs up to the threshold (undisturbing draws) give kopprf + ga*z for every integer z, above the threshold too."
  },
  {
   "property": "C97",
   "status": "partial",
   "theorems": [
    "Verif.Opprf.C97_value",
    "Verif.Opprf.C97_hides",
    "Verif.Opprf.C97_above",
    "Verif.Opprf.C97_counterexample",
    "Verif.Opprf.C97_sessions"
   ],
   "note": "C97_hides: for every other secret exactly one choice of kopprf and the scalars gives the same view; C97_above: without the mask exactly one choice of the scalars for every secret and every kopprf. False for the draw that makes r infinity (C97_counterexample: then the entries of any input but 0 determine ga). For one preparation used twice see C96. C97_sessions: the same for any number of sessions of one server with the same ga, any inputs, clean() at the end of each."
  },
  {
   "property": "C98",
   "status": "partial",
   "theorems": [
    "Verif.ElGamal.C98_silent_counterexample",
    "Verif.ElGamal.C98_wrong_key_counterexample",
    "Verif.ElGamal.C98_shift_counterexample"
   ],
   "note": "False: for finite components every non-zero key makes decrypt return an integer (C98_silent_counterexample), every message that fits is the result for some key (C98_wrong_key_counterexample), and adding a point to the second component adds it to the decrypted point (C98_shift_counterexample)."
  },
  {
   "property": "C99",
   "status": "partial",
   "theorems": [
    "Verif.Puda.C99_forge_counterexample",
    "Verif.Puda.C99_read_counterexample"
   ],
   "note": "False: the mask of a message is hash*t*ek, so the mask at t1 times t/t1 is the mask at t. For a known message at any timestamp other than 0 the ciphertexts of all messages at all timestamps can be made (C99_forge_counterexample), and every message but 65535 is read with compute_dlog (C99_read_counterexample)."
  },
  {
   "property": "C100",
   "status": "proved",
   "theorems": [
    "Verif.Opprf.C100_completes",
    "Verif.Opprf.C100_debug",
    "Verif.Opprf.C100_deterministic"
   ],
   "note": "No assumption about the keys or the cipher, unlike C52."
  },
  {
   "property": "C101",
   "status": "partial",
   "theorems": [
    "Verif.Proc.C101_counterexample",
    "Verif.Proc.C101_debug_counterexample"
   ],
   "note": "False: neither generator is seeded, so another process draws the same kopprf, r and scalars as the server. It subtracts r*sum(ok) from the result after the last round, divides by its nonzero input and has ga, then kopprf + ga*z for every z. The debug version assumes nothing about the draws, the other one that they put no infinity into a ciphertext on the client's branch."
  },
  {
   "property": "C102",
   "status": "proved",
   "theorems": [
    "Verif.Ot.C102_one_answer",
    "Verif.Ot.C102_only_sums",
    "Verif.Ot.C102_one_hides"
   ],
   "note": "For every valid key, so also against a dishonest receiver. When encryption under a key hides the message is C25."
  },
  {
   "property": "C103",
   "status": "partial",
   "theorems": [
    "Verif.Opprf.C103_round16_counterexample",
    "Verif.Opprf.C103_secret_counterexample",
    "Verif.Opprf.C103_debug_counterexample",
    "Verif.Opprf.C103_blank",
    "Verif.Opprf.C103_masks",
    "Verif.Opprf.C103_unprepared"
   ],
   "note": "False: clean leaves Sl0 and Sl1, so round 16 is answered as before, and two clients whose inputs differ in bit 15 compute ga from its answers. True for the rounds 1 to 15 and the masks (_blank, _masks). _unprepared: a server asked before its first preparation hands out the key 0 in round 16, unnoticed until the next call."
  },
  {
   "property": "C104",
   "status": "proved",
   "theorems": [
    "Verif.C104_five_flips",
    "Verif.C104_bytes_sharp",
    "Verif.C104_flips_sharp"
   ],
   "note": "integers with at least four bytes are rejected; with fewer validateCRC reads out of bounds (C44)"
  },
  {
   "property": "C105",
   "status": "partial",
   "theorems": [
    "Verif.C105_same",
    "Verif.C105_counterexample",
    "Verif.C105_differ_counterexample",
    "Verif.C105_dec_counterexample",
    "Verif.C105_decrypt_counterexample"
   ],
   "note": "False: the operations, read backwards, spell the scalar, and so one decryption the secret key. Their numbers are the number of binary digits 1 and the number of digits less one (_differ: two scalars can only be confused by their numbers of operations if these agree). Proved: they do not depend on the point, and recording them does not change the result (_same)."
  },
  {
   "property": "C106",
   "status": "proved",
   "theorems": [
    "Verif.Crc.C106_table",
    "Verif.Crc.C106_crc32",
    "Verif.Crc.C106_short"
   ],
   "note": "the function exists only as a comment in the header; a size larger than the buffer reads out of bounds (_short)"
  },
  {
   "property": "C107",
   "status": "proved",
   "theorems": [
    "Verif.C107_seven_flips",
    "Verif.C107_flips_sharp",
    "Verif.C107_decryptCRC"
   ],
   "note": "integers with at least four bytes are rejected; with fewer validateCRC reads out of bounds (C44). For ciphertexts the length has to stay the same."
  },
  {
   "property": "C108",
   "status": "partial",
   "theorems": [
    "Verif.C108_stays_off_partial",
    "Verif.C108_smul_counterexample",
    "Verif.Dme.C108_dec_counterexample",
    "Verif.ElGamal.C108_decrypt_counterexample",
    "Verif.C108_bn254_counterexample"
   ],
   "note": "False: the formulas do not use the coefficient b and nothing calls isValid. For each divisor r of a 96-bit number with small prime factors there is a ciphertext off the curve whose decryption by Dec is the same under two keys exactly if they agree modulo r; ElGamal::decrypt of ((3,4),(6,14)) tells the key modulo 3; on Curve_bn254 a multiple of (1,1) gives the scalar by one division. Proved: a product computed from a point off the curve is infinity or off the curve, so isValid on the result would notice."
  },
  {
   "property": "C109",
   "status": "partial",
   "theorems": [
    "Verif.C109_same_partial",
    "Verif.C109_crc_counterexample",
    "Verif.C109_aes_counterexample",
    "Verif.C109_encryptCRC_counterexample",
    "Verif.C109_decryptCRC_counterexample",
    "Verif.Opprf.C109_same_opprf_partial",
    "Verif.Opprf.C109_prepare_counterexample",
    "Verif.Opprf.C109_sessions_counterexample",
    "Verif.Opprf.C109_client_counterexample"
   ],
   "note": "False: the blocks allocated by mpz_export are never released. Each encryptCRC leaves three blocks (key, message with checksum, message), each decryptCRC three or four, one session of the server 279, among them every key it drew, for any number of sessions, clean or not; the client leaves its keys likewise. What holds (_same): the results do not depend on the heap."
  },
  {
   "property": "C110",
   "status": "partial",
   "theorems": [
    "Verif.Opprf.C110_order",
    "Verif.Opprf.C110_uniform_partial",
    "Verif.Opprf.C110_counterexample",
    "Verif.Opprf.C110_threshold",
    "Verif.Opprf.C110_search_counterexample"
   ],
   "note": "False: random_shuffle takes its numbers from rand(), which is never seeded, so a client knows them from its own process. For every sequence and undisturbing draws, a client that notes which ciphertext opens finds out how its input compares to the threshold from every bit upwards, that is exactly the leading bits of the threshold up to the first in which it differs from the input (C110_threshold). With 16 evaluations of its choice it finds the whole threshold (C110_search_counterexample). What holds (_uniform): for independent uniform numbers each outcome is at each place with probability 1/3 up to 2^32/(3*2^62). C110_order: the order is the one random_shuffle gives."
  },
  {
   "property": "C111",
   "status": "partial",
   "theorems": [
    "Verif.Opprf.C111_counterexample",
    "Verif.Opprf.C111_debug_counterexample"
   ],
   "note": "False: adding a point D to the second components of the two ciphertexts of points in one answer needs no key and, for every D but one, gives the client the result plus D, with the same key and the same server; only the keys carry a checksum. Proved for every completed evaluation; the draws excluded are those of C95, none in debug builds with a finite ga and CRS."
  },
  {
   "property": "C112",
   "status": "partial",
   "theorems": [
    "Verif.Opprf.C112_counterexample",
    "Verif.Opprf.C112_completes_counterexample",
    "Verif.Opprf.C112_stops_counterexample",
    "Verif.Opprf.C112_top_counterexample",
    "Verif.Opprf.C112_top_completes_counterexample",
    "Verif.Opprf.C112_top_stops_counterexample"
   ],
   "note": "False for each of the 16 bits: a server that replaces the three sealed keys for bit 1 in one round (or, for the highest bit, the key for bit 1 in the first round) by one integer is not noticed by clients with 0 in this bit, which end in the same state as with an honest server (_completes), and makes those with 1 end with an exception (_stops). Stated for draws that would not have disturbed the evaluation (C52); _completes holds for every evaluation that completes. C69 has the same for a single round."
  },
  {
   "property": "C113",
   "status": "partial",
   "theorems": [
    "Verif.Ot.C113_exact"
   ],
   "note": "False: after a second selection of the same branch decryptMsg returns a point of the curve without complaint, and it is m_b exactly if the two draws agree modulo the order (C113_exact, for draws that are not degenerate as in C12)."
  },
  {
   "property": "C114",
   "status": "partial",
   "theorems": [
    "Verif.Opprf.C114_every_input_counterexample",
    "Verif.Opprf.C114_counterexample"
   ],
   "note": "False for a decryption-mode CRS: with the keys of TrapKeyGen the answers of one evaluation give, for each of the 65536 inputs, exactly what an honest client with that input would have computed (C114_every_input_counterexample, no condition on the draws of the server), so the values of all inputs up to the threshold, and from two of them kopprf + ga*z for every z (C114_counterexample, undisturbing draws). With a messy-mode CRS see C71; that the keys look honest is C93."
  },
  {
   "property": "C115",
   "status": "partial",
   "theorems": [
    "Verif.Puda.C115_test_counterexample",
    "Verif.Puda.C115_counterexample",
    "Verif.Puda.C115_exact"
   ],
   "note": "False: Enc blinds with the multiple t*H of one fixed point, so c1*t2 - c2*t1 does not depend on the key. A test without any key tells whether t2*m1 - t1*m2 is what was guessed (C115_test_counterexample); at timestamps without a common divisor, one of them beyond 65535, as two successive times in seconds are, it accepts only the two messages themselves (C115_counterexample). No more can be learnt: if t2*m1 - t1*m2 is the same, some other key gives the same two ciphertexts (C115_exact, hash and first timestamp not 0)."
  },
  {
   "property": "C116",
   "status": "partial",
   "theorems": [
    "Verif.Puda.C116_user_counterexample",
    "Verif.Puda.C116_counterexample",
    "Verif.Puda.C116_test_counterexample"
   ],
   "note": "False: CURVE1 and CURVE2 are the same curve with the same generator, so vk_2 = g2*a is the point g1*a that Tag multiplies by the message. tag + vk_2*d is the tag Tag gives for the message plus d, for every user and timestamp (C116_user_counterexample), and satisfies the verification equation for the sum plus d for every pairing (C116_counterexample). Two tags of one user at two timestamps tell t2*m1 - t1*m2 (C116_test_counterexample, a not 0)."
  },
  {
   "property": "C117",
   "status": "partial",
   "theorems": [
    "Verif.Opprf.C117_counterexample"
   ],
   "note": "False: the server keeps no record of the rounds it has answered, and both entries of a round carry the same r*ok. Whoever asks for one round twice, once with each bit, gets two points that differ by 2^j*ga and divides by 2^j; any of the 16 rounds will do, whatever the threshold. (Draws that put infinity into one of the two opened ciphertexts excepted; with one request per round see C97.)"
  },
  {
   "property": "C118",
   "status": "partial",
   "theorems": [
    "Verif.Puda.C118_same",
    "Verif.Puda.C118_counterexample",
    "Verif.Puda.C118_zero_counterexample"
   ],
   "note": "False: the loop runs sum+1 times for a sum below 65535 and 65535 times otherwise (C118_counterexample). The time even tells what the result does not: Agg returns 0 after one iteration if all messages are 0, and after 65535 iterations if the sum is out of reach (C118_zero_counterexample). Proved: counting does not change the result (C118_same)."
  },
  {
   "property": "C119",
   "status": "partial",
   "theorems": [
    "Verif.Puda.C119_enc_counterexample",
    "Verif.Puda.C119_tag_counterexample",
    "Verif.Puda.C119_agg_counterexample"
   ],
   "note": "False: the points in the copied pp refer to the curve objects the destructor of the original deletes. In both builds Enc on the copy is use after free for every message but 0 and 1, Tag for every user unless a is 0 or 1, and Agg never returns a number above 1. (The copy's own destructor would then be a double free, C56.)"
  },
  {
   "property": "C120",
   "status": "partial",
   "theorems": [
    "Verif.Puda.C120_only_rest_partial",
    "Verif.Puda.C120_exact"
   ],
   "note": "Proved for timestamps other than 0 and a finite hash point, one message per user (otherwise false already without collusion: C40, C70, C115). The keys of all users share a, which the colluding users therefore know; it is the same in both views. C120_exact: the views can agree exactly if the messages of the colluding users and the totals do."
  },
  {
   "property": "C121",
   "status": "partial",
   "theorems": [
    "Verif.Opprf.C121_counterexample"
   ],
   "note": "False: the curve pointer of the result always is that of an object owned by one of the two parties (or null). After both are gone, comparing a finite result with itself and multiplying it by any scalar other than 0 and 1 read freed memory, in both builds, for every evaluation."
  },
  {
   "property": "C122",
   "status": "partial",
   "theorems": [
    "Verif.Opprf.C122_same",
    "Verif.Opprf.C122_counterexample",
    "Verif.Opprf.C122_input",
    "Verif.Opprf.C122_search_counterexample"
   ],
   "note": "False: the search loops stop at the first ciphertext that opens and the server knows the order in which it sent them. The numbers of ciphertexts tried tell it the comparison of x>>j with theta>>j for all j (C122_counterexample), which is the same as the leading bits of the input up to and including the first that differs from the threshold (C122_input). 16 evaluations with thresholds of the server's choice tell the whole input (C122_search_counterexample). Draws that put infinity into a ciphertext or make a wrong key pass the checksum are excepted."
  },
  {
   "property": "C123",
   "status": "partial",
   "theorems": [
    "Verif.Dme.C123_same",
    "Verif.Dme.C123_exact",
    "Verif.Dme.C123_counterexample",
    "Verif.ElGamal.C123_same",
    "Verif.ElGamal.C123_exact",
    "Verif.ElGamal.C123_counterexample"
   ],
   "note": "False: whatever the key and the draws, the number of square roots is the distance from m*2^10 (ElGamal: m*2^20) to the first abscissa of the curve. DME: 1 for the message 1 and 5 for the message 2. ElGamal: 1 for the bit 0 and 3 for the bit 1."
  },
  {
   "property": "C124",
   "status": "partial",
   "theorems": [
    "Verif.Ot.C124_counterexample",
    "Verif.Ot.C124_int_counterexample"
   ],
   "note": "False: nothing checks that a key is on the curve, and the formulas do not use the coefficient b (C108). The key ((3,4),(3,4)) has order 3, so the mask of each of the two messages is infinity, (3,4) or (3,-4): each message is the second component of its ciphertext or its difference with one of the two points. Which one depends on the sum of the draws modulo 3. Second components with abscissa 3 are excepted. The same for integer messages."
  }
 ]
}