{
 "claims": [
  {
   "property": "C01",
   "status": "proved",
   "theorems": [
    "Falcon.C01_compress_decompress_roundtrip",
    "Falcon.C01_empty_vector_panics"
   ],
   "note": "for |slen| < 2^60 (8*slen must not overflow int). The excluded empty vector is shown to panic."
  },
  {
   "property": "C02",
   "status": "proved",
   "theorems": [
    "Falcon.C02_compress_fits"
   ],
   "note": "for |slen| < 2^60."
  },
  {
   "property": "C03",
   "status": "proved",
   "theorems": [
    "Falcon.C03_compress_injective"
   ],
   "note": ""
  },
  {
   "property": "C04",
   "status": "proved",
   "theorems": [
    "Falcon.C04_decompress_accepts_iff"
   ],
   "note": "exact acceptance condition, both directions"
  },
  {
   "property": "C05",
   "status": "partial",
   "theorems": [
    "Falcon.C05_decompress_panics_iff_partial",
    "Falcon.C05_violated_all_zero",
    "Falcon.C05_violated_truncated"
   ],
   "note": "VIOLATED by the code: all-zero or truncated strings panic (two witness theorems for every length). Proved instead: the exact set of panicking inputs, and that it never diverges."
  },
  {
   "property": "C06",
   "status": "partial",
   "theorems": [
    "Falcon.C06_violated_two_encodings",
    "Falcon.C06_code_bits_determined_partial",
    "Falcon.C06_negative_zero_rejected"
   ],
   "note": "VIOLATED by the code: every vector with at least one spare bit has two accepted full-length encodings. Proved instead: the code bits are determined, and negative zero is rejected."
  },
  {
   "property": "C07",
   "status": "proved",
   "theorems": [
    "Falcon.C07_decoded_bounds",
    "Falcon.C07_falcon512_bound"
   ],
   "note": ""
  },
  {
   "property": "C08",
   "status": "proved",
   "theorems": [
    "Falcon.C08_ntt_intt_inverse"
   ],
   "note": ""
  },
  {
   "property": "C09",
   "status": "proved",
   "theorems": [
    "Falcon.C09_ntt_is_evaluation"
   ],
   "note": ""
  },
  {
   "property": "C10",
   "status": "proved",
   "theorems": [
    "Falcon.C10_mulzq_is_product"
   ],
   "note": "with uniqueness of the product"
  },
  {
   "property": "C11",
   "status": "proved",
   "theorems": [
    "Falcon.C11_mulzq_comm",
    "Falcon.C11_mulzq_assoc",
    "Falcon.C11_mulzq_one",
    "Falcon.C11_mulzq_distrib"
   ],
   "note": "distributivity for SubZq operands in [0,q)"
  },
  {
   "property": "C12",
   "status": "proved",
   "theorems": [
    "Falcon.C12_divzq"
   ],
   "note": ""
  },
  {
   "property": "C13",
   "status": "partial",
   "theorems": [
    "Falcon.C13_subzq_partial",
    "Falcon.C13_subzq_exact"
   ],
   "note": "VIOLATED by the code for unreduced inputs (int16 overflow). Proved: correct for f <= 20479 and g without -32768 (covers [0,q)), and the exact per-coefficient condition for all int16 pairs."
  },
  {
   "property": "C14",
   "status": "proved",
   "theorems": [
    "Falcon.C14_no_overflow"
   ],
   "note": "stated with arithmetic that fails on overflow (check64)"
  },
  {
   "property": "C15",
   "status": "partial",
   "theorems": [
    "Falcon.C15_subzq_lengths",
    "Falcon.C15_mulzq_all_lengths_partial",
    "Falcon.C15_violated_surplus_ignored",
    "Falcon.C15_violated_empty_product"
   ],
   "note": "VIOLATED by the code: surplus coefficients are silently ignored, some lengths give an empty product. Proved: exact behaviour for every pair of lengths."
  },
  {
   "property": "C16",
   "status": "proved",
   "theorems": [
    "Falcon.C16_hash_exact",
    "Falcon.C16_hash_reduced",
    "Falcon.C16_hash_concat",
    "Falcon.C16_hash_fuel_mono",
    "Falcon.C16_hash_terminates_iff"
   ],
   "note": "SHAKE256 is an arbitrary function; termination is characterised, not assumed"
  },
  {
   "property": "C17",
   "status": "proved",
   "theorems": [
    "Falcon.C17_hash_unbiased",
    "Falcon.C17_hash_uniform",
    "Falcon.C17_hash_returns",
    "Falcon.C17_hash_share"
   ],
   "note": "C17_hash_uniform: for every stream length every point is the hash value of the same number of streams; C17_hash_returns and C17_hash_share: 2048 bytes suffice except for a fraction 2^-1000."
  },
  {
   "property": "C18",
   "status": "proved",
   "theorems": [
    "Falcon.C18_hashes_agree"
   ],
   "note": ""
  },
  {
   "property": "C19",
   "status": "proved",
   "theorems": [
    "Falcon.C19_verify_exact",
    "Falcon.C19_residual_exists_unique"
   ],
   "note": "for every XOF and every number of hash iterations for which the hash terminates"
  },
  {
   "property": "C20",
   "status": "partial",
   "theorems": [
    "Falcon.C20_violated_norm_wraps",
    "Falcon.C20_verify_sound_partial"
   ],
   "note": "VIOLATED by the code: for every message, salt and XOF there are a reduced key and an accepted signature of squared norm at least 2^32. Proved instead: soundness when the true squared norm is below 2^32."
  },
  {
   "property": "C21",
   "status": "proved",
   "theorems": [
    "Falcon.C21_verify_complete"
   ],
   "note": ""
  },
  {
   "property": "C22",
   "status": "partial",
   "theorems": [
    "Falcon.C22_verify_panics_iff_partial",
    "Falcon.C22_violated",
    "Falcon.C22_verify_terminates"
   ],
   "note": "VIOLATED by the code. Proved instead: the exact set of panicking signatures, and non-termination only if the hash does not terminate."
  },
  {
   "property": "C23",
   "status": "partial",
   "theorems": [
    "Falcon.C23_violated_header_ignored",
    "Falcon.C23_violated_wrong_header_accepted"
   ],
   "note": "VIOLATED by the code: the header never influences the result, for all keys and signatures."
  },
  {
   "property": "C24",
   "status": "partial",
   "theorems": [
    "Falcon.C24_violated_malleable"
   ],
   "note": "VIOLATED by the code: four families of modifications of any accepted signature are proved to be accepted."
  },
  {
   "property": "C25",
   "status": "proved",
   "theorems": [
    "Falcon.C25_verify_congr"
   ],
   "note": "for keys of any length"
  },
  {
   "property": "C26",
   "status": "partial",
   "theorems": [
    "Falcon.C26_violated_surplus_key",
    "Falcon.C26_other_lengths_partial"
   ],
   "note": "VIOLATED by the code: keys of 513 to 767 coefficients verify as their first 512. Proved instead: no other length is ever accepted, with the exact outcomes."
  },
  {
   "property": "C27",
   "status": "proved",
   "theorems": [
    "Falcon.C27_verifybytes_is_verify",
    "Falcon.C27_verifybytes_short_panics"
   ],
   "note": ""
  },
  {
   "property": "C28",
   "status": "proved",
   "theorems": [
    "Falcon.C28_narrowing_harmless",
    "Falcon.C28_narrowing_harmless_wide"
   ],
   "note": ""
  },
  {
   "property": "C29",
   "status": "partial",
   "theorems": [
    "Falcon.C29_exact",
    "Falcon.C29_accepts",
    "Falcon.C29_violated",
    "Falcon.C29_violated_empty"
   ],
   "note": "VIOLATED: C29_violated and C29_violated_empty: ill-formed lengths are accepted. The 'if' half is C29_accepts, and C29_exact gives the outcome on all inputs: accepted iff the degree is supported and 4n divides the total length (the uint16 truncation is harmless). Missing: nothing further is true."
  },
  {
   "property": "C30",
   "status": "proved",
   "theorems": [
    "Falcon.C30_public_key",
    "Falcon.C30_unique"
   ],
   "note": "C30_unique: h is the only such polynomial."
  },
  {
   "property": "C31",
   "status": "partial",
   "theorems": [
    "Falcon.C31_violated_always",
    "Falcon.C31_violated_from_private_key",
    "Falcon.C31_violated_never",
    "Falcon.C31_violated_new_key_pair"
   ],
   "note": "VIOLATED: NewKeyPair never returns a public key (C31_violated_new_key_pair, and C31_violated_always shows it returns exactly (key, nil, nil) whenever key generation returns), NewKeyPairFromPrivateKey never returns any key (C31_violated_never) and succeeds with nil keys on every well-formed input (C31_violated_from_private_key). Missing: nothing further is true."
  },
  {
   "property": "C32",
   "status": "proved",
   "theorems": [
    "Falcon.C32_unsupported",
    "Falcon.C32_supported"
   ],
   "note": "The fuel and the random source are arbitrary, so key generation cannot have been run. C32_supported is the converse."
  },
  {
   "property": "C33",
   "status": "proved",
   "theorems": [
    "Falcon.C33_keys",
    "Falcon.C33_entry",
    "Falcon.C33_monotone",
    "Falcon.C33_compressible"
   ],
   "note": "The float64 fields are compared as the decimal numbers of the source."
  },
  {
   "property": "C34",
   "status": "proved",
   "theorems": [
    "Falcon.C34_karatsuba",
    "Falcon.C34_coefficients"
   ],
   "note": "Any power of two n, integers of any size. C34_coefficients restates it as a convolution."
  },
  {
   "property": "C35",
   "status": "proved",
   "theorems": [
    "Falcon.C35_karamul",
    "Falcon.C35_unique"
   ],
   "note": "C35_unique shows the result list is determined by the statement."
  },
  {
   "property": "C36",
   "status": "proved",
   "theorems": [
    "Falcon.C36_galois",
    "Falcon.C36_lift",
    "Falcon.C36_norm",
    "Falcon.C36_code"
   ],
   "note": "C36_code states the norm identity as an equality of lists computed by the code."
  },
  {
   "property": "C37",
   "status": "proved",
   "theorems": [
    "Falcon.C37_small",
    "Falcon.C37_xgcd",
    "Falcon.C37_negative"
   ],
   "note": "Termination is part of the (fuel-free) definition of the model. C37_negative shows the sign hypothesis is needed. C37_small bounds the coefficients."
  },
  {
   "property": "C38",
   "status": "proved",
   "theorems": [
    "Falcon.C38_bitsize"
   ],
   "note": ""
  },
  {
   "property": "C39",
   "status": "proved",
   "theorems": [
    "Falcon.C39_reduce",
    "Falcon.C39_lattice",
    "Falcon.C39_large"
   ],
   "note": "For every FloatOps (arbitrary floating-point behaviour) and every iteration bound, lengths 1..1024. C39_large: beyond 1024 reduce always panics. Termination of the loop is not claimed."
  },
  {
   "property": "C40",
   "status": "partial",
   "theorems": [
    "Falcon.C40_identity_partial",
    "Falcon.C40_solution_partial",
    "Falcon.C40_degree1_partial",
    "Falcon.C40_violated"
   ],
   "note": "VIOLATED: C40_violated (degree 64, f = 1+2x, g = 3+6x) shows NtruSolve cannot report that the equation is unsolvable, because d.Int64() == 1 only looks at the low 64 bits of the gcd. Proved instead: the general identity f*G-g*F = 12289*gcd, and the property itself whenever gcd <= 2^64. Missing: nothing further is true."
  },
  {
   "property": "C41",
   "status": "proved",
   "theorems": [
    "Falcon.C41_iff",
    "Falcon.C41_coprime",
    "Falcon.C41_degree1"
   ],
   "note": "The norm N is specified as the product over the complex roots of x^n+1. Success is stated for runs that return: termination of reduce depends on floating point."
  },
  {
   "property": "C42",
   "status": "partial",
   "theorems": [
    "Falcon.C42_violated_all",
    "Falcon.C42_small_exact",
    "Falcon.C42_small_ieee",
    "Falcon.C42_degree2",
    "Falcon.C42_degree4",
    "Falcon.C42_violated",
    "Falcon.C42_mod16_partial",
    "Falcon.C42_exact_partial"
   ],
   "note": "VIOLATED: C42_violated is a complete IEEE run at degree 16 whose key does not satisfy the equation: f and g are multiples of 1+16x, the gcd of their norms is 2^64+1, and NtruSolve only looks at the low 64 bits of the gcd. C42_violated_all: at every degree from 16 to 1024 there are 8192 draws for which key generation in IEEE arithmetic never tries another candidate and either does not return or returns a key that does not satisfy the equation (which of the two is only determined at degree 16). Proved instead: C42_mod16_partial (lengths and the equation modulo 2^16, for every floating-point behaviour), C42_exact_partial (the exact equation when the solver's F and G fit int16 and the gcd of the norms is at most 2^64); C57_generated and C67_generated show that F and G do fit, in exact and in IEEE arithmetic. C42_small_exact: in exact arithmetic the property holds at degrees 2, 4 and 8 without any hypothesis. C42_small_ieee: in IEEE arithmetic at these degrees when |f(w)|^2+|g(w)|^2 >= 1/10 at every root; C42_degree2, C42_degree4: at degrees 2 and 4 without hypothesis. C67_generated_degree: the hypothesis 1/10 may be replaced by n^2/10^7."
  },
  {
   "property": "C43",
   "status": "proved",
   "theorems": [
    "Falcon.C43_public_key"
   ],
   "note": "For every floating-point behaviour and every random source."
  },
  {
   "property": "C44",
   "status": "proved",
   "theorems": [
    "Falcon.C44_range",
    "Falcon.C44_threshold",
    "Falcon.C44_antitone",
    "Falcon.C44_count"
   ],
   "note": "C44_count counts the 2^72 inputs exactly."
  },
  {
   "property": "C45",
   "status": "partial",
   "theorems": [
    "Falcon.C45_violated",
    "Falcon.C45_value_partial"
   ],
   "note": "VIOLATED: C45_violated, the result is always 0 or 1. C45_value_partial gives the value for ccs in (1/2,1]."
  },
  {
   "property": "C46",
   "status": "partial",
   "theorems": [
    "Falcon.C46_count_partial",
    "Falcon.C46_violated_tail",
    "Falcon.C46_one_partial",
    "Falcon.C46_negative"
   ],
   "note": "VIOLATED: C46_violated_tail. C46_count_partial and C46_one_partial give the exact acceptance counts."
  },
  {
   "property": "C47",
   "status": "proved",
   "theorems": [
    "Falcon.C47_samplerz",
    "Falcon.C47_integer_centre",
    "Falcon.C47_centre_zero",
    "Falcon.C47_truncation"
   ],
   "note": "Assumes only that small integers convert exactly to float64 and back (ExactInts); ratOps_exactInts shows the assumption is satisfiable."
  },
  {
   "property": "C48",
   "status": "proved",
   "theorems": [
    "Falcon.C48_genPoly",
    "Falcon.C48_overflow_n2",
    "Falcon.C48_large",
    "Falcon.C48_no_panic"
   ],
   "note": "C48_overflow_n2 shows that for the supported degree n = 2 the sums can overflow int16."
  },
  {
   "property": "C49",
   "status": "proved",
   "theorems": [
    "Falcon.C49_evaluation",
    "Falcon.C49_ifft_fft",
    "Falcon.C49_split_merge",
    "Falcon.C49_merge_split"
   ],
   "note": "Exact complex arithmetic with exact roots (Spec/Exact.lean exactOps): evaluation at all the roots of x^n+1, IFFT after FFT, SplitFFT and MergeFFT mutually inverse on all complex vectors. Rounding of float64 is the subject of C66."
  },
  {
   "property": "C50",
   "status": "proved",
   "theorems": [
    "Falcon.C50_mul",
    "Falcon.C50_unique",
    "Falcon.C50_div",
    "Falcon.C50_adj",
    "Falcon.C50_add_sub_neg"
   ],
   "note": "Exact arithmetic. Mul, Div (with uniqueness), Adj, Add, Sub and Neg."
  },
  {
   "property": "C51",
   "status": "proved",
   "theorems": [
    "Falcon.C51_gram_shape",
    "Falcon.C51_ldl",
    "Falcon.C51_dimensions",
    "Falcon.C51_gram",
    "Falcon.C51_basis"
   ],
   "note": "Exact arithmetic. Also Gram(B) = B B^* at every root and the determinant of D. The panic on other dimensions holds for every arithmetic."
  },
  {
   "property": "C52",
   "status": "partial",
   "theorems": [
    "Falcon.C52_degree2_values_partial",
    "Falcon.C52_violated_leaves",
    "Falcon.C52_violated",
    "Falcon.C52_violated_panic",
    "Falcon.C52_degree2_partial",
    "Falcon.C52_violated_deviation"
   ],
   "note": "VIOLATED for every degree above 2: C52_violated (sampling never returns, for any random source and floating-point behaviour), C52_violated_panic (it panics whenever the sampler returns). C52_degree2_partial: for degree 2 it returns; C52_degree2_values_partial gives the exact centres and results there. C52_violated_leaves: for every degree the samples do not depend on the leaves, so the standard deviation is the constant coefficient of l10 instead of the leaf value. C52_violated_deviation: for every key generated at degree 2 in IEEE arithmetic that value is at most 0.500003 in absolute value, below half of sigmin. Missing: nothing further is true."
  },
  {
   "property": "C53",
   "status": "proved",
   "theorems": [
    "Falcon.C53_merge_split",
    "Falcon.C53_even",
    "Falcon.C53_odd",
    "Falcon.C53_split_merge",
    "Falcon.C53_elements",
    "Falcon.C53_panic"
   ],
   "note": ""
  },
  {
   "property": "C54",
   "status": "proved",
   "theorems": [
    "Falcon.C54_pmod",
    "Falcon.C54_panic"
   ],
   "note": ""
  },
  {
   "property": "C55",
   "status": "proved",
   "theorems": [
    "Falcon.C55_cmpBigInt",
    "Falcon.C55_biggestFloat64",
    "Falcon.C55_smallestFloat64",
    "Falcon.C55_minFloat64",
    "Falcon.C55_max",
    "Falcon.C55_maxFromBigInt",
    "Falcon.C55_minFromBigInt",
    "Falcon.C55_cmp",
    "Falcon.C55_allZeroes",
    "Falcon.C55_anyZeroes",
    "Falcon.C55_sliceEqual"
   ],
   "note": ""
  },
  {
   "property": "C56",
   "status": "proved",
   "theorems": [
    "Falcon.C56_gsnorm",
    "Falcon.C56_generated"
   ],
   "note": "Exact (real) arithmetic instance; the rounding error of float64 is the subject of C68."
  },
  {
   "property": "C57",
   "status": "proved",
   "theorems": [
    "Falcon.C57_reduced",
    "Falcon.C57_short",
    "Falcon.C57_generated"
   ],
   "note": "Exact (real) arithmetic instance; C67 is the corresponding statement for IEEE double precision."
  },
  {
   "property": "C58",
   "status": "proved",
   "theorems": [
    "Falcon.C58_basis",
    "Falcon.C58_independent",
    "Falcon.C58_generated",
    "Falcon.C58_sign",
    "Falcon.C58_difference"
   ],
   "note": "C58_basis and C58_independent for every key solving the NTRU equation; C58_sign and C58_difference link it to Verify; C58_generated instantiates it for keys generated in exact arithmetic under the gcd condition of C57."
  },
  {
   "property": "C59",
   "status": "proved",
   "theorems": [
    "Falcon.C59_only_sampler",
    "Falcon.C59_new_key_pair",
    "Falcon.C59_sampler_exact",
    "Falcon.C59_exact",
    "Falcon.C59_new_key_pair_exact",
    "Falcon.C59_sampler_key",
    "Falcon.C59_ieee",
    "Falcon.C59_new_key_pair_ieee"
   ],
   "note": "C59_only_sampler and C59_new_key_pair for every floating-point behaviour; C59_ieee and C59_new_key_pair_ieee in IEEE binary64 arithmetic; C59_sampler_exact, C59_exact and C59_new_key_pair_exact in exact arithmetic."
  },
  {
   "property": "C60",
   "status": "partial",
   "theorems": [
    "Falcon.C60_law",
    "Falcon.C60_hits",
    "Falcon.C60_support",
    "Falcon.C60_key",
    "Falcon.C60_violated_ratio",
    "Falcon.C60_limit",
    "Falcon.C60_terminates",
    "Falcon.C60_violated_distance"
   ],
   "note": "VIOLATED: C60_violated_ratio (0 and 1 equally likely), C60_violated_distance (distance at least 3/100 from every symmetric law). Proved instead: the exact law. C60_law (any parameters and floating-point behaviour), C60_hits and C60_support (integer-exact floats), C60_key, C60_limit and C60_terminates (key generation, in IEEE binary64 arithmetic (key_ieee) and exact arithmetic (key_exact))."
  },
  {
   "property": "C61",
   "status": "proved",
   "theorems": [
    "Falcon.C61_keys",
    "Falcon.C61_accurate"
   ],
   "note": "C61_keys, C61_accurate; the data of the table is transcribed in Verif/Model/FftConstants.lean and checked by the kernel."
  },
  {
   "property": "C62",
   "status": "proved",
   "theorems": [
    "Falcon.C62_counts",
    "Falcon.C62_distance"
   ],
   "note": "Statement about the real half-Gaussian (Mathlib Real.exp, infinite sum); the constants are checked by exact rational enclosures in the kernel."
  },
  {
   "property": "C63",
   "status": "partial",
   "theorems": [
    "Falcon.C63_violated_collapse",
    "Falcon.C63_basis",
    "Falcon.C63_degree2_partial",
    "Falcon.C63_violated_normalize",
    "Falcon.C63_normalize",
    "Falcon.C63_last"
   ],
   "note": "VIOLATED for degrees above 2: C63_violated_collapse (any floating-point behaviour), C63_violated_normalize (right leaf never normalised). Proved: C63_basis (exact arithmetic, all degrees), C63_degree2_partial, C63_normalize. Missing: nothing further is true. C63_last: in exact arithmetic and at every degree the right child of the tree that is left is 12289^2 divided by the sum of the squares of the coefficients of f and g, in both slots."
  },
  {
   "property": "C64",
   "status": "partial",
   "theorems": [
    "Falcon.C64_int16_float",
    "Falcon.C64_truncates",
    "Falcon.C64_violated_round",
    "Falcon.C64_intToBigInt",
    "Falcon.C64_bigint",
    "Falcon.C64_intToInt16",
    "Falcon.C64_int16_ops",
    "Falcon.C64_subInt16",
    "Falcon.C64_int8_float",
    "Falcon.C64_subFloat64",
    "Falcon.C64_negFloat64",
    "Falcon.C64_uintFromBytes",
    "Falcon.C64_negInt16"
   ],
   "note": "VIOLATED for RoundFFTtoInt16 (C64_violated_round; C64_truncates gives its exact behaviour). Everything else in the statement is proved. C64_subFloat64 and C64_negFloat64 were added after seeded faults survived."
  },
  {
   "property": "C65",
   "status": "partial",
   "theorems": [
    "Falcon.C65_violated_salt",
    "Falcon.C65_randElement",
    "Falcon.C65_randomFft",
    "Falcon.C65_randomHex"
   ],
   "note": "VIOLATED for GenerateRandSalt (C65_violated_salt). The other three helpers are proved. crypto/rand.Int is an arbitrary draw below its bound."
  },
  {
   "property": "C66",
   "status": "proved",
   "theorems": [
    "Falcon.C66_fft",
    "Falcon.C66_round_trip",
    "Falcon.C66_mul",
    "Falcon.C66_mul_exact",
    "Falcon.C66_violated_large"
   ],
   "note": "C66_fft, C66_round_trip, C66_mul, C66_mul_exact; C66_violated_large shows that the size bound of C66_mul_exact is needed. Stated for amd64 (no fused multiply-add; Verif/Spec/Ieee.lean); for other platforms see C96."
  },
  {
   "property": "C67",
   "status": "proved",
   "theorems": [
    "Falcon.C67_reduced",
    "Falcon.C67_short",
    "Falcon.C67_generated_degree",
    "Falcon.C67_generated",
    "Falcon.C67_sharp",
    "Falcon.C67_key_size"
   ],
   "note": "C67_reduced, C67_short, C67_generated. C67_sharp: the quotient of the result is at most 1/2 + 7e-7 and its coefficients at most 6465. C67_key_size: coefficients of F, G of a generated key are at most 65 sqrt(n) + 130. The arithmetic is that of amd64 (no fused multiply-add). The hypotheses on f, g of C67_short follow from the quality check by C68 when |f(w)|^2+|g(w)|^2 >= 1/10."
  },
  {
   "property": "C68",
   "status": "partial",
   "theorems": [
    "Falcon.C68_degree2",
    "Falcon.C68_accepts",
    "Falcon.C68_floor",
    "Falcon.C68_spread_degree",
    "Falcon.C68_generated_degree",
    "Falcon.C68_degree4",
    "Falcon.C68_first",
    "Falcon.C68_spread",
    "Falcon.C68_second",
    "Falcon.C68_generated",
    "Falcon.C68_violated_accepts"
   ],
   "note": "VIOLATED in general: C68_violated_accepts. C68_first (first norm, no hypothesis), C68_spread, C68_second and C68_generated (second norm, if |f(w)|^2+|g(w)|^2 >= 1/10 at every root of x^n+1). C68_accepts: the converse, a pair with exact norms at most 16822 and 16760 (bound 16822.4) is accepted. C68_degree2: at degree 2 no such hypothesis is needed, f not zero suffices. C68_floor, C68_spread_degree, C68_generated_degree: the hypothesis 1/10 may be replaced by n^2/10^7 (0.0000016 at degree 4, 0.026 at degree 512); C68_degree4: at degree 4 no hypothesis is needed, f or g not zero suffices."
  },
  {
   "property": "C69",
   "status": "proved",
   "theorems": [
    "Falcon.C69_nearest",
    "Falcon.C69_panics",
    "Falcon.C69_integral"
   ],
   "note": "exact arithmetic for the distance and integrality parts (what the code computes without rounding); the panic condition holds for every arithmetic. The tree is the specification's tree built with the repository's LdlFFT and SplitFFT; the repository's FfldlFFT does not build it (C63) and FfnpFFT has no caller."
  },
  {
   "property": "C70",
   "status": "partial",
   "theorems": [
    "Falcon.C70_degree2_exact",
    "Falcon.C70_degree2_ieee",
    "Falcon.C70_degree2_keygen",
    "Falcon.C70_violated_nonunits",
    "Falcon.C70_violated_keygen_four",
    "Falcon.C70_degrees",
    "Falcon.C70_violated_units",
    "Falcon.C70_violated_keygen",
    "Falcon.C70_violated_keygen_all",
    "Falcon.C70_exact",
    "Falcon.C70_degree2",
    "Falcon.C70_violated_exact",
    "Falcon.C70_ieee",
    "Falcon.C70_ieee_degree2",
    "Falcon.C70_even",
    "Falcon.C70_parity",
    "Falcon.C70_parity_four",
    "Falcon.C70_parity_solve"
   ],
   "note": "VIOLATED. C70_violated_units: in IEEE arithmetic NtruSolve diverges for every fuel on any two units of Z[x]/(x^n+1), every degree 2^k, k >= 1. C70_violated_exact: the same in exact arithmetic. C70_violated_keygen: random bytes for which GeneratePrivateKey(8) in IEEE arithmetic diverges for every fuel: f = [37,0,-37,7,-8,-53,-8,7], g = [-45,41,1,41,-45,-18,0,18] pass the quality check (norms 13834 and 12181). C70_violated_keygen_all: the same for every supported degree from 8 to 1024, with f(x^m), g(x^m), on a finite source none of whose bytes is rejected. C70_violated_keygen_four: the same at degree 4, with f = [-55,-82,-61,-5], g = [-25,40,-30,4]; C70_violated_nonunits: these are not units. C70_degree2_ieee: at degree 2 NtruSolve returns for all f, g of squared norm between 8 and 16822 (C70_degree2_exact: in exact arithmetic exactly when f, g are not both units); C70_degree2_keygen: at degree 2 GeneratePrivateKey ends on every finite source, with a key or the panic on a failed read. C70_degrees: key generation ends on every finite source exactly at degree 2. C70_exact: in exact arithmetic, for short f, g and any solution F, G of the NTRU equation, reduce returns (within bit-size many iterations) exactly when no quotient coefficient is halfway between two integers; C70_degree2 states this in integers for degree 2. C70_ieee: in IEEE arithmetic, for f, g within the norm bound with |f(w)|^2+|g(w)|^2 >= 7.84 and any solution F, G of the NTRU equation of any size, reduce returns within bit-size many iterations if no quotient coefficient is within 10^-6 of a tie; C70_ieee_degree2 states this in integers for degree 2. C70_parity: in exact arithmetic reduce returns for every solution if the coefficients of f and g add up to an odd number; C70_parity_solve: in exact arithmetic NtruSolve returns at degrees 2, 4 and 8, inner levels included, for all short f, g unless the coefficients of f and those of g both add up to an odd number (C70_parity_four: degree 4, only the norm bound); C70_even: if both sums are even, NtruSolve reports no solution, at every degree and for every floating-point behaviour. Not covered: inner levels of degree 16 and more, and of IEEE runs, where f, g are not short; quotients closer than 10^-6 to a tie but not equal to it."
  },
  {
   "property": "C71",
   "status": "partial",
   "theorems": [
    "Falcon.C71_count",
    "Falcon.C71_violated_forgery",
    "Falcon.C71_specified",
    "Falcon.C71_violated_likely",
    "Falcon.C71_violated_stream",
    "Falcon.C71_violated_search",
    "Falcon.C71_violated_shake256"
   ],
   "note": "VIOLATED: a universal forgery. C71_violated_shake256: a concrete forged signature, made without a private key for a key of the repository and the real SHAKE256, is accepted (kernel-checked). C71_violated_likely: one body of 625 bytes, which decodes to (32767,17663,127,...,127), is accepted under every public key for at least one hash value in 1900, because the squared norm of the pair, about 2^33, wraps to a small number. C71_violated_stream: the same over uniform XOF streams, with probability at least 1/2000. C71_violated_search: 2^17 salts suffice except with probability 2^-90. C71_violated_forgery is an earlier, weaker bound (2^-28) by moments. Proved: C71_count (the exact number of accepted hash values for every key and every body decoding to 16-bit coefficients) and C71_specified (with the norm compared without wrap-around, at most one hash value in 2^550)."
  },
  {
   "property": "C72",
   "status": "proved",
   "theorems": [
    "Falcon.C72_outcome",
    "Falcon.C72_outcome_verify",
    "Falcon.C72_randomness"
   ],
   "note": "C72_outcome and C72_outcome_verify: the bound on iterations used by the model does not affect outcomes, so `diverge` for every bound is non-termination and any other outcome is the one of the Go code. C72_randomness: locality of key generation in the random stream."
  },
  {
   "property": "C73",
   "status": "proved",
   "theorems": [
    "Falcon.C73_range",
    "Falcon.C73_source",
    "Falcon.C73_pair"
   ],
   "note": "C73_range (exact set of results), C73_pair (every pair is drawn first for some random bytes). For every arithmetic satisfying KeyArith, in particular IEEE (key_ieee) and exact arithmetic (key_exact)."
  },
  {
   "property": "C74",
   "status": "proved",
   "theorems": [
    "Falcon.C74_draws",
    "Falcon.C74_degree",
    "Falcon.C74_law"
   ],
   "note": "C74_law (product formula), C74_draws (tail bound), C74_degree. The law is that of the first candidate; that later candidates are independent of it and have the same law is sum_rest and sum_rest_le of Verif/Props/Effort.lean (used for C75_violated_effort). For every arithmetic satisfying KeyArith, in particular IEEE and exact arithmetic."
  },
  {
   "property": "C75",
   "status": "partial",
   "theorems": [
    "Falcon.C75_violated_effort",
    "Falcon.C75_mean",
    "Falcon.C75_violated_mean",
    "Falcon.C75_accept",
    "Falcon.C75_violated_short",
    "Falcon.C75_violated_ieee",
    "Falcon.C75_discard"
   ],
   "note": "VIOLATED: C75_violated_mean, C75_violated_short, C75_violated_ieee, C75_violated_effort (key generation does not return before it has read 90112 (t+1) bytes with probability at least 0.99045^t at degree 1024, 0.94973^t at degree 512). Proved instead: C75_mean, the exact expected squared norm at every degree dividing 4096; C75_accept, the exact probability, to nine decimals, that a candidate is within the norm bound, at every degree 4..1024; C75_discard: a candidate outside the set is thrown away by NtruGen."
  },
  {
   "property": "C76",
   "status": "partial",
   "theorems": [
    "Falcon.C76_lines",
    "Falcon.C76_violated_leaf",
    "Falcon.C76_terminates",
    "Falcon.C76_violated_improper",
    "Falcon.C76_exact_partial",
    "Falcon.C76_text"
   ],
   "note": "VIOLATED: C76_violated_leaf (a single leaf), C76_violated_improper (a child that is not a []any). Proved instead: C76_lines (the output on all other trees), C76_terminates, C76_exact_partial (which calls return)."
  },
  {
   "property": "C77",
   "status": "proved",
   "theorems": [
    "Falcon.C77_grammar",
    "Falcon.C77_unique",
    "Falcon.C77_decimal",
    "Falcon.C77_leading_zero",
    "Falcon.C77_table"
   ],
   "note": "SetString of math/big (sign, nat.scan with base argument 0) is modelled on every text; C77_grammar characterises the accepted texts and their values. A failed conversion is none: the code ignores the failure and the library leaves the value undefined."
  },
  {
   "property": "C78",
   "status": "proved",
   "theorems": [
    "Falcon.C78_solve",
    "Falcon.C78_reduce",
    "Falcon.C78_products",
    "Falcon.C78_lift",
    "Falcon.C78_alias"
   ],
   "note": "C78_alias shows that the hypothesis on reduce is needed. Model/Heap.lean models *big.Int as addresses; temporaries that never escape are values."
  },
  {
   "property": "C79",
   "status": "proved",
   "theorems": [
    "Falcon.C79_ring",
    "Falcon.C79_div",
    "Falcon.C79_verify",
    "Falcon.C79_verify_bytes",
    "Falcon.C79_repeat"
   ],
   "note": "Model/Slice.lean models []int16 with arrays, offsets, capacities and element-wise stores; byte slices are only read by this code and are lists. C79_repeat covers sequences of calls."
  },
  {
   "property": "C80",
   "status": "partial",
   "theorems": [
    "Falcon.C80_shares",
    "Falcon.C80_changes",
    "Falcon.C80_public",
    "Falcon.C80_violated_write"
   ],
   "note": "VIOLATED: the slices are stored without copying. C80_violated_write: after the caller writes to g[0] the key has another public key, after a write to f[0] none. Exact: C80_shares (the key always has the present elements of the caller's slices), C80_changes (when it changes); C80_public: a public key computed before is not affected."
  },
  {
   "property": "C81",
   "status": "proved",
   "theorems": [
    "Falcon.C81_race_free",
    "Falcon.C81_results",
    "Falcon.C81_progress"
   ],
   "note": "interleavings of single accesses to []int16 arrays; arrays made by a call are private to it; the byte and big.Int code of these functions works on local data only"
  },
  {
   "property": "C82",
   "status": "partial",
   "theorems": [
    "Falcon.C82_ring",
    "Falcon.C82_public_key",
    "Falcon.C82_violated_reveals",
    "Falcon.C82_violated_key"
   ],
   "note": "VIOLATED by GetPublicKey/DivZq: C82_violated_reveals and C82_violated_key (the lookups in inv_mod_q determine f); proved for MulZq and SubZq (C82_ring), and that nothing but f influences the accesses (C82_public_key). Branches are C89. Not covered: lookups in the root tables (public indices)."
  },
  {
   "property": "C83",
   "status": "proved",
   "theorems": [
    "Falcon.C83_mul",
    "Falcon.C83_sub",
    "Falcon.C83_div",
    "Falcon.C83_verify",
    "Falcon.C83_verify_bytes"
   ],
   "note": "Exact counts of memory accesses and allocated elements of MulZq, SubZq and successful DivZq; an upper bound for Verify at degree 512 over all messages, signatures and append growth policies. Hashing and decoding work on bytes and is not counted."
  },
  {
   "property": "C84",
   "status": "partial",
   "theorems": [
    "Falcon.C84_draws",
    "Falcon.C84_value",
    "Falcon.C84_first",
    "Falcon.C84_violated_centre",
    "Falcon.C84_violated_deviation"
   ],
   "note": "VIOLATED: C84_violated_centre, C84_violated_deviation (IEEE arithmetic). Proved: C84_draws (the exact number of draw sequences for every value and number of draws), C84_value (independence of the returned value, for all parameters and every floating-point behaviour), C84_first (the acceptance probability as a function of the parameters). Missing: nothing further is true."
  },
  {
   "property": "C85",
   "status": "partial",
   "theorems": [
    "Falcon.C85_violated_key",
    "Falcon.C85_keys",
    "Falcon.C85_distinct",
    "Falcon.C85_violated_second_key",
    "Falcon.C85_violated_honest",
    "Falcon.C85_violated_message",
    "Falcon.C85_message_partial",
    "Falcon.C85_count",
    "Falcon.C85_count_invertible",
    "Falcon.C85_violated_many",
    "Falcon.C85_zero",
    "Falcon.C85_violated_honest_many"
   ],
   "note": "VIOLATED. C85_violated_key / C85_keys: for an invertible vector s1 the accepting keys are exactly the quotients (c-t)/s1 for all t within the bound (so every honest signature with norm of s1 below the bound has a second key, C85_violated_second_key; C85_violated_honest applies it to the first signature of the repository with SHAKE256). C85_count: for every vector, invertible or not, the exact number of accepting keys; C85_count_invertible and C85_zero are the two extremes; C85_violated_many and C85_violated_honest_many: at least 3^512 keys. C85_violated_message: one signature accepted for two messages under a repository key with SHAKE256. C85_message_partial is what holds when the norms do not wrap: the hash points differ by a short vector; that no such pair of messages can be found is a property of SHAKE256 and outside the model."
  },
  {
   "property": "C86",
   "status": "partial",
   "theorems": [
    "Falcon.C86_exact",
    "Falcon.C86_violated_sums",
    "Falcon.C86_violated_word",
    "Falcon.C86_violated_second",
    "Falcon.C86_forms",
    "Falcon.C86_packed"
   ],
   "note": "VIOLATED. C86_violated_sums, C86_violated_word, C86_violated_second (every argument has another of the same length, different inside the message field, with the same outcome). Proved instead: C86_exact, the outcome on every argument of at least 55104 bytes (shorter ones panic, C27_verifybytes_short_panics); C86_forms, the exact number of forms of a byte; C86_packed, the form of C27 denotes what was packed. Missing: nothing further is true."
  },
  {
   "property": "C87",
   "status": "proved",
   "theorems": [
    "Falcon.C87_ops",
    "Falcon.C87_ops_fft",
    "Falcon.C87_meaning",
    "Falcon.C87_gram",
    "Falcon.C87_sampling",
    "Falcon.C87_basis",
    "Falcon.C87_nearest_plane"
   ],
   "note": "Storage model (Model/Storage.lean, Model/StorageNp.lean): C87_ops, C87_ops_fft, C87_gram, C87_sampling, C87_nearest_plane, C87_basis; C87_meaning spells out the relation they use. For every FloatOps."
  },
  {
   "property": "C88",
   "status": "partial",
   "theorems": [
    "Falcon.C88_tree",
    "Falcon.C88_violated_tree",
    "Falcon.C88_normalize",
    "Falcon.C88_violated_gram",
    "Falcon.C88_normalize3",
    "Falcon.C88_violated_normalize3"
   ],
   "note": "VIOLATED for degree 2: C88_violated_tree (the left child is the caller's G[0][0]) and C88_violated_gram (normalizeTree overwrites it); for every other degree C88_tree proves independence. normalizeTree: exact effect C88_normalize, C88_normalize3 (disjoint slices); a slice that occurs twice is divided twice, C88_violated_normalize3. basisAndMatrix is not affected (C87_basis)."
  },
  {
   "property": "C89",
   "status": "partial",
   "theorems": [
    "Falcon.C89_pmod",
    "Falcon.C89_violated_signs",
    "Falcon.C89_violated_public_key",
    "Falcon.C89_sub",
    "Falcon.C89_pointwise",
    "Falcon.C89_model",
    "Falcon.C89_count",
    "Falcon.C89_forward",
    "Falcon.C89_inverse",
    "Falcon.C89_product",
    "Falcon.C89_quotient",
    "Falcon.C89_public_key"
   ],
   "note": "VIOLATED: C89_violated_signs, C89_violated_public_key. Proved: C89_pmod (exactly when the condition of Pmod holds), C89_forward and C89_inverse (all conditions of NTT and INTT in terms of values at the roots), C89_product and C89_quotient (all conditions of MulZq and DivZq), C89_public_key (for keys with the same public key only the conditions of the forward transforms differ), C89_sub (all conditions of SubZq on reduced operands), C89_pointwise (mulNTT: always the same), C89_count (the number of conditions of NTT), C89_model (without the conditions the functions are those of the model). Source-level conditions; whether the compiler emits a branch for them is outside the model."
  },
  {
   "property": "C90",
   "status": "proved",
   "theorems": [
    "Falcon.C90_keygen",
    "Falcon.C90_signable"
   ],
   "note": "Existence over random bytes, in IEEE arithmetic. C90_keygen: every degree 2^1..2^10, every step bound from 2000 on; the polynomials are constants (95, 1, -34, 129; at degree 1024: 76, 59, -55, 119). C90_signable: degree 512, every message, 40-byte salt and header for which hashToPoint returns; the signature is shown to exist, not to be computed by the signing code."
  },
  {
   "property": "C91",
   "status": "proved",
   "theorems": [
    "Falcon.C91_same",
    "Falcon.C91_rotations",
    "Falcon.C91_distinct",
    "Falcon.C91_short",
    "Falcon.C91_generated",
    "Falcon.C91_determined",
    "Falcon.C91_completion"
   ],
   "note": "C91_same (exact condition for equal public keys), C91_short and C91_generated (f g' - f' g = q e, e in {-1,0,1}; generated keys in IEEE arithmetic without further hypotheses), C91_rotations and C91_distinct (2n different keys with one public key), C91_determined (f and g determine a generated key, any float arithmetic), C91_completion. Other short keys exist: twinA and twinB of the examples. Not shown: how many short keys a public key has beyond the rotations."
  },
  {
   "property": "C92",
   "status": "proved",
   "theorems": [
    "Falcon.C92_coefficient",
    "Falcon.C92_sharp",
    "Falcon.C92_private",
    "Falcon.C92_public",
    "Falcon.C92_collision",
    "Falcon.C92_bits"
   ],
   "note": "C92_coefficient and C92_sharp (table exact to 10^-9), C92_private, C92_public (degree 16 and more, where the coefficients of g are less than q apart), C92_collision, C92_bits (degrees 512 and 1024). The arithmetic is any that satisfies KeyArith: IEEE and exact. Candidates are counted by random draws: fewer than 8192 (t+1) draws."
  },
  {
   "property": "C93",
   "status": "proved",
   "theorems": [
    "Falcon.C93_generated",
    "Falcon.C93_key",
    "Falcon.C93_probability",
    "Falcon.C93_quarter",
    "Falcon.C93_effort"
   ],
   "note": "C93_generated, C93_key: any floating-point behaviour. C93_probability: the exact probability of a candidate with two even sums; C93_quarter: it is 1/4 up to 10^-6000; C93_effort: the consequence for the number of candidates."
  },
  {
   "property": "C94",
   "status": "proved",
   "theorems": [
    "Falcon.C94_precision",
    "Falcon.C94_candidates",
    "Falcon.C94_panics",
    "Falcon.C94_platform",
    "Falcon.C94_same",
    "Falcon.C94_no_panic"
   ],
   "note": "Every Platform (arbitrary fusing rule on operands, arbitrary conversions out of range and complex division) satisfies KeyArith, so GenPoly agrees with the unfused IEEE instance on all sources; the results of C59, C60, C74, C75, C92, C93 stated for KeyArith apply. Equality of F and G between platforms, which needs an accurate complex division, is C96."
  },
  {
   "property": "C95",
   "status": "proved",
   "theorems": [
    "Falcon.C95_check_ieee",
    "Falcon.C95_check_exact",
    "Falcon.C95_solve2",
    "Falcon.C95_degree2",
    "Falcon.C95_unique",
    "Falcon.C95_exact",
    "Falcon.C95_ieee",
    "Falcon.C95_near",
    "Falcon.C95_key"
   ],
   "note": "C95_unique: two pairs in the same class modulo (f, g) are equal if the bounds on their quotients add up to at most 1. C95_exact: exact arithmetic, any two solutions of a class. C95_ieee: IEEE against exact, no coefficient of the quotient within 10^-6 of a tie. C95_near: without that hypothesis, the difference has coefficients in {-1,0,1}. C95_key: generated keys of any degree, with the hypotheses of C67_generated (|f(w)|^2+|g(w)|^2 >= 1/10 at the roots, gcd of the norms at most 2^64) and the condition on ties. C95_check_ieee, C95_check_exact, C95_solve2, C95_degree2: degree 2, no hypothesis beyond f not zero. Not claimed: that no quotient at degrees above 2 comes within 10^-6 of a tie."
  },
  {
   "property": "C96",
   "status": "proved",
   "theorems": [
    "Falcon.C96_amd64",
    "Falcon.C96_fft",
    "Falcon.C96_mul_exact",
    "Falcon.C96_reduce_ends",
    "Falcon.C96_reduced",
    "Falcon.C96_key",
    "Falcon.C96_accepts",
    "Falcon.C96_two_platforms",
    "Falcon.C96_degree2",
    "Falcon.C96_degree2_ends"
   ],
   "note": "C96_amd64: the unfused platform is ieeeOps. C96_fft, C96_mul_exact, C96_reduce_ends, C96_reduced, C96_key, C96_accepts: the bounds of C66, C70, C67, C68 on every accurate platform (Platform.Accurate; instances Platform.amd64_accurate, Platform.arm64_accurate, Platform.withSmith_accurate for any fusing, Platform.x86_accurate and Platform.arm_accurate with a 32-bit int). C96_mul_exact and C96_reduce_ends ask for a 64-bit int (Platform.Wide); C100_violated_reduce shows that the latter needs it. C96_two_platforms: keys with equal f, g on two platforms. C96_degree2, C96_degree2_ends: degree 2. The hypotheses of C67_generated (|f(w)|^2+|g(w)|^2 >= 1/10 at the roots, gcd of the norms at most 2^64) are kept. Not covered: fusing rules that depend on the place in the program."
  },
  {
   "property": "C97",
   "status": "proved",
   "theorems": [
    "Falcon.C97_basis",
    "Falcon.C97_ldl",
    "Falcon.C97_key",
    "Falcon.C97_pivot",
    "Falcon.C97_platform_key",
    "Falcon.C97_platform_pivot"
   ],
   "note": "For every variant of the arithmetic within the amd64 error bounds (variant_C97_*), for IEEE arithmetic (C97_*) and for every accurate platform with any fusing (C97_platform_*). Below the top level of a tree of degree above 2 no bound is given: the nodes overwrite each other there (C63)."
  },
  {
   "property": "C98",
   "status": "partial",
   "theorems": [
    "Falcon.C98_model",
    "Falcon.C98_lines",
    "Falcon.C98_lines_generated",
    "Falcon.C98_lines_error",
    "Falcon.C98_violated_import",
    "Falcon.C98_violated_import_platform",
    "Falcon.C98_violated_generated",
    "Falcon.C98_violated_generated_platform",
    "Falcon.C98_violated_differs",
    "Falcon.C98_violated"
   ],
   "note": "VIOLATED: the claim is false. C98_violated_import, C98_violated_generated (and the _platform versions) show that rounding the first printed number of the left child of the first logged node gives the squared norm of (f, g), for every generated key and every imported key of squared norm up to 16822; C98_violated_differs and C98_violated give keys of the same degree with different output. C98_lines and C98_lines_generated list all printed lines, C98_model shows that the functions with output are those of the model. A printed number is modelled by its value."
  },
  {
   "property": "C99",
   "status": "partial",
   "theorems": [
    "Falcon.C99_forward_partial",
    "Falcon.C99_no_overflow_partial",
    "Falcon.C99_inverse_exact",
    "Falcon.C99_violated_ring",
    "Falcon.C99_violated_verify",
    "Falcon.C99_violated_key",
    "Falcon.C99_violated_vector"
   ],
   "note": "VIOLATED: the claim is false for the inverse transform. C99_violated_ring (every degree), C99_violated_key (public keys, every degree; a generated key at degree 2), C99_violated_verify (both directions, all messages and salts, chosen hash functions) and C99_violated_vector (the first signature of the repository, with SHAKE256) are the witnesses; C99_inverse_exact gives the exact condition at degree 2. What holds: C99_forward_partial (NTT, mulNTT, divNTT are the same for all inputs) and C99_no_overflow_partial. Key generation with a 32-bit int is C100; signing with one is not modelled."
  },
  {
   "property": "C100",
   "status": "partial",
   "theorems": [
    "Falcon.C100_candidates_partial",
    "Falcon.C100_degree2_partial",
    "Falcon.C100_reduce_ends_partial",
    "Falcon.C100_violated_reduce",
    "Falcon.C100_violated_keygen"
   ],
   "note": "VIOLATED: C100_violated_keygen gives finite random bytes for which GeneratePrivateKey of degree 4 returns a key on amd64 (f = 85 + 15x + 15x^3, g = 27 + 49x + 49x^3) and diverges for every fuel on Platform.x86: the inner reduce has a quotient of about 1.4e11, which is converted to -2^31, and F, G grow. C100_violated_reduce: at every degree reduce diverges for every fuel on Platform.x86 for f = 1, g = 0, constants F >= 2^31, G = 12289, a solution of the NTRU equation, and returns within 3 iterations on amd64. What holds: C100_candidates_partial (GenPoly and the forward transform), C100_degree2_partial (GeneratePrivateKey at degree 2, all random sources), C100_reduce_ends_partial (every degree, quotients up to 10^9 and inputs up to 2^44); C96_reduced, C96_key, C96_accepts, C96_two_platforms, C97_platform_* apply by Platform.x86_accurate and Platform.arm_accurate. Not claimed: key generation that loops on 386 above degree 4; saturating platforms above degree 2."
  },
  {
   "property": "C101",
   "status": "proved",
   "theorems": [
    "Falcon.C101_berexp",
    "Falcon.C101_samplerz",
    "Falcon.C101_sampling",
    "Falcon.C101_range_needed"
   ],
   "note": "Model/Sampler32.lean has every int operation of Samplerz and berexp on 32 bits; conversions float64 to int as on 386 (opsWith toI32). uint64(x) is kept as on amd64. C101_range_needed is the counterexample outside the range."
  }
 ]
}