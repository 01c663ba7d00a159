# Axioms used by the theorems of the manifest

From `#print axioms`, for each of the 441 theorems (namespace `Falcon`).

## `propext`, `Classical.choice`, `Quot.sound` (404)

- C01_compress_decompress_roundtrip
- C01_empty_vector_panics
- C03_compress_injective
- C04_decompress_accepts_iff
- C05_decompress_panics_iff_partial
- C05_violated_all_zero
- C05_violated_truncated
- C06_violated_two_encodings
- C06_code_bits_determined_partial
- C06_negative_zero_rejected
- C07_decoded_bounds
- C07_falcon512_bound
- C08_ntt_intt_inverse
- C09_ntt_is_evaluation
- C10_mulzq_is_product
- C11_mulzq_comm
- C11_mulzq_assoc
- C11_mulzq_one
- C11_mulzq_distrib
- C12_divzq
- C13_subzq_partial
- C13_subzq_exact
- C14_no_overflow
- C15_mulzq_all_lengths_partial
- C15_violated_surplus_ignored
- C15_violated_empty_product
- C16_hash_reduced
- C17_hash_unbiased
- C17_hash_uniform
- C17_hash_returns
- C17_hash_share
- C19_verify_exact
- C19_residual_exists_unique
- C20_violated_norm_wraps
- C20_verify_sound_partial
- C21_verify_complete
- C22_verify_panics_iff_partial
- C22_violated
- C22_verify_terminates
- C23_violated_header_ignored
- C23_violated_wrong_header_accepted
- C24_violated_malleable
- C25_verify_congr
- C26_violated_surplus_key
- C26_other_lengths_partial
- C27_verifybytes_is_verify
- C27_verifybytes_short_panics
- C28_narrowing_harmless
- C28_narrowing_harmless_wide
- C29_exact
- C29_accepts
- C29_violated
- C29_violated_empty
- C30_public_key
- C30_unique
- C31_violated_always
- C31_violated_from_private_key
- C31_violated_never
- C31_violated_new_key_pair
- C32_unsupported
- C32_supported
- C33_keys
- C33_entry
- C33_monotone
- C33_compressible
- C34_karatsuba
- C34_coefficients
- C35_karamul
- C35_unique
- C36_galois
- C36_lift
- C36_norm
- C36_code
- C37_small
- C38_bitsize
- C39_reduce
- C39_lattice
- C39_large
- C40_identity_partial
- C40_solution_partial
- C40_degree1_partial
- C40_violated
- C41_iff
- C41_coprime
- C41_degree1
- C42_violated_all
- C42_small_exact
- C42_small_ieee
- C42_degree2
- C42_degree4
- C42_violated
- C42_mod16_partial
- C42_exact_partial
- C43_public_key
- C44_threshold
- C44_antitone
- C44_count
- C45_violated
- C45_value_partial
- C46_count_partial
- C46_violated_tail
- C46_one_partial
- C46_negative
- C47_samplerz
- C47_integer_centre
- C47_centre_zero
- C48_genPoly
- C48_large
- C48_no_panic
- C49_evaluation
- C49_ifft_fft
- C49_split_merge
- C49_merge_split
- C50_mul
- C50_unique
- C50_div
- C50_adj
- C50_add_sub_neg
- C51_gram_shape
- C51_ldl
- C51_dimensions
- C51_gram
- C51_basis
- C52_degree2_values_partial
- C52_violated_leaves
- C52_violated
- C52_violated_panic
- C52_degree2_partial
- C52_violated_deviation
- C53_split_merge
- C53_elements
- C53_panic
- C54_pmod
- C55_cmpBigInt
- C55_biggestFloat64
- C55_smallestFloat64
- C55_minFloat64
- C55_sliceEqual
- C56_gsnorm
- C56_generated
- C57_reduced
- C57_short
- C57_generated
- C58_basis
- C58_independent
- C58_generated
- C58_sign
- C58_difference
- C59_only_sampler
- C59_new_key_pair
- C59_sampler_exact
- C59_exact
- C59_new_key_pair_exact
- C59_sampler_key
- C59_ieee
- C59_new_key_pair_ieee
- C60_law
- C60_hits
- C60_support
- C60_key
- C60_violated_ratio
- C60_limit
- C60_terminates
- C60_violated_distance
- C61_accurate
- C62_counts
- C62_distance
- C63_violated_collapse
- C63_basis
- C63_degree2_partial
- C63_normalize
- C63_last
- C64_int16_float
- C64_truncates
- C64_violated_round
- C64_bigint
- C64_intToInt16
- C64_int16_ops
- C64_subInt16
- C64_int8_float
- C64_subFloat64
- C64_negFloat64
- C64_uintFromBytes
- C64_negInt16
- C65_randomFft
- C65_randomHex
- C66_fft
- C66_round_trip
- C66_mul
- C66_mul_exact
- C66_violated_large
- C67_reduced
- C67_short
- C67_generated_degree
- C67_generated
- C67_sharp
- C67_key_size
- C68_degree2
- C68_accepts
- C68_floor
- C68_spread_degree
- C68_generated_degree
- C68_degree4
- C68_first
- C68_spread
- C68_second
- C68_generated
- C68_violated_accepts
- C69_nearest
- C69_panics
- C69_integral
- C70_degree2_exact
- C70_degree2_ieee
- C70_degree2_keygen
- C70_violated_nonunits
- C70_violated_keygen_four
- C70_degrees
- C70_violated_units
- C70_violated_keygen
- C70_violated_keygen_all
- C70_exact
- C70_degree2
- C70_violated_exact
- C70_ieee
- C70_ieee_degree2
- C70_even
- C70_parity
- C70_parity_four
- C70_parity_solve
- C71_count
- C71_violated_forgery
- C71_specified
- C71_violated_likely
- C71_violated_stream
- C71_violated_search
- C71_violated_shake256
- C72_outcome
- C72_outcome_verify
- C72_randomness
- C73_range
- C73_source
- C73_pair
- C74_draws
- C74_degree
- C74_law
- C75_violated_effort
- C75_mean
- C75_violated_mean
- C75_accept
- C75_violated_short
- C75_violated_ieee
- C75_discard
- C76_violated_improper
- C76_exact_partial
- C77_grammar
- C77_unique
- C77_decimal
- C77_leading_zero
- C77_table
- C78_solve
- C78_reduce
- C78_products
- C78_lift
- C78_alias
- C79_ring
- C79_div
- C79_verify
- C79_verify_bytes
- C79_repeat
- C80_shares
- C80_changes
- C80_public
- C80_violated_write
- C81_race_free
- C81_results
- C81_progress
- C82_public_key
- C82_violated_reveals
- C82_violated_key
- C83_mul
- C83_sub
- C83_div
- C83_verify
- C83_verify_bytes
- C84_draws
- C84_value
- C84_first
- C84_violated_centre
- C84_violated_deviation
- C85_violated_key
- C85_keys
- C85_distinct
- C85_violated_second_key
- C85_violated_honest
- C85_violated_message
- C85_message_partial
- C85_count
- C85_count_invertible
- C85_violated_many
- C85_zero
- C85_violated_honest_many
- C86_exact
- C86_violated_sums
- C86_violated_word
- C86_violated_second
- C86_forms
- C86_packed
- C87_ops
- C87_ops_fft
- C87_gram
- C87_sampling
- C87_basis
- C87_nearest_plane
- C88_tree
- C88_violated_tree
- C88_violated_gram
- C89_violated_signs
- C89_violated_public_key
- C89_sub
- C89_pointwise
- C89_model
- C89_count
- C89_forward
- C89_inverse
- C89_product
- C89_quotient
- C89_public_key
- C90_keygen
- C90_signable
- C91_same
- C91_rotations
- C91_distinct
- C91_short
- C91_generated
- C91_determined
- C91_completion
- C92_coefficient
- C92_sharp
- C92_private
- C92_public
- C92_collision
- C92_bits
- C93_generated
- C93_key
- C93_probability
- C93_quarter
- C93_effort
- C94_precision
- C94_candidates
- C94_panics
- C94_platform
- C94_same
- C94_no_panic
- C95_check_ieee
- C95_check_exact
- C95_solve2
- C95_degree2
- C95_unique
- C95_exact
- C95_ieee
- C95_near
- C95_key
- C96_amd64
- C96_fft
- C96_mul_exact
- C96_reduce_ends
- C96_reduced
- C96_key
- C96_accepts
- C96_two_platforms
- C96_degree2
- C96_degree2_ends
- C97_basis
- C97_ldl
- C97_key
- C97_pivot
- C97_platform_key
- C97_platform_pivot
- C98_model
- C98_lines
- C98_lines_generated
- C98_lines_error
- C98_violated_import
- C98_violated_import_platform
- C98_violated_generated
- C98_violated_generated_platform
- C98_violated_differs
- C98_violated
- C99_forward_partial
- C99_no_overflow_partial
- C99_inverse_exact
- C99_violated_ring
- C99_violated_verify
- C99_violated_key
- C99_violated_vector
- C100_candidates_partial
- C100_degree2_partial
- C100_reduce_ends_partial
- C100_violated_reduce
- C100_violated_keygen
- C101_berexp
- C101_samplerz
- C101_sampling
- C101_range_needed

## `propext`, `Quot.sound` (31)

- C02_compress_fits
- C15_subzq_lengths
- C16_hash_exact
- C16_hash_fuel_mono
- C16_hash_terminates_iff
- C18_hashes_agree
- C37_xgcd
- C37_negative
- C44_range
- C48_overflow_n2
- C53_merge_split
- C53_even
- C53_odd
- C55_max
- C55_maxFromBigInt
- C55_minFromBigInt
- C55_cmp
- C55_allZeroes
- C55_anyZeroes
- C61_keys
- C63_violated_normalize
- C65_randElement
- C76_lines
- C76_violated_leaf
- C76_terminates
- C82_ring
- C87_meaning
- C88_normalize
- C88_normalize3
- C88_violated_normalize3
- C89_pmod

## `propext` (5)

- C16_hash_concat
- C47_truncation
- C54_panic
- C64_intToBigInt
- C76_text

## no axioms (1)

- C65_violated_salt
