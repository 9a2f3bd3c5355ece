{
 "claims": [
  {
   "property": "C01",
   "status": "proved",
   "theorems": [
    "Boost.Random.c01_integer_log2",
    "Boost.Random.c01_integer_log2_zero"
   ],
   "note": "Exact floor(log2 t) for all t>0 and all power-of-two widths; t=0 documented."
  },
  {
   "property": "C02",
   "status": "partial",
   "theorems": [
    "Boost.Random.c02_apply",
    "Boost.Random.c02_add",
    "Boost.Random.c02_mult_partial",
    "Boost.Random.c02_mult_add_partial",
    "Boost.Random.c02_pow_partial",
    "Boost.Random.c02_mult_false"
   ],
   "note": "add and apply for every modulus; mult, mult_add, pow for all moduli satisfying WideOK (<=2^32, powers of two, or digit condition). False for other 64-bit moduli (c02_mult_false)."
  },
  {
   "property": "C03",
   "status": "partial",
   "theorems": [
    "Boost.Random.c03_muldivmod_partial",
    "Boost.Random.c03_muldiv_exact_iff",
    "Boost.Random.c03_muldivmod_digits_partial",
    "Boost.Random.c03_muldivmod_small_partial",
    "Boost.Random.c03_muldiv_le",
    "Boost.Random.c03_muldivmod_false",
    "Boost.Random.c03_muldiv_zero"
   ],
   "note": "Exact if and only if no division step overflows (c03_muldiv_exact_iff); false for e.g. m=2^64-59; divisor 0 behaves as 2^64."
  },
  {
   "property": "C04",
   "status": "proved",
   "theorems": [
    "Boost.Random.c04_invert_gcd",
    "Boost.Random.c04_invert_coprime"
   ],
   "note": "All type widths 32..64, all moduli including m=0."
  },
  {
   "property": "C05",
   "status": "proved",
   "theorems": [
    "Boost.Random.c05_subtract_signed",
    "Boost.Random.c05_subtract_unsigned",
    "Boost.Random.c05_add_signed",
    "Boost.Random.c05_add_unsigned",
    "Boost.Random.c05_add_wide"
   ],
   "note": "All widths, all values."
  },
  {
   "property": "C06",
   "status": "partial",
   "theorems": [
    "Boost.Random.c06_recurrence_partial",
    "Boost.Random.c06_recurrence_false",
    "Boost.Random.c06_range_partial",
    "Boost.Random.c06_range_false"
   ],
   "note": "Recurrence for all moduli with WideOK; range when c != 0 or gcd(a,m)=1. Both side conditions shown necessary by counterexamples."
  },
  {
   "property": "C07",
   "status": "partial",
   "theorems": [
    "Boost.Random.c07_discard_partial",
    "Boost.Random.c07_discard_prime",
    "Boost.Random.c07_discard_multiplicative",
    "Boost.Random.c07_discard_two_pow",
    "Boost.Random.c07_discard_minstd_rand0",
    "Boost.Random.c07_discard_minstd_rand",
    "Boost.Random.c07_discard_false",
    "Boost.Random.c07_discard_a_one_false"
   ],
   "note": "Exact under DiscardOK (holds for every prime modulus and every power of two with a>1); false for other parameters (witnesses)."
  },
  {
   "property": "C08",
   "status": "proved",
   "theorems": [
    "Boost.Random.c08_seed",
    "Boost.Random.c08_seed_injective"
   ],
   "note": "All seeds of the type, all moduli (m=0 with unsigned types)."
  },
  {
   "property": "C09",
   "status": "proved",
   "theorems": [
    "Boost.Random.c09_round_trip",
    "Boost.Random.c09_reject",
    "Boost.Random.c09_read_in_range"
   ],
   "note": "Negative text read into an unsigned type wraps as in the standard library."
  },
  {
   "property": "C10",
   "status": "proved",
   "theorems": [
    "Boost.Random.c10_minstd_rand0",
    "Boost.Random.c10_minstd_rand",
    "Boost.Random.c10_rand48"
   ],
   "note": "All starting states, whole period, exactly-once visits."
  },
  {
   "property": "C11",
   "status": "proved",
   "theorems": [
    "Boost.Random.c11_seed",
    "Boost.Random.c11_seed_injective",
    "Boost.Random.c11_next",
    "Boost.Random.c11_discard"
   ],
   "note": "All seeds, all states, all z."
  },
  {
   "property": "C12",
   "status": "partial",
   "theorems": [
    "Boost.Random.c12_next_partial",
    "Boost.Random.c12_range_partial",
    "Boost.Random.c12_range_false"
   ],
   "note": "All primes with WideOK; range needs a != 0 (c12_range_false)."
  },
  {
   "property": "C13",
   "status": "partial",
   "theorems": [
    "Boost.Random.c13_step",
    "Boost.Random.c13_sequence",
    "Boost.Random.c13_range_partial",
    "Boost.Random.c13_range_false"
   ],
   "note": "Step and sequence for all parameters; range only if the type has exactly w bits: false otherwise (proved for every such engine)."
  },
  {
   "property": "C14",
   "status": "partial",
   "theorems": [
    "Boost.Random.c14_seed_partial",
    "Boost.Random.c14_seed_false",
    "Boost.Random.c14_never_zero",
    "Boost.Random.c14_zero_stuck"
   ],
   "note": "All parameters with w - k <= 30; otherwise seeding shifts an int too far (witness)."
  },
  {
   "property": "C15",
   "status": "proved",
   "theorems": [
    "Boost.Random.c15_recurrence",
    "Boost.Random.c15_unique",
    "Boost.Random.c15_range",
    "Boost.Random.c15_range_tight"
   ],
   "note": "for all word sizes below the width of the type, lags, tables and numbers of calls"
  },
  {
   "property": "C16",
   "status": "partial",
   "theorems": [
    "Boost.Random.c16_discard_false",
    "Boost.Random.c16_discard_skips",
    "Boost.Random.c16_discard_partial",
    "Boost.Random.c16_discard_iff"
   ],
   "note": "false at buffer position 0 with 0 < z < r (c16_discard_false, c16_discard_skips); proved in all other cases, exact condition c16_discard_iff"
  },
  {
   "property": "C17",
   "status": "partial",
   "theorems": [
    "Boost.Random.c17_equal_futures_false",
    "Boost.Random.c17_equal_futures_partial",
    "Boost.Random.c17_seeded_equal_partial",
    "Boost.Random.c17_running_equal_partial"
   ],
   "note": "false: operator== ignores the borrow (c17_equal_futures_false, with engines reachable by seeding); proved when borrows agree, for freshly seeded engines, and for running engines whose last value differs from the one s before"
  },
  {
   "property": "C18",
   "status": "proved",
   "theorems": [
    "Boost.Random.c18_round_trip"
   ],
   "note": ""
  },
  {
   "property": "C19",
   "status": "partial",
   "theorems": [
    "Boost.Random.c19_recurrence",
    "Boost.Random.c19_range_tight",
    "Boost.Random.c19_discard",
    "Boost.Random.c19_eq_sound",
    "Boost.Random.c19_eq_partial",
    "Boost.Random.c19_eq_complete_false",
    "Boost.Random.c19_text"
   ],
   "note": "Everything proved; of ==, soundness and exactness at equal positions are proved; completeness in general is false (c19_eq_complete_false)."
  },
  {
   "property": "C20",
   "status": "proved",
   "theorems": [
    "Boost.Random.c20_recurrence",
    "Boost.Random.c20_temper_bijective",
    "Boost.Random.c20_r_zero_false"
   ],
   "note": "For 2 <= m < n, 1 <= r < w (all typedefs). For r = 0, which the published algorithm allows, the code deviates (c20_r_zero_false)."
  },
  {
   "property": "C21",
   "status": "proved",
   "theorems": [
    "Boost.Random.c21_range",
    "Boost.Random.c21_seed_words_never_stuck",
    "Boost.Random.c21_seed_value_never_stuck",
    "Boost.Random.c21_seed_value",
    "Boost.Random.c21_range_tight"
   ],
   "note": "seed(seq)/seed(first,last): for whatever words the seeding helper stores."
  },
  {
   "property": "C22",
   "status": "proved",
   "theorems": [
    "Boost.Random.c22_typedefs",
    "Boost.Random.c22_live",
    "Boost.Random.c22_eq_sound",
    "Boost.Random.c22_eq",
    "Boost.Random.c22_eq_unnormalized_false"
   ],
   "note": "Exact for engines seeded or run; sound also for engines just read from text; the converse for unnormalized arrays read from text is false (c22_eq_unnormalized_false)."
  },
  {
   "property": "C23",
   "status": "proved",
   "theorems": [
    "Boost.Random.c23_text",
    "Boost.Random.c23_degenerate_text_false"
   ],
   "note": "Also shown: text can produce the degenerate all-zero engine (c23_degenerate_text_false)."
  },
  {
   "property": "C24",
   "status": "partial",
   "theorems": [
    "Boost.Random.c24_characteristic_partial",
    "Boost.Random.c24_calls",
    "Boost.Random.c24_discard_partial",
    "Boost.Random.c24_discard_half_partial",
    "Boost.Random.c24_typedefs",
    "Boost.Random.c24_wide_false",
    "Boost.Random.c24_overrun_false"
   ],
   "note": "proved for mt11213b, mt19937 and mt19937_64, for every state, every z, every threshold, and 32- or 64-bit unsigned long (c24_typedefs); proved for all template arguments with UIntType of exactly w bits, w even, and a reduction that fits (c24_discard_partial); false for wider types and where sparse_mod overruns (c24_wide_false, c24_overrun_false)"
  },
  {
   "property": "C25",
   "status": "proved",
   "theorems": [
    "Boost.Random.c25_get_one_int",
    "Boost.Random.c25_seed_one_int",
    "Boost.Random.c25_narrow",
    "Boost.Random.c25_fill_array",
    "Boost.Random.c25_seed_array",
    "Boost.Random.c25_fill_array_real",
    "Boost.Random.c25_pow2_false",
    "Boost.Random.c25_lcg",
    "Boost.Random.c25_mt",
    "Boost.Random.c25_lagged",
    "Boost.Random.c25_lagged_value",
    "Boost.Random.c25_swc"
   ],
   "note": "for the moduli covered by WideOK (C03) and unsigned words that fit the type; the floating-point arrays over rationals for w <= digits"
  },
  {
   "property": "C26",
   "status": "partial",
   "theorems": [
    "Boost.Random.c26_generate_partial",
    "Boost.Random.c26_empty_false",
    "Boost.Random.c26_wide_false",
    "Boost.Random.c26_mt"
   ],
   "note": "the standard algorithm for a non-empty range of a 32-bit type; false for an empty range and for a 64-bit destination (witnesses)"
  },
  {
   "property": "C27",
   "status": "partial",
   "theorems": [
    "Boost.Random.c27_generate_partial",
    "Boost.Random.c27_empty_false",
    "Boost.Random.c27_constant_engine_false",
    "Boost.Random.c27_generate_real"
   ],
   "note": "for every engine of at least two values and every non-empty range, integer and floating-point engines; false for an empty range and for an engine of one value (witnesses)"
  },
  {
   "property": "C28",
   "status": "partial",
   "theorems": [
    "Boost.Random.c28_algorithm_partial",
    "Boost.Random.c28_range_partial",
    "Boost.Random.c28_three_values_false"
   ],
   "note": "proved for every base engine and every w except a base with exactly three values and w >= 3; in that case (and, as it follows from a division by zero, for a base with one value) the behaviour is undefined, which is proved"
  },
  {
   "property": "C29",
   "status": "partial",
   "theorems": [
    "Boost.Random.c29_uniform_partial"
   ],
   "note": "proved for every base engine, w and sequence length except a base with exactly three values and w >= 3, where the behaviour is undefined"
  },
  {
   "property": "C30",
   "status": "proved",
   "theorems": [
    "Boost.Random.c30_shuffle",
    "Boost.Random.c30_kreutzer1986",
    "Boost.Random.c30_knuth_b"
   ],
   "note": "All base engines of at most 64 bits, all k < 2^64, all numbers of calls."
  },
  {
   "property": "C31",
   "status": "proved",
   "theorems": [
    "Boost.Random.c31_block"
   ],
   "note": "All p >= r > 0, p < 2^64, all base engines, all n."
  },
  {
   "property": "C32",
   "status": "partial",
   "theorems": [
    "Boost.Random.c32_value",
    "Boost.Random.c32_sequence",
    "Boost.Random.c32_min_false",
    "Boost.Random.c32_max_false",
    "Boost.Random.c32_max_deprecated_false",
    "Boost.Random.c32_range_partial",
    "Boost.Random.c32_range_attained",
    "Boost.Random.c32_discard"
   ],
   "note": "Value formula, sequence and discard proved in general. The range claim is false of the code (witnesses for min, max and the deprecated max); proved when nothing is shifted, some minimum is 0 and the larger maximum is 2^t - 1."
  },
  {
   "property": "C33",
   "status": "proved",
   "theorems": [
    "Boost.Random.c33_value",
    "Boost.Random.c33_value_order_false",
    "Boost.Random.c33_next",
    "Boost.Random.c33_range_tight",
    "Boost.Random.c33_discard",
    "Boost.Random.c33_discard_a_one_false",
    "Boost.Random.c33_discard_ecuyer1988"
   ],
   "note": "Value, range, tightness and discard for all multiplicative bases with m2 <= m1. The requirements m2 <= m1 and a > 1, which the code does not check, are shown necessary."
  },
  {
   "property": "C34",
   "status": "proved",
   "theorems": [
    "Boost.Random.c34_period",
    "Boost.Random.c34_range",
    "Boost.Random.c34_discard",
    "Boost.Random.c34_seed"
   ],
   "note": "All states."
  },
  {
   "property": "C35",
   "status": "partial",
   "theorems": [
    "Boost.Random.c35_round_trip_partial",
    "Boost.Random.c35_stream_good_false",
    "Boost.Random.c35_following_engine_false",
    "Boost.Random.c35_failed_stream_false"
   ],
   "note": "State restored if no digit follows; the stream is never left good and a following engine is swallowed (proved for all states)."
  },
  {
   "property": "C36",
   "status": "partial",
   "theorems": [
    "Boost.Random.c36_sequence",
    "Boost.Random.c36_range_partial",
    "Boost.Random.c36_range_false"
   ],
   "note": "Matrix recurrence proved for all well-formed states; range claim false (witness accepted by operator>>), bound max()+2 proved."
  },
  {
   "property": "C37",
   "status": "partial",
   "theorems": [
    "Boost.Random.c37_round_trip_partial",
    "Boost.Random.c37_refilled",
    "Boost.Random.c37_seeded",
    "Boost.Random.c37_round_trip_false",
    "Boost.Random.c37_reached_false",
    "Boost.Random.c37_eq",
    "Boost.Random.c37_discard"
   ],
   "note": "Round trip proved for counters below N; false for every state with counter N."
  },
  {
   "property": "C38",
   "status": "partial",
   "theorems": [
    "Boost.Random.c38_no_ub",
    "Boost.Random.c38_range_partial",
    "Boost.Random.c38_range_iff",
    "Boost.Random.c38_range_false"
   ],
   "note": "No undefined behaviour for all inputs; in range iff not (range size is a power >=2 of the engine size, min != 0, not the whole type) (c38_range_iff). False otherwise: line 123 forgets min_value."
  },
  {
   "property": "C39",
   "status": "partial",
   "theorems": [
    "Boost.Random.c39_uniform_partial",
    "Boost.Random.c39_attained_partial",
    "Boost.Random.c39_uniform_exact_power",
    "Boost.Random.c39_uniform_false"
   ],
   "note": "Exactly uniform for every tuple length and every value attained, under the exact guard of C38; outside the guard uniform over the wrong set."
  },
  {
   "property": "C40",
   "status": "proved",
   "theorems": [
    "Boost.Random.c40_value",
    "Boost.Random.c40_count",
    "Boost.Random.c40_quantization"
   ],
   "note": "Integral engines. Value, range and the documented square-sum (as an equality in the rationals)."
  },
  {
   "property": "C41",
   "status": "proved",
   "theorems": [
    "Boost.Random.c41_table",
    "Boost.Random.c41_sampling",
    "Boost.Random.c41_loop",
    "Boost.Random.c41_empty",
    "Boost.Random.c41_real_weights"
   ],
   "note": "integer weights: table from any previous table (`c41_table`), counts of engine value tuples as the weights (`c41_sampling`), loop (`c41_loop`), empty list (`c41_empty`); real weights over the rationals (`c41_real_weights`)"
  },
  {
   "property": "C42",
   "status": "partial",
   "theorems": [
    "Boost.Random.c42_eq_sound",
    "Boost.Random.c42_roundtrip_partial",
    "Boost.Random.c42_history_partial",
    "Boost.Random.c42_roundtrip_false",
    "Boost.Random.c42_real_roundtrip_partial"
   ],
   "note": "true for new objects and histories in which the number of weights does not decrease; false otherwise (`c42_roundtrip_false`); equal objects hold equal weights for all histories (`c42_eq_sound`)"
  },
  {
   "property": "C43",
   "status": "partial",
   "theorems": [
    "Boost.Random.c43_callWith_partial",
    "Boost.Random.c43_scan",
    "Boost.Random.c43_max_first_false",
    "Boost.Random.c43_real_empty_false"
   ],
   "note": "true unless the first weight is the greatest value of its type and another weight is positive; false there (`c43_max_first_false`), and false for real weights with an empty list (`c43_real_empty_false`)"
  },
  {
   "property": "C44",
   "status": "proved",
   "theorems": [
    "Boost.Random.c44_states",
    "Boost.Random.c44_outputs",
    "Boost.Random.c44_seed",
    "Boost.Random.c44_seed_throws"
   ],
   "note": "over every lattice (Niederreiter's and Sobol's being instances), for engines satisfying GrayState, which the constructor establishes and every operation but reading text of another dimension preserves (c44_states)"
  },
  {
   "property": "C45",
   "status": "partial",
   "theorems": [
    "Boost.Random.c45_faure_partial",
    "Boost.Random.c45_faure_false",
    "Boost.Random.c45_discard_partial",
    "Boost.Random.c45_discard_false"
   ],
   "note": "every position, dimension and z except dimension 1, end of a vector, z = 2^64-1, where the claim is false (c45_discard_false, c45_faure_false)"
  },
  {
   "property": "C46",
   "status": "partial",
   "theorems": [
    "Boost.Random.c46_faure",
    "Boost.Random.c46_eq_partial",
    "Boost.Random.c46_eq_false"
   ],
   "note": "Sobol and Niederreiter: all states except those left by reading text of another dimension, where the claim is false (c46_eq_false); Faure: all reachable states (c46_faure)"
  },
  {
   "property": "C47",
   "status": "partial",
   "theorems": [
    "Boost.Random.c47_faure_roundtrip",
    "Boost.Random.c47_faure_throw",
    "Boost.Random.c47_roundtrip_partial",
    "Boost.Random.c47_throw_partial",
    "Boost.Random.c47_roundtrip_false",
    "Boost.Random.c47_throw_false"
   ],
   "note": "Sobol and Niederreiter: round trip proved unless the target has another dimension and the same sequence number, where it is false (c47_roundtrip_false); after an exception the engine is usable if the text names its dimension, otherwise false (c47_throw_false). Faure: all source and target states (c47_faure_roundtrip), all texts (c47_faure_throw)"
  },
  {
   "property": "C48",
   "status": "proved",
   "theorems": [
    "Boost.Random.c48_permutation",
    "Boost.Random.c48_sobol",
    "Boost.Random.c48_dimension",
    "Boost.Random.c48_small_false",
    "Boost.Random.c48_min_false"
   ],
   "note": "any table with odd initial values below 2^(k+1) and degrees between 1 and w; the default table is checked entry by entry (c48_sobol)"
  },
  {
   "property": "C49",
   "status": "partial",
   "theorems": [
    "Boost.Random.c49_bounds_partial",
    "Boost.Random.c49_shift_false"
   ],
   "note": "Proved for all roundings, engines, precisions and 1 <= w <= 30 unless the engine digits exactly fill the fraction; then the code shifts by -1 (c49_shift_false)."
  },
  {
   "property": "C50",
   "status": "partial",
   "theorems": [
    "Boost.Random.c50_count_partial",
    "Boost.Random.c50_error_partial",
    "Boost.Random.c50_one_partial",
    "Boost.Random.c50_rounded_partial",
    "Boost.Random.c50_zero",
    "Boost.Random.c50_signed_false"
   ],
   "note": "Proved for all engines whose differences fit the engine type; otherwise signed overflow (c50_signed_false). Exact count, also with rounded products; p = 0 and p = 1 exactly."
  },
  {
   "property": "C51",
   "status": "partial",
   "theorems": [
    "Boost.Random.c51_simple",
    "Boost.Random.c51_karatsuba",
    "Boost.Random.c51_multiply",
    "Boost.Random.c51_empty_false",
    "Boost.Random.c51_sqr_digit",
    "Boost.Random.c51_sqr",
    "Boost.Random.c51_remainder_partial",
    "Boost.Random.c51_mod_pow_partial",
    "Boost.Random.c51_mod_pow_half_partial",
    "Boost.Random.c51_overrun_false",
    "Boost.Random.c51_linear_false",
    "Boost.Random.c51_default",
    "Boost.Random.c51_get",
    "Boost.Random.c51_get_mut",
    "Boost.Random.c51_assign",
    "Boost.Random.c51_flip",
    "Boost.Random.c51_resize",
    "Boost.Random.c51_normalize",
    "Boost.Random.c51_mul"
   ],
   "note": "Products (schoolbook, Karatsuba, any sizes), squares, class operations: proved. mod_pow_x: proved whenever the blocks of sparse_mod fit the array (always when the degree is in the lower half of its digit); otherwise a write past the end (c51_overrun_false). Exponent 1 with modulus of degree 1 is wrong (c51_linear_false); an empty right factor loops for ever (c51_empty_false)."
  },
  {
   "property": "C52",
   "status": "partial",
   "theorems": [
    "Boost.Random.c52_iters_partial",
    "Boost.Random.c52_list_partial",
    "Boost.Random.c52_ranges_partial",
    "Boost.Random.c52_func_partial",
    "Boost.Random.c52_set_param_partial",
    "Boost.Random.c52_get_param",
    "Boost.Random.c52_default_partial",
    "Boost.Random.c52_ranges_false"
   ],
   "note": "Proved for every constructor and param() with valid boundaries and weights, any rounding when drawing (construction in exact arithmetic). False for range constructors with fewer than two boundaries (c52_ranges_false)."
  },
  {
   "property": "C53",
   "status": "proved",
   "theorems": [
    "Boost.Random.c53_range",
    "Boost.Random.c53_uniform"
   ],
   "note": "All n>0 of the type, all engines; min=0 so the C38 defect does not apply."
  },
  {
   "property": "C54",
   "status": "proved",
   "theorems": [
    "Boost.Random.c54_not_stuck"
   ],
   "note": ""
  },
  {
   "property": "C55",
   "status": "partial",
   "theorems": [
    "Boost.Random.c55_index_partial",
    "Boost.Random.c55_index_full64",
    "Boost.Random.c55_index_false"
   ],
   "note": "False for bases filling the whole 64-bit type (witness and exact formula); proved for all other ranges and k <= 2^31."
  },
  {
   "property": "C56",
   "status": "proved",
   "theorems": [
    "Boost.Random.c56_shuffle_eq",
    "Boost.Random.c56_block_eq",
    "Boost.Random.c56_xor_eq",
    "Boost.Random.c56_additive_eq",
    "Boost.Random.c56_shuffle_text",
    "Boost.Random.c56_block_text",
    "Boost.Random.c56_xor_text",
    "Boost.Random.c56_additive_text",
    "Boost.Random.c56_shipped"
   ],
   "note": "Relative to the base engines; instances for kreutzer1986, knuth_b, ecuyer1988."
  },
  {
   "property": "C57",
   "status": "proved",
   "theorems": [
    "Boost.Random.c57_ecuyer1988_period"
   ],
   "note": "All states, all n."
  },
  {
   "property": "C58",
   "status": "proved",
   "theorems": [
    "Boost.Random.c58_full_period",
    "Boost.Random.c58_kreutzer"
   ],
   "note": "All parameters meeting LcgValid (C06)."
  },
  {
   "property": "C59",
   "status": "proved",
   "theorems": [
    "Boost.Random.c59_discard",
    "Boost.Random.c59_eq",
    "Boost.Random.c59_text",
    "Boost.Random.c59_taus88",
    "Boost.Random.c59_taus88_state"
   ],
   "note": "All parameters satisfying the static assertions."
  },
  {
   "property": "C61",
   "status": "proved",
   "theorems": [
    "Boost.Random.c61_matrix_injective",
    "Boost.Random.c61_never_zero"
   ],
   "note": "All sizes and multipliers."
  },
  {
   "property": "C62",
   "status": "proved",
   "theorems": [
    "Boost.Random.c62_table",
    "Boost.Random.c62_uniquestream",
    "Boost.Random.c62_seed",
    "Boost.Random.c62_seed_nonzero"
   ],
   "note": "Whole table checked in the kernel by repeated squaring modulo the annihilating polynomial of the unit vector; skip loop by induction."
  },
  {
   "property": "C63",
   "status": "proved",
   "theorems": [
    "Boost.Random.c63_recurrence",
    "Boost.Random.c63_typedefs",
    "Boost.Random.c63_text"
   ],
   "note": "Over exact rationals; floating point is exact for these operations when RealType has more than w digits (w = 48 < 53 for all typedefs), which is argued, not proved."
  },
  {
   "property": "C64",
   "status": "partial",
   "theorems": [
    "Boost.Random.c64_range_partial",
    "Boost.Random.c64_exact",
    "Boost.Random.c64_ecuyer_false"
   ],
   "note": "Any rounding for engines with minimum 0 that have 2^m values or need one value; exact arithmetic for all. False for ecuyer1988 with double: 1 + 2^-52 (c64_ecuyer_false)."
  },
  {
   "property": "C65",
   "status": "partial",
   "theorems": [
    "Boost.Random.c65_uniform01_partial",
    "Boost.Random.c65_uniform_real"
   ],
   "note": "uniform_real: proved for all engines; uniform_01: for engines whose differences fit the type (otherwise signed overflow, c50_signed_false)."
  },
  {
   "property": "C67",
   "status": "partial",
   "theorems": [
    "Boost.Random.c67_uniform_partial",
    "Boost.Random.c67_first_digit_false"
   ],
   "note": "Proved unless the first digit of the fraction is longer than the precision; then false (c67_first_digit_false)."
  },
  {
   "property": "C66",
   "status": "proved",
   "theorems": [
    "Boost.Random.c66_net",
    "Boost.Random.c66_niederreiter_base2",
    "Boost.Random.c66_ts",
    "Boost.Random.c66_dimension"
   ],
   "note": "For all tables of distinct irreducible polynomials; instantiated at the typedef niederreiter_base2 in every dimension. The polynomials are elements of (ZMod 2)[X]."
  },
  {
   "property": "C68",
   "status": "partial",
   "theorems": [
    "Boost.Random.c68_permutation_partial",
    "Boost.Random.c68_permutation_false"
   ],
   "note": "Proved for the coordinates whose polynomial's degree divides the word size; refuted for others: the fourth coordinate of niederreiter_base2 is always even."
  },
  {
   "property": "C69",
   "status": "proved",
   "theorems": [
    "Boost.Random.c69_table"
   ],
   "note": "Sieve over all 65536 numbers evaluated by the kernel, lifted to irreducibility in (ZMod 2)[X]."
  },
  {
   "property": "C70",
   "status": "proved",
   "theorems": [
    "Boost.Random.c70_table",
    "Boost.Random.c70_dimension",
    "Boost.Random.c70_sequence",
    "Boost.Random.c70_rounded",
    "Boost.Random.c70_signed_false"
   ],
   "note": "default table, SeqSizeT unsigned of at most 64 bits and not narrower than int; with a signed SeqSizeT integer_pow overflows (c70_signed_false)"
  },
  {
   "property": "C71",
   "status": "partial",
   "theorems": [
    "Boost.Random.c71_exact",
    "Boost.Random.c71_range_partial",
    "Boost.Random.c71_range_false"
   ],
   "note": "exact arithmetic: all values in [0,1); rounding to nearest: all values at least 0, first coordinates and dimensions 1, 2 at most 1, others at most (1-2^-p)^-129; false for double in dimension 4 (c71_range_false)"
  },
  {
   "property": "C72",
   "status": "proved",
   "theorems": [
    "Boost.Random.c72_net",
    "Boost.Random.c72_calls"
   ],
   "note": "exact arithmetic"
  },
  {
   "property": "C73",
   "status": "proved",
   "theorems": [
    "Boost.Random.c73_inversion",
    "Boost.Random.c73_probability",
    "Boost.Random.c73_init_false"
   ],
   "note": "inversion and probabilities proved in exact arithmetic; the constructor overflows for the largest t (c73_init_false), which the theorems exclude"
  },
  {
   "property": "C74",
   "status": "partial",
   "theorems": [
    "Boost.Random.c74_range_partial",
    "Boost.Random.c74_range_false"
   ],
   "note": "results from -1 to t+1 and no undefined behaviour for every rounding to nearest; the range 0 to t is false (c74_range_false: t = 3, p = 27/64 gives 4)"
  },
  {
   "property": "C75",
   "status": "partial",
   "theorems": [
    "Boost.Random.c75_range_partial",
    "Boost.Random.c75_ub_false"
   ],
   "note": "range and first stage proved in exact arithmetic; absence of undefined behaviour is false for the second stage (c75_ub_false)"
  },
  {
   "property": "C76",
   "status": "partial",
   "theorems": [
    "Boost.Random.c76_near",
    "Boost.Random.c76_far_partial",
    "Boost.Random.c76_far_false"
   ],
   "note": "ratio test exact near the mode and within 1.3e-10 far from it for log v in the squeeze interval; the quick acceptance is wrong far below the mode (c76_far_false)"
  },
  {
   "property": "C77",
   "status": "partial",
   "theorems": [
    "Boost.Random.c77_inversion",
    "Boost.Random.c77_probability",
    "Boost.Random.c77_double_false",
    "Boost.Random.c77_float_false"
   ],
   "note": "quantile and probabilities proved in exact arithmetic; with rounding the loop may not end (c77_double_false, c77_float_false)"
  },
  {
   "property": "C78",
   "status": "partial",
   "theorems": [
    "Boost.Random.c78_range_partial",
    "Boost.Random.c78_accept",
    "Boost.Random.c78_negative",
    "Boost.Random.c78_ub_false"
   ],
   "note": "range, first stage and acceptance test proved in exact arithmetic; the conversion of the result can be out of range (c78_ub_false)"
  },
  {
   "property": "C79",
   "status": "partial",
   "theorems": [
    "Boost.Random.c79_inversion_partial",
    "Boost.Random.c79_probability",
    "Boost.Random.c79_deprecated",
    "Boost.Random.c79_range_false",
    "Boost.Random.c79_rounded_false"
   ],
   "note": "quantile and probabilities proved in exact arithmetic, including exactly when the conversion is out of range; it can be (c79_range_false, c79_rounded_false)"
  },
  {
   "property": "C80",
   "status": "proved",
   "theorems": [
    "Boost.Random.c80_exponential_tables",
    "Boost.Random.c80_normal_tables"
   ],
   "note": "All entries, against the real functions; tail area by a power series and bounds on pi."
  },
  {
   "property": "C81",
   "status": "proved",
   "theorems": [
    "Boost.Random.c81_exponential_accept",
    "Boost.Random.c81_normal_accept"
   ],
   "note": "Exact arithmetic."
  },
  {
   "property": "C82",
   "status": "proved",
   "theorems": [
    "Boost.Random.c82_exponential_law"
   ],
   "note": "Exact arithmetic; uniform numbers are independent and uniform on [0,1), the layer uniform below 256."
  },
  {
   "property": "C83",
   "status": "proved",
   "theorems": [
    "Boost.Random.c83_normal_law"
   ],
   "note": "Exact arithmetic; as C82. The exponential numbers of the tail are ideal ones (their generation is C82)."
  },
  {
   "property": "C84",
   "status": "proved",
   "theorems": [
    "Boost.Random.c84_tail_law"
   ],
   "note": "Exact arithmetic, ideal exponential numbers."
  },
  {
   "property": "C85",
   "status": "partial",
   "theorems": [
    "Boost.Random.c85_exponential_partial",
    "Boost.Random.c85_normal_partial"
   ],
   "note": "False for engines whose bits exactly fill the fraction (C49) or whose differences overflow (C50); proved otherwise."
  },
  {
   "property": "C86",
   "status": "proved",
   "theorems": [
    "Boost.Random.c86_cauchy_law",
    "Boost.Random.c86_cauchy_angle"
   ],
   "note": "Law against cauchyMeasure of Mathlib."
  },
  {
   "property": "C87",
   "status": "proved",
   "theorems": [
    "Boost.Random.c87_weibull_law",
    "Boost.Random.c87_weibull_range"
   ],
   "note": "Exact arithmetic for the law; any rounding for the range."
  },
  {
   "property": "C88",
   "status": "proved",
   "theorems": [
    "Boost.Random.c88_extreme_value_range",
    "Boost.Random.c88_extreme_value_infinite",
    "Boost.Random.c88_extreme_value_law"
   ],
   "note": "As C87."
  },
  {
   "property": "C89",
   "status": "proved",
   "theorems": [
    "Boost.Random.c89_triangle_law"
   ],
   "note": "Exact arithmetic."
  },
  {
   "property": "C90",
   "status": "partial",
   "theorems": [
    "Boost.Random.c90_triangle_finite",
    "Boost.Random.c90_triangle_partial",
    "Boost.Random.c90_triangle_false"
   ],
   "note": "Values are always numbers; the range is kept up to 2^-50 of its length. Exact bounds are false: triangle_distribution(-1.9,-1.9,0.2) returns a value below -1.9."
  },
  {
   "property": "C91",
   "status": "proved",
   "theorems": [
    "Boost.Random.c91_laplace_law"
   ],
   "note": "Exact arithmetic, ideal exponential numbers (C82)."
  },
  {
   "property": "C92",
   "status": "proved",
   "theorems": [
    "Boost.Random.c92_lognormal_law",
    "Boost.Random.c92_lognormal_old"
   ],
   "note": "Exact arithmetic, ideal normal numbers (C83)."
  },
  {
   "property": "C93",
   "status": "proved",
   "theorems": [
    "Boost.Random.c93_gamma_law",
    "Boost.Random.c93_gamma_small"
   ],
   "note": "Exact arithmetic; law against gammaMeasure of Mathlib."
  },
  {
   "property": "C94",
   "status": "partial",
   "theorems": [
    "Boost.Random.c94_gamma_domain",
    "Boost.Random.c94_gamma_range_partial"
   ],
   "note": "The domain is proved for every source of numbers; the range for the engines of C85, because uniform_01 and generate_int_float_pair are broken for others (C49, C50)."
  },
  {
   "property": "C95",
   "status": "proved",
   "theorems": [
    "Boost.Random.c95_chi_squared_law",
    "Boost.Random.c95_non_central_law",
    "Boost.Random.c95_spec_square"
   ],
   "note": "Exact arithmetic, ideal gamma (C93), normal (C83) and Poisson (C76) numbers."
  },
  {
   "property": "C96",
   "status": "proved",
   "theorems": [
    "Boost.Random.c96_beta_law"
   ],
   "note": "Exact arithmetic, ideal gamma numbers."
  },
  {
   "property": "C97",
   "status": "proved",
   "theorems": [
    "Boost.Random.c97_fisher_law"
   ],
   "note": "Exact arithmetic, ideal gamma numbers; both orders."
  },
  {
   "property": "C98",
   "status": "proved",
   "theorems": [
    "Boost.Random.c98_student_law"
   ],
   "note": "Exact arithmetic, ideal gamma and normal numbers; both orders."
  },
  {
   "property": "C99",
   "status": "proved",
   "theorems": [
    "Boost.Random.c99_negative_binomial_law"
   ],
   "note": "Exact arithmetic, ideal gamma and Poisson numbers."
  },
  {
   "property": "C100",
   "status": "partial",
   "theorems": [
    "Boost.Random.c100_values_partial",
    "Boost.Random.c100_nan_false"
   ],
   "note": "The range is kept or the value is infinite or NaN. False in general: gamma numbers with shapes up to 1/256 underflow to zero and 0/0 is NaN."
  },
  {
   "property": "C101",
   "status": "partial",
   "theorems": [
    "Boost.Random.c101_order_false",
    "Boost.Random.c101_order_partial"
   ],
   "note": "False: the order of two calls in one expression is unspecified and the values differ (2 and 1/2). Both orders have the same law."
  },
  {
   "property": "C102",
   "status": "partial",
   "theorems": [
    "Boost.Random.c102_parameters_false",
    "Boost.Random.c102_mean_false",
    "Boost.Random.c102_value_partial"
   ],
   "note": "False at k = 0, p = 0, p = 1, and when the gamma number is zero; otherwise the value is that of poisson_distribution."
  },
  {
   "property": "C103",
   "status": "proved",
   "theorems": [
    "Boost.Random.c103_same",
    "Boost.Random.c103_law"
   ],
   "note": "Exact arithmetic; c103_same ties the sampled function to the model of C52."
  },
  {
   "property": "C104",
   "status": "proved",
   "theorems": [
    "Boost.Random.c104_law",
    "Boost.Random.c104_function",
    "Boost.Random.c104_short",
    "Boost.Random.c104_densities",
    "Boost.Random.c104_param"
   ],
   "note": "Exact arithmetic; the boundaries of the function constructor as well."
  },
  {
   "property": "C105",
   "status": "partial",
   "theorems": [
    "Boost.Random.c105_range_partial",
    "Boost.Random.c105_function_partial"
   ],
   "note": "Differences of engine values must fit their type, because uniform_01 is broken otherwise (C50)."
  },
  {
   "property": "C106",
   "status": "proved",
   "theorems": [
    "Boost.Random.Hyperexponential.c106_law",
    "Boost.Random.Hyperexponential.c106_rates",
    "Boost.Random.Hyperexponential.c106_param"
   ],
   "note": "Exact arithmetic, ideal exponential numbers (C82)."
  },
  {
   "property": "C107",
   "status": "partial",
   "theorems": [
    "Boost.Random.Hyperexponential.c107_range_partial",
    "Boost.Random.Hyperexponential.c107_assert"
   ],
   "note": "The range for the engines of C85 (C49, C50 are false of others); the alias table in exact arithmetic."
  },
  {
   "property": "C108",
   "status": "partial",
   "theorems": [
    "Boost.Random.Hyperexponential.c108_exact",
    "Boost.Random.Hyperexponential.c108_sum",
    "Boost.Random.Hyperexponential.c108_assert_false",
    "Boost.Random.Hyperexponential.c108_assert_partial",
    "Boost.Random.Hyperexponential.c108_rates_false",
    "Boost.Random.Hyperexponential.c108_rates_partial"
   ],
   "note": "Sum one and idempotence are proved for rounding to nearest even. False: the last probability can be -2^-52 and the assertion fails; the iterator constructor from rates does not normalize."
  },
  {
   "property": "C109",
   "status": "proved",
   "theorems": [
    "Boost.Random.c109_law",
    "Boost.Random.c109_spec"
   ],
   "note": "Exact arithmetic; c109_spec shows that the specified probability is that of the sphere and invariant under rotations."
  },
  {
   "property": "C110",
   "status": "proved",
   "theorems": [
    "Boost.Random.c110_norm"
   ],
   "note": "Exact arithmetic, any source."
  },
  {
   "property": "C111",
   "status": "proved",
   "theorems": [
    "Boost.Random.c111_norm"
   ],
   "note": "Rounding to nearest with 53 bits without bounds on the exponent; square root with relative error at most 2^-53."
  },
  {
   "property": "C112",
   "status": "partial",
   "theorems": [
    "Boost.Random.c112_order_partial",
    "Boost.Random.c112_coordinates_partial",
    "Boost.Random.c112_min_false",
    "Boost.Random.c112_max_false"
   ],
   "note": "True in exact arithmetic, and for the coordinates except in dimension 3. False in floating-point arithmetic: (-1, -2^-31) is below min(), and in dimension 3 a coordinate can be 1 + 2^-52."
  },
  {
   "property": "C113",
   "status": "partial",
   "theorems": [
    "Boost.Random.c113_object_partial",
    "Boost.Random.c113_negative_false"
   ],
   "note": "False of a negative number read by operator>> or given to param(parm): the dimension is stored before the exception."
  },
  {
   "property": "C114",
   "status": "proved",
   "theorems": [
    "Boost.Random.c114_safe",
    "Boost.Random.c114_domain"
   ],
   "note": "For the engines of C85."
  },
  {
   "property": "C115",
   "status": "partial",
   "theorems": [
    "Boost.Random.FloatEngine.c115_convert",
    "Boost.Random.FloatEngine.c115_same",
    "Boost.Random.FloatEngine.c115_range_partial",
    "Boost.Random.FloatEngine.c115_uniform_partial",
    "Boost.Random.FloatEngine.c115_range_false"
   ],
   "note": "Inherits the defect of C38: the minimum is forgotten when the size of the range is a power >= 2 of 2^w; for 48-bit engines and types of up to 64 bits this does not happen."
  },
  {
   "property": "C116",
   "status": "proved",
   "theorems": [
    "Boost.Random.FloatEngine.c116_range",
    "Boost.Random.FloatEngine.c116_upward_false"
   ],
   "note": "Rounding to nearest; under upward rounding the conversion can be undefined (c116_upward_false)."
  },
  {
   "property": "C117",
   "status": "proved",
   "theorems": [
    "Boost.Random.FloatEngine.c117_count",
    "Boost.Random.FloatEngine.c117_quantization"
   ],
   "note": "Word size plus bits of the range at most the precision."
  },
  {
   "property": "C118",
   "status": "proved",
   "theorems": [
    "Boost.Random.FloatEngine.c118_uniform01",
    "Boost.Random.FloatEngine.c118_law",
    "Boost.Random.FloatEngine.c118_uniform_real"
   ],
   "note": ""
  },
  {
   "property": "C119",
   "status": "partial",
   "theorems": [
    "Boost.Random.FloatEngine.c119_range_partial",
    "Boost.Random.FloatEngine.c119_digits_partial",
    "Boost.Random.FloatEngine.c119_law_false",
    "Boost.Random.FloatEngine.c119_bits_false"
   ],
   "note": "The range holds. False otherwise: the first engine value is used as a fraction and not as an integer, so that with enough bits in one engine value the result is at most 2^-w, and with two engine values the first is lost by rounding."
  },
  {
   "property": "C120",
   "status": "proved",
   "theorems": [
    "Boost.Random.FloatEngine.c120_count",
    "Boost.Random.FloatEngine.c120_ends"
   ],
   "note": "Precision not less than the word size of the engine."
  },
  {
   "property": "C121",
   "status": "proved",
   "theorems": [
    "Boost.Random.FloatEngine.c121_bounds",
    "Boost.Random.FloatEngine.c121_law"
   ],
   "note": "The law for a precision not less than the word size of the engine."
  },
  {
   "property": "C122",
   "status": "proved",
   "theorems": [
    "Boost.Random.c122_recurrence",
    "Boost.Random.c122_range",
    "Boost.Random.c122_seed",
    "Boost.Random.c122_not_stuck"
   ],
   "note": ""
  },
  {
   "property": "C123",
   "status": "partial",
   "theorems": [
    "Boost.Random.c123_discard_partial",
    "Boost.Random.c123_discard_iff",
    "Boost.Random.c123_discard_false"
   ],
   "note": "False at position 0 with 0 < z < r, where nothing is updated (c123_discard_false); proved elsewhere, with the exact condition (c123_discard_iff)."
  },
  {
   "property": "C124",
   "status": "partial",
   "theorems": [
    "Boost.Random.c124_equal_futures_partial",
    "Boost.Random.c124_equal_iff",
    "Boost.Random.c124_equal_futures_false"
   ],
   "note": "False: operator== ignores the borrow (c124_equal_futures_false); proved for equal borrows."
  },
  {
   "property": "C125",
   "status": "proved",
   "theorems": [
    "Boost.Random.c125_round_trip"
   ],
   "note": ""
  },
  {
   "property": "C126",
   "status": "partial",
   "theorems": [
    "Boost.Random.c126_values",
    "Boost.Random.c126_values_real",
    "Boost.Random.c126_text",
    "Boost.Random.c126_text_real",
    "Boost.Random.c126_discard",
    "Boost.Random.c126_equal_false"
   ],
   "note": "Values, text and discard proved for all ten engines; comparison is false as for the bases (c126_equal_false)."
  },
  {
   "property": "C127",
   "status": "proved",
   "theorems": [
    "Boost.Random.c127_period",
    "Boost.Random.c127_ranlux_base",
    "Boost.Random.c127_ranlux",
    "Boost.Random.c127_ranlux_real",
    "Boost.Random.c127_seeded",
    "Boost.Random.c127_ranlux64_false"
   ],
   "note": "For ranlux64_base the modulus is composite and short periods exist (c127_ranlux64_false)."
  },
  {
   "property": "C128",
   "status": "partial",
   "theorems": [
    "Boost.Random.c128_uniform",
    "Boost.Random.c128_law_partial",
    "Boost.Random.c128_coin"
   ],
   "note": "For j up to 15 from the mode and under the condition that the part of the region of j lies between the two rectangles (proved for 36 throws of a coin, c128_coin); further away the law is false (C76). Uniformity of the candidates without conditions."
  },
  {
   "property": "C129",
   "status": "proved",
   "theorems": [
    "Boost.Random.c129_law",
    "Boost.Random.c129_proportion"
   ],
   "note": "One round, in exact arithmetic, for all means from 10 on and all numbers that fit in IntType; the factor is the error of the asymptotic series in the acceptance test."
  },
  {
   "property": "C130",
   "status": "partial",
   "theorems": [
    "Boost.Random.c130_number",
    "Boost.Random.c130_members_partial",
    "Boost.Random.c130_integers",
    "Boost.Random.c130_computed_partial",
    "Boost.Random.c130_double_partial",
    "Boost.Random.c130_deprecated_partial",
    "Boost.Random.c130_members",
    "Boost.Random.c130_default_precision_false",
    "Boost.Random.c130_long_double_false"
   ],
   "note": "With max_digits10 digits: all 24. False with the default precision of a stream (c130_default_precision_false), and for the geometric distribution of long double, which is read as a double (c130_long_double_false)."
  },
  {
   "property": "C131",
   "status": "partial",
   "theorems": [
    "Boost.Random.c131_unchanged_partial",
    "Boost.Random.c131_members_false",
    "Boost.Random.c131_idle"
   ],
   "note": "For the 21 distributions that read a param_type first; false for the seven that read into their members (c131_members_false). Failed streams: all 28."
  },
  {
   "property": "C132",
   "status": "partial",
   "theorems": [
    "Boost.Random.c132_valid_partial",
    "Boost.Random.c132_false"
   ],
   "note": "geometric, triangle, uniform_int, uniform_real (up to min = max). False for the others (c132_false)."
  },
  {
   "property": "C133",
   "status": "partial",
   "theorems": [
    "Boost.Random.c133_vectors",
    "Boost.Random.c133_text",
    "Boost.Random.c133_unreadable_false",
    "Boost.Random.c133_linear",
    "Boost.Random.c133_law_partial",
    "Boost.Random.c133_history_false",
    "Boost.Random.c133_mismatch_false"
   ],
   "note": "Vectors with max_digits10 digits; the exact set of accepted texts; piecewise_linear with rounding; the laws of discrete, piecewise_constant and hyperexponential in exact arithmetic. False: c133_unreadable_false, c133_history_false, c133_mismatch_false."
  },
  {
   "property": "C134",
   "status": "partial",
   "theorems": [
    "Boost.Random.c134_compare",
    "Boost.Random.c134_linear",
    "Boost.Random.c134_total_partial",
    "Boost.Random.c134_total_false"
   ],
   "note": "Comparison of all. Reading without undefined behaviour: all without vectors except binomial (c134_total_false) and the deprecated geometric (c132_false)."
  },
  {
   "property": "C135",
   "status": "proved",
   "theorems": [
    "Boost.Random.c135_period",
    "Boost.Random.c135_degenerate",
    "Boost.Random.c135_seed_words",
    "Boost.Random.c135_seed_value",
    "Boost.Random.c135_values",
    "Boost.Random.c135_eq"
   ],
   "note": ""
  },
  {
   "property": "C136",
   "status": "proved",
   "theorems": [
    "Boost.Random.c136_equidistributed",
    "Boost.Random.c136_one_cycle"
   ],
   "note": ""
  },
  {
   "property": "C137",
   "status": "proved",
   "theorems": [
    "Boost.Random.c137_seed_seq",
    "Boost.Random.c137_lcg",
    "Boost.Random.c137_icg_range",
    "Boost.Random.c137_icg",
    "Boost.Random.c137_lfsr_range",
    "Boost.Random.c137_lfsr",
    "Boost.Random.c137_combine_range",
    "Boost.Random.c137_combine",
    "Boost.Random.c137_mt",
    "Boost.Random.c137_lagged",
    "Boost.Random.c137_swc",
    "Boost.Random.c137_swc_value",
    "Boost.Random.c137_mixmax",
    "Boost.Random.c137_mixmax_range"
   ],
   "note": ""
  },
  {
   "property": "C60",
   "status": "proved",
   "theorems": [
    "Boost.Random.c60_lfsr",
    "Boost.Random.c60_components",
    "Boost.Random.c60_taus88",
    "Boost.Random.c60_seed",
    "Boost.Random.c60_seed_seq",
    "Boost.Random.c60_seed_range",
    "Boost.Random.c60_eq"
   ],
   "note": ""
  },
  {
   "property": "C138",
   "status": "proved",
   "theorems": [
    "Boost.Random.c138_cycle",
    "Boost.Random.c138_counts"
   ],
   "note": ""
  },
  {
   "property": "C139",
   "status": "proved",
   "theorems": [
    "Boost.Random.c139_lags",
    "Boost.Random.c139_period",
    "Boost.Random.c139_period01",
    "Boost.Random.c139_typedefs",
    "Boost.Random.c139_bound",
    "Boost.Random.c139_documented_false",
    "Boost.Random.c139_seed_range",
    "Boost.Random.c139_zeros_false",
    "Boost.Random.c139_default"
   ],
   "note": ""
  },
  {
   "property": "C140",
   "status": "proved",
   "theorems": [
    "Boost.Random.c140_tables",
    "Boost.Random.c140_seeds",
    "Boost.Random.c140_distinct",
    "Boost.Random.c140_others"
   ],
   "note": ""
  },
  {
   "property": "C141",
   "status": "proved",
   "theorems": [
    "Boost.Random.c141_full_period",
    "Boost.Random.c141_period",
    "Boost.Random.c141_hellekalek",
    "Boost.Random.c141_hellekalek_period"
   ],
   "note": ""
  },
  {
   "property": "C142",
   "status": "proved",
   "theorems": [
    "Boost.Random.c142_hull_dobell",
    "Boost.Random.c142_minstd",
    "Boost.Random.c142_rand48",
    "Boost.Random.c142_rand48_documented_false",
    "Boost.Random.c142_additive",
    "Boost.Random.c142_ecuyer1988"
   ],
   "note": ""
  },
  {
   "property": "C143",
   "status": "proved",
   "theorems": [
    "Boost.Random.c143_net",
    "Boost.Random.c143_sobol",
    "Boost.Random.c143_ts",
    "Boost.Random.c143_two"
   ],
   "note": ""
  },
  {
   "property": "C144",
   "status": "proved",
   "theorems": [
    "Boost.Random.c144_cycle",
    "Boost.Random.c144_knuth_b",
    "Boost.Random.c144_kreutzer1986",
    "Boost.Random.c144_knuth_b_documented_false"
   ],
   "note": ""
  },
  {
   "property": "C145",
   "status": "proved",
   "theorems": [
    "Boost.Random.RandomDevice.c145_next",
    "Boost.Random.RandomDevice.c145_success",
    "Boost.Random.RandomDevice.c145_uniform",
    "Boost.Random.RandomDevice.c145_generate",
    "Boost.Random.RandomDevice.c145_documented_false"
   ],
   "note": ""
  },
  {
   "property": "C146",
   "status": "proved",
   "theorems": [
    "Boost.Random.RandomDevice.c146_descriptors",
    "Boost.Random.RandomDevice.c146_safe",
    "Boost.Random.RandomDevice.c146_isolated",
    "Boost.Random.RandomDevice.c146_create",
    "Boost.Random.RandomDevice.c146_destructor_false"
   ],
   "note": ""
  },
  {
   "property": "C147",
   "status": "proved",
   "theorems": [
    "Boost.Random.c147_law",
    "Boost.Random.c147_ends",
    "Boost.Random.c147_undefined"
   ],
   "note": "Exact arithmetic; uniform_01 independent and uniform (C65)."
  },
  {
   "property": "C148",
   "status": "proved",
   "theorems": [
    "Boost.Random.c148_value",
    "Boost.Random.c148_made",
    "Boost.Random.c148_copied",
    "Boost.Random.c148_shared",
    "Boost.Random.c148_bound",
    "Boost.Random.c148_defined",
    "Boost.Random.c148_dangling"
   ],
   "note": "Distributions and engines are arbitrary functions of their states."
  },
  {
   "property": "C149",
   "status": "partial",
   "theorems": [
    "Boost.Random.c149_old",
    "Boost.Random.c149_exact",
    "Boost.Random.c149_same_partial",
    "Boost.Random.c149_narrow_false"
   ],
   "note": "c149_same_partial needs that the differences of engine values fit the result type; c149_narrow_false shows that it fails otherwise (new form wrong, old form right, c149_old and c149_exact)."
  },
  {
   "property": "C150",
   "status": "partial",
   "theorems": [
    "Boost.Random.c150_const_mod_partial",
    "Boost.Random.c150_sixteen",
    "Boost.Random.c150_calls",
    "Boost.Random.c150_small_partial",
    "Boost.Random.c150_full_period_false",
    "Boost.Random.c150_discard_false"
   ],
   "note": "c150_const_mod_partial excludes the modulus 2^16; for that c150_sixteen and c150_calls give the exact condition and c150_full_period_false, c150_discard_false show the failure."
  },
  {
   "property": "C151",
   "status": "partial",
   "theorems": [
    "Boost.Random.c151_types_partial",
    "Boost.Random.c151_types_false",
    "Boost.Random.c151_smallint",
    "Boost.Random.c151_rng"
   ],
   "note": "c151_types_partial excludes the ranges of C38's counterexample (c151_types_false); c151_smallint and c151_rng are complete."
  },
  {
   "property": "C152",
   "status": "partial",
   "theorems": [
    "Boost.Random.c152_mean",
    "Boost.Random.c152_small",
    "Boost.Random.c152_ends",
    "Boost.Random.c152_rng",
    "Boost.Random.c152_bits_partial"
   ],
   "note": "complete for uniform_int_distribution and random_number_generator; c152_bits_partial leaves out base engines of three values, where independent_bits_engine is undefined (c28_three_values_false)."
  },
  {
   "property": "C153",
   "status": "partial",
   "theorems": [
    "Boost.Random.c153_law_partial",
    "Boost.Random.c153_law_exact_power",
    "Boost.Random.c153_law_false",
    "Boost.Random.c153_rng",
    "Boost.Random.c153_bits_partial"
   ],
   "note": "c153_law_partial has the exact guard of C38 (c153_law_exact_power is the remaining case, c153_law_false the counterexample); c153_bits_partial leaves out base engines of three values, where the engine is undefined; c153_rng is complete."
  },
  {
   "property": "C154",
   "status": "proved",
   "theorems": [
    "Boost.Random.c154_time",
    "Boost.Random.c154_twice",
    "Boost.Random.c154_law"
   ],
   "note": ""
  },
  {
   "property": "C155",
   "status": "proved",
   "theorems": [
    "Boost.Random.c155_mean",
    "Boost.Random.c155_law",
    "Boost.Random.c155_uniform_int",
    "Boost.Random.c155_discrete",
    "Boost.Random.c155_used",
    "Boost.Random.c155_single",
    "Boost.Random.c155_lcg",
    "Boost.Random.c155_hellekalek"
   ],
   "note": ""
  },
  {
   "property": "C156",
   "status": "partial",
   "theorems": [
    "Boost.Random.c156_cpp17_false",
    "Boost.Random.c156_next",
    "Boost.Random.c156_seed_words",
    "Boost.Random.c156_seed_partial",
    "Boost.Random.c156_seed_guard",
    "Boost.Random.c156_seed_false"
   ],
   "note": "Proved under the rules of C++20 and, for seeding with a value, for f*(2^w-1) < 2^31; both guards are exact (c156_cpp17_false, c156_seed_false)."
  },
  {
   "property": "C157",
   "status": "partial",
   "theorems": [
    "Boost.Random.Ctor.c157_resolve_partial",
    "Boost.Random.Ctor.c157_temporary",
    "Boost.Random.Ctor.c157_derived_false",
    "Boost.Random.Ctor.c157_base_partial",
    "Boost.Random.Ctor.c157_base_lvalue",
    "Boost.Random.Ctor.c157_base_reseeded",
    "Boost.Random.Ctor.c157_base_false",
    "Boost.Random.Ctor.c157_shuffle_output",
    "Boost.Random.Ctor.c157_shuffle_output_copy_partial",
    "Boost.Random.Ctor.c157_shuffle_output_copy_false",
    "Boost.Random.Ctor.c157_pair_partial",
    "Boost.Random.Ctor.c157_pair_false"
   ],
   "note": "Proved for all arguments except lvalues of derived classes and lvalues of the base engine that are not const, for shuffle_output except copies of its variables, and for two arguments under the exact guard; outside the guards the negations are proved (c157_derived_false, c157_base_lvalue, c157_base_reseeded, c157_base_false, c157_shuffle_output_copy_false, c157_pair_false)."
  },
  {
   "property": "C158",
   "status": "partial",
   "theorems": [
    "Boost.Random.Haertel.c158_acorn_partial",
    "Boost.Random.Haertel.c158_acorn_period_ge",
    "Boost.Random.Haertel.c158_acorn_period",
    "Boost.Random.Haertel.c158_acorn7",
    "Boost.Random.Haertel.c158_acorn_overflow_false",
    "Boost.Random.Haertel.c158_acorn_seed_false",
    "Boost.Random.Haertel.c158_fib_partial",
    "Boost.Random.Haertel.c158_fib_size_false",
    "Boost.Random.Haertel.c158_fib_seed_false"
   ],
   "note": "Proved where sums of residues fit in the type, for residues as seeds and for r = 607; outside these guards c158_acorn_overflow_false, c158_acorn_seed_false, c158_fib_size_false, c158_fib_seed_false."
  },
  {
   "property": "C159",
   "status": "partial",
   "theorems": [
    "Boost.Random.c159_returns",
    "Boost.Random.c159_fixed",
    "Boost.Random.c159_period_partial",
    "Boost.Random.c159_determined",
    "Boost.Random.c159_seeds",
    "Boost.Random.c159_streams_partial",
    "Boost.Random.c159_streams"
   ],
   "note": "The period divides 16 (p^17-1)/(p-1) and is a multiple of the two known prime factors; that it is not shorter than published needs the factorization of the remaining 908-bit composite factor. Distinctness is complete for 64-bit seeds."
  },
  {
   "property": "C160",
   "status": "proved",
   "theorems": [
    "Boost.Random.c160_equidistributed",
    "Boost.Random.c160_sharp"
   ],
   "note": "For every N and multiplier; the bound N on the dimension is sharp."
  },
  {
   "property": "C161",
   "status": "partial",
   "theorems": [
    "Boost.Random.c161_uniform_int_partial",
    "Boost.Random.c161_mean",
    "Boost.Random.c161_discrete"
   ],
   "note": "Guarded as C38, whose early return forgets the lower bound; complete for discrete_distribution."
  },
  {
   "property": "C162",
   "status": "proved",
   "theorems": [
    "Boost.Random.c162_law_partial",
    "Boost.Random.c162_below",
    "Boost.Random.c162_below_law",
    "Boost.Random.c162_shuffle",
    "Boost.Random.c162_permutation",
    "Boost.Random.c162_shuffle_mean",
    "Boost.Random.c162_same",
    "Boost.Random.c162_password"
   ],
   "note": "All engines, types, lengths and vectors."
  },
  {
   "property": "C163",
   "status": "proved",
   "theorems": [
    "Boost.Random.c163_law",
    "Boost.Random.c163_patch",
    "Boost.Random.c163_sphere",
    "Boost.Random.c163_net",
    "Boost.Random.c163_shift"
   ],
   "note": "The formula and the shares in exact arithmetic; c163_shift shows where rounding breaks the pairs."
  },
  {
   "property": "C164",
   "status": "proved",
   "theorems": [
    "Boost.Random.c164_sobol",
    "Boost.Random.c164_niederreiter",
    "Boost.Random.c164_faure",
    "Boost.Random.c164_growth",
    "Boost.Random.c164_two",
    "Boost.Random.c164_hit"
   ],
   "note": "Coordinates as exact fractions: sobol and niederreiter_base2 with 64 bits and their default tables, faure in exact arithmetic."
  },
  {
   "property": "C165",
   "status": "proved",
   "theorems": [
    "Boost.Random.c165_sobol",
    "Boost.Random.c165_niederreiter",
    "Boost.Random.c165_faure"
   ],
   "note": "Coordinates as exact fractions: sobol and niederreiter_base2 with 64 bits and their default tables, the point zero counted as the first; faure in exact arithmetic."
  },
  {
   "property": "C166",
   "status": "proved",
   "theorems": [
    "Boost.Random.c166_share",
    "Boost.Random.c166_zero",
    "Boost.Random.c166_die"
   ],
   "note": "Exponents are unbounded (no overflow or underflow of weights). Probabilities over the column and the test value, the two values operator() draws."
  },
  {
   "property": "C167",
   "status": "partial",
   "theorems": [
    "Boost.Random.c167_law",
    "Boost.Random.c167_midpoints",
    "Boost.Random.c167_grid",
    "Boost.Random.RealDist.c167_iters_partial",
    "Boost.Random.RealDist.c167_list_partial",
    "Boost.Random.RealDist.c167_ranges_partial",
    "Boost.Random.RealDist.c167_set_param_partial",
    "Boost.Random.RealDist.c167_func_partial",
    "Boost.Random.RealDist.c167_func_false"
   ],
   "note": "Differences of engine values must fit their type (C50). False of the function constructor where the rounded boundaries do not increase: a draw never ends (c167_func_false)."
  },
  {
   "property": "C168",
   "status": "partial",
   "theorems": [
    "Boost.Random.Hyperexponential.c168_assert",
    "Boost.Random.Hyperexponential.c168_law",
    "Boost.Random.Hyperexponential.c168_rates",
    "Boost.Random.Hyperexponential.c168_range_partial",
    "Boost.Random.Hyperexponential.c168_distribution"
   ],
   "note": "The assertion and the law are proved in full; the range on engines has the guard on engine widths of C85."
  },
  {
   "property": "C169",
   "status": "partial",
   "theorems": [
    "Boost.Random.c169_law",
    "Boost.Random.c169_function",
    "Boost.Random.c169_range_partial",
    "Boost.Random.c169_grid_partial"
   ],
   "note": "For the range the differences of engine values must fit their type (C50). For the law of the function constructor the rounded boundaries are assumed to increase; for its range they are not (c169_grid_partial)."
  }
 ]
}