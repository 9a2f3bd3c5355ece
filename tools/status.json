{
 "C01": [
  "proved",
  "Exact floor(log2 t) for all t>0 and all power-of-two widths; t=0 documented."
 ],
 "C02": [
  "partial",
  "add and apply for every modulus; mult, mult_add, pow for all moduli satisfying WideOK (<=2^32, powers of two, or digit condition). False for other 64-bit moduli (c02_mult_false)."
 ],
 "C03": [
  "partial",
  "Exact if and only if no division step overflows (c03_muldiv_exact_iff); false for e.g. m=2^64-59; divisor 0 behaves as 2^64."
 ],
 "C04": [
  "proved",
  "All type widths 32..64, all moduli including m=0."
 ],
 "C05": [
  "proved",
  "All widths, all values."
 ],
 "C06": [
  "partial",
  "Recurrence for all moduli with WideOK; range when c != 0 or gcd(a,m)=1. Both side conditions shown necessary by counterexamples."
 ],
 "C07": [
  "partial",
  "Exact under DiscardOK (holds for every prime modulus and every power of two with a>1); false for other parameters (witnesses)."
 ],
 "C08": [
  "proved",
  "All seeds of the type, all moduli (m=0 with unsigned types)."
 ],
 "C09": [
  "proved",
  "Negative text read into an unsigned type wraps as in the standard library."
 ],
 "C10": [
  "proved",
  "All starting states, whole period, exactly-once visits."
 ],
 "C11": [
  "proved",
  "All seeds, all states, all z."
 ],
 "C12": [
  "partial",
  "All primes with WideOK; range needs a != 0 (c12_range_false)."
 ],
 "C38": [
  "partial",
  "No undefined behaviour for all inputs; in range iff not (range size is a power >=2 of the engine size, min != 0, not the whole type) (c38_range_iff). False otherwise: line 123 forgets min_value."
 ],
 "C39": [
  "partial",
  "Exactly uniform for every tuple length and every value attained, under the exact guard of C38; outside the guard uniform over the wrong set."
 ],
 "C40": [
  "proved",
  "Integral engines. Value, range and the documented square-sum (as an equality in the rationals)."
 ],
 "C53": [
  "proved",
  "All n>0 of the type, all engines; min=0 so the C38 defect does not apply."
 ],
 "C15": [
  "proved",
  "for all word sizes below the width of the type, lags, tables and numbers of calls"
 ],
 "C16": [
  "partial",
  "false at buffer position 0 with 0 < z < r (c16_discard_false, c16_discard_skips); proved in all other cases, exact condition c16_discard_iff"
 ],
 "C17": [
  "partial",
  "false: operator== ignores the borrow (c17_equal_futures_false, with engines reachable by seeding); proved when borrows agree, for freshly seeded engines, and for running engines whose last value differs from the one s before"
 ],
 "C18": [
  "proved",
  ""
 ],
 "C54": [
  "proved",
  ""
 ],
 "C30": [
  "proved",
  "All base engines of at most 64 bits, all k < 2^64, all numbers of calls."
 ],
 "C31": [
  "proved",
  "All p >= r > 0, p < 2^64, all base engines, all n."
 ],
 "C32": [
  "partial",
  "Value formula, sequence and discard proved in general. The range claim is false of the code (witnesses for min, max and the deprecated max); proved when nothing is shifted, some minimum is 0 and the larger maximum is 2^t - 1."
 ],
 "C33": [
  "proved",
  "Value, range, tightness and discard for all multiplicative bases with m2 <= m1. The requirements m2 <= m1 and a > 1, which the code does not check, are shown necessary."
 ],
 "C55": [
  "partial",
  "False for bases filling the whole 64-bit type (witness and exact formula); proved for all other ranges and k <= 2^31."
 ],
 "C56": [
  "proved",
  "Relative to the base engines; instances for kreutzer1986, knuth_b, ecuyer1988."
 ],
 "C57": [
  "proved",
  "All states, all n."
 ],
 "C58": [
  "proved",
  "All parameters meeting LcgValid (C06)."
 ],
 "C13": [
  "partial",
  "Step and sequence for all parameters; range only if the type has exactly w bits: false otherwise (proved for every such engine)."
 ],
 "C14": [
  "partial",
  "All parameters with w - k <= 30; otherwise seeding shifts an int too far (witness)."
 ],
 "C34": [
  "proved",
  "All states."
 ],
 "C35": [
  "partial",
  "State restored if no digit follows; the stream is never left good and a following engine is swallowed (proved for all states)."
 ],
 "C36": [
  "partial",
  "Matrix recurrence proved for all well-formed states; range claim false (witness accepted by operator>>), bound max()+2 proved."
 ],
 "C37": [
  "partial",
  "Round trip proved for counters below N; false for every state with counter N."
 ],
 "C59": [
  "proved",
  "All parameters satisfying the static assertions."
 ],
 "C61": [
  "proved",
  "All sizes and multipliers."
 ],
 "C62": [
  "proved",
  "Whole table checked in the kernel by repeated squaring modulo the annihilating polynomial of the unit vector; skip loop by induction."
 ],
 "C19": [
  "partial",
  "Everything proved; of ==, soundness and exactness at equal positions are proved; completeness in general is false (c19_eq_complete_false)."
 ],
 "C63": [
  "proved",
  "Over exact rationals; floating point is exact for these operations when RealType has more than w digits (w = 48 < 53 for all typedefs), which is argued, not proved."
 ],
 "C20": [
  "proved",
  "For 2 <= m < n, 1 <= r < w (all typedefs). For r = 0, which the published algorithm allows, the code deviates (c20_r_zero_false)."
 ],
 "C21": [
  "proved",
  "seed(seq)/seed(first,last): for whatever words the seeding helper stores."
 ],
 "C22": [
  "proved",
  "Exact for engines seeded or run; sound also for engines just read from text; the converse for unnormalized arrays read from text is false (c22_eq_unnormalized_false)."
 ],
 "C23": [
  "proved",
  "Also shown: text can produce the degenerate all-zero engine (c23_degenerate_text_false)."
 ],
 "C25": [
  "proved",
  "for the moduli covered by WideOK (C03) and unsigned words that fit the type; the floating-point arrays over rationals for w <= digits"
 ],
 "C26": [
  "partial",
  "the standard algorithm for a non-empty range of a 32-bit type; false for an empty range and for a 64-bit destination (witnesses)"
 ],
 "C27": [
  "partial",
  "for every engine of at least two values and every non-empty range, integer and floating-point engines; false for an empty range and for an engine of one value (witnesses)"
 ],
 "C28": [
  "partial",
  "proved for every base engine and every w except a base with exactly three values and w >= 3; in that case (and, as it follows from a division by zero, for a base with one value) the behaviour is undefined, which is proved"
 ],
 "C29": [
  "partial",
  "proved for every base engine, w and sequence length except a base with exactly three values and w >= 3, where the behaviour is undefined"
 ],
 "C41": [
  "proved",
  "integer weights: table from any previous table (`c41_table`), counts of engine value tuples as the weights (`c41_sampling`), loop (`c41_loop`), empty list (`c41_empty`); real weights over the rationals (`c41_real_weights`)"
 ],
 "C42": [
  "partial",
  "true for new objects and histories in which the number of weights does not decrease; false otherwise (`c42_roundtrip_false`); equal objects hold equal weights for all histories (`c42_eq_sound`)"
 ],
 "C43": [
  "partial",
  "true unless the first weight is the greatest value of its type and another weight is positive; false there (`c43_max_first_false`), and false for real weights with an empty list (`c43_real_empty_false`)"
 ],
 "C44": [
  "proved",
  "over every lattice (Niederreiter's and Sobol's being instances), for engines satisfying GrayState, which the constructor establishes and every operation but reading text of another dimension preserves (c44_states)"
 ],
 "C45": [
  "partial",
  "every position, dimension and z except dimension 1, end of a vector, z = 2^64-1, where the claim is false (c45_discard_false, c45_faure_false)"
 ],
 "C46": [
  "partial",
  "Sobol and Niederreiter: all states except those left by reading text of another dimension, where the claim is false (c46_eq_false); Faure: all reachable states (c46_faure)"
 ],
 "C47": [
  "partial",
  "Sobol and Niederreiter: round trip proved unless the target has another dimension and the same sequence number, where it is false (c47_roundtrip_false); after an exception the engine is usable if the text names its dimension, otherwise false (c47_throw_false). Faure: all source and target states (c47_faure_roundtrip), all texts (c47_faure_throw)"
 ],
 "C48": [
  "proved",
  "any table with odd initial values below 2^(k+1) and degrees between 1 and w; the default table is checked entry by entry (c48_sobol)"
 ],
 "C49": [
  "partial",
  "Proved for all roundings, engines, precisions and 1 <= w <= 30 unless the engine digits exactly fill the fraction; then the code shifts by -1 (c49_shift_false)."
 ],
 "C50": [
  "partial",
  "Proved for all engines whose differences fit the engine type; otherwise signed overflow (c50_signed_false). Exact count, also with rounded products; p = 0 and p = 1 exactly."
 ],
 "C52": [
  "partial",
  "Proved for every constructor and param() with valid boundaries and weights, any rounding when drawing (construction in exact arithmetic). False for range constructors with fewer than two boundaries (c52_ranges_false)."
 ],
 "C64": [
  "partial",
  "Any rounding for engines with minimum 0 that have 2^m values or need one value; exact arithmetic for all. False for ecuyer1988 with double: 1 + 2^-52 (c64_ecuyer_false)."
 ],
 "C65": [
  "partial",
  "uniform_real: proved for all engines; uniform_01: for engines whose differences fit the type (otherwise signed overflow, c50_signed_false)."
 ],
 "C67": [
  "partial",
  "Proved unless the first digit of the fraction is longer than the precision; then false (c67_first_digit_false)."
 ],
 "C51": [
  "partial",
  "Products (schoolbook, Karatsuba, any sizes), squares, class operations: proved. mod_pow_x: proved whenever the blocks of sparse_mod fit the array (always when the degree is in the lower half of its digit); otherwise a write past the end (c51_overrun_false). Exponent 1 with modulus of degree 1 is wrong (c51_linear_false); an empty right factor loops for ever (c51_empty_false)."
 ],
 "C24": [
  "partial",
  "proved for mt11213b, mt19937 and mt19937_64, for every state, every z, every threshold, and 32- or 64-bit unsigned long (c24_typedefs); proved for all template arguments with UIntType of exactly w bits, w even, and a reduction that fits (c24_discard_partial); false for wider types and where sparse_mod overruns (c24_wide_false, c24_overrun_false)"
 ],
 "C66": [
  "proved",
  "For all tables of distinct irreducible polynomials; instantiated at the typedef niederreiter_base2 in every dimension. The polynomials are elements of (ZMod 2)[X]."
 ],
 "C68": [
  "partial",
  "Proved for the coordinates whose polynomial's degree divides the word size; refuted for others: the fourth coordinate of niederreiter_base2 is always even."
 ],
 "C69": [
  "proved",
  "Sieve over all 65536 numbers evaluated by the kernel, lifted to irreducibility in (ZMod 2)[X]."
 ],
 "C70": [
  "proved",
  "default table, SeqSizeT unsigned of at most 64 bits and not narrower than int; with a signed SeqSizeT integer_pow overflows (c70_signed_false)"
 ],
 "C71": [
  "partial",
  "exact arithmetic: all values in [0,1); rounding to nearest: all values at least 0, first coordinates and dimensions 1, 2 at most 1, others at most (1-2^-p)^-129; false for double in dimension 4 (c71_range_false)"
 ],
 "C72": [
  "proved",
  "exact arithmetic"
 ],
 "C73": [
  "proved",
  "inversion and probabilities proved in exact arithmetic; the constructor overflows for the largest t (c73_init_false), which the theorems exclude"
 ],
 "C74": [
  "partial",
  "results from -1 to t+1 and no undefined behaviour for every rounding to nearest; the range 0 to t is false (c74_range_false: t = 3, p = 27/64 gives 4)"
 ],
 "C75": [
  "partial",
  "range and first stage proved in exact arithmetic; absence of undefined behaviour is false for the second stage (c75_ub_false)"
 ],
 "C76": [
  "partial",
  "ratio test exact near the mode and within 1.3e-10 far from it for log v in the squeeze interval; the quick acceptance is wrong far below the mode (c76_far_false)"
 ],
 "C77": [
  "partial",
  "quantile and probabilities proved in exact arithmetic; with rounding the loop may not end (c77_double_false, c77_float_false)"
 ],
 "C78": [
  "partial",
  "range, first stage and acceptance test proved in exact arithmetic; the conversion of the result can be out of range (c78_ub_false)"
 ],
 "C79": [
  "partial",
  "quantile and probabilities proved in exact arithmetic, including exactly when the conversion is out of range; it can be (c79_range_false, c79_rounded_false)"
 ],
 "C80": [
  "proved",
  "All entries, against the real functions; tail area by a power series and bounds on pi."
 ],
 "C81": [
  "proved",
  "Exact arithmetic."
 ],
 "C82": [
  "proved",
  "Exact arithmetic; uniform numbers are independent and uniform on [0,1), the layer uniform below 256."
 ],
 "C83": [
  "proved",
  "Exact arithmetic; as C82. The exponential numbers of the tail are ideal ones (their generation is C82)."
 ],
 "C84": [
  "proved",
  "Exact arithmetic, ideal exponential numbers."
 ],
 "C85": [
  "partial",
  "False for engines whose bits exactly fill the fraction (C49) or whose differences overflow (C50); proved otherwise."
 ],
 "C86": [
  "proved",
  "Law against cauchyMeasure of Mathlib."
 ],
 "C87": [
  "proved",
  "Exact arithmetic for the law; any rounding for the range."
 ],
 "C88": [
  "proved",
  "As C87."
 ],
 "C89": [
  "proved",
  "Exact arithmetic."
 ],
 "C90": [
  "partial",
  "Values are always numbers; the range is kept up to 2^-50 of its length. Exact bounds are false: triangle_distribution(-1.9,-1.9,0.2) returns a value below -1.9."
 ],
 "C91": [
  "proved",
  "Exact arithmetic, ideal exponential numbers (C82)."
 ],
 "C92": [
  "proved",
  "Exact arithmetic, ideal normal numbers (C83)."
 ],
 "C93": [
  "proved",
  "Exact arithmetic; law against gammaMeasure of Mathlib."
 ],
 "C94": [
  "partial",
  "The domain is proved for every source of numbers; the range for the engines of C85, because uniform_01 and generate_int_float_pair are broken for others (C49, C50)."
 ],
 "C95": [
  "proved",
  "Exact arithmetic, ideal gamma (C93), normal (C83) and Poisson (C76) numbers."
 ],
 "C96": [
  "proved",
  "Exact arithmetic, ideal gamma numbers."
 ],
 "C97": [
  "proved",
  "Exact arithmetic, ideal gamma numbers; both orders."
 ],
 "C98": [
  "proved",
  "Exact arithmetic, ideal gamma and normal numbers; both orders."
 ],
 "C99": [
  "proved",
  "Exact arithmetic, ideal gamma and Poisson numbers."
 ],
 "C100": [
  "partial",
  "The range is kept or the value is infinite or NaN. False in general: gamma numbers with shapes up to 1/256 underflow to zero and 0/0 is NaN."
 ],
 "C101": [
  "partial",
  "False: the order of two calls in one expression is unspecified and the values differ (2 and 1/2). Both orders have the same law."
 ],
 "C102": [
  "partial",
  "False at k = 0, p = 0, p = 1, and when the gamma number is zero; otherwise the value is that of poisson_distribution."
 ],
 "C103": [
  "proved",
  "Exact arithmetic; c103_same ties the sampled function to the model of C52."
 ],
 "C104": [
  "proved",
  "Exact arithmetic; the boundaries of the function constructor as well."
 ],
 "C105": [
  "partial",
  "Differences of engine values must fit their type, because uniform_01 is broken otherwise (C50)."
 ],
 "C106": [
  "proved",
  "Exact arithmetic, ideal exponential numbers (C82)."
 ],
 "C107": [
  "partial",
  "The range for the engines of C85 (C49, C50 are false of others); the alias table in exact arithmetic."
 ],
 "C108": [
  "partial",
  "Sum one and idempotence are proved for rounding to nearest even. False: the last probability can be -2^-52 and the assertion fails; the iterator constructor from rates does not normalize."
 ],
 "C109": [
  "proved",
  "Exact arithmetic; c109_spec shows that the specified probability is that of the sphere and invariant under rotations."
 ],
 "C110": [
  "proved",
  "Exact arithmetic, any source."
 ],
 "C111": [
  "proved",
  "Rounding to nearest with 53 bits without bounds on the exponent; square root with relative error at most 2^-53."
 ],
 "C112": [
  "partial",
  "True in exact arithmetic, and for the coordinates except in dimension 3. False in floating-point arithmetic: (-1, -2^-31) is below min(), and in dimension 3 a coordinate can be 1 + 2^-52."
 ],
 "C113": [
  "partial",
  "False of a negative number read by operator>> or given to param(parm): the dimension is stored before the exception."
 ],
 "C114": [
  "proved",
  "For the engines of C85."
 ],
 "C115": [
  "partial",
  "Inherits the defect of C38: the minimum is forgotten when the size of the range is a power >= 2 of 2^w; for 48-bit engines and types of up to 64 bits this does not happen."
 ],
 "C116": [
  "proved",
  "Rounding to nearest; under upward rounding the conversion can be undefined (c116_upward_false)."
 ],
 "C117": [
  "proved",
  "Word size plus bits of the range at most the precision."
 ],
 "C118": [
  "proved",
  ""
 ],
 "C119": [
  "partial",
  "The range holds. False otherwise: the first engine value is used as a fraction and not as an integer, so that with enough bits in one engine value the result is at most 2^-w, and with two engine values the first is lost by rounding."
 ],
 "C120": [
  "proved",
  "Precision not less than the word size of the engine."
 ],
 "C121": [
  "proved",
  "The law for a precision not less than the word size of the engine."
 ],
 "C122": [
  "proved",
  ""
 ],
 "C123": [
  "partial",
  "False at position 0 with 0 < z < r, where nothing is updated (c123_discard_false); proved elsewhere, with the exact condition (c123_discard_iff)."
 ],
 "C124": [
  "partial",
  "False: operator== ignores the borrow (c124_equal_futures_false); proved for equal borrows."
 ],
 "C125": [
  "proved",
  ""
 ],
 "C126": [
  "partial",
  "Values, text and discard proved for all ten engines; comparison is false as for the bases (c126_equal_false)."
 ],
 "C127": [
  "proved",
  "For ranlux64_base the modulus is composite and short periods exist (c127_ranlux64_false)."
 ],
 "C128": [
  "partial",
  "For j up to 15 from the mode and under the condition that the part of the region of j lies between the two rectangles (proved for 36 throws of a coin, c128_coin); further away the law is false (C76). Uniformity of the candidates without conditions."
 ],
 "C129": [
  "proved",
  "One round, in exact arithmetic, for all means from 10 on and all numbers that fit in IntType; the factor is the error of the asymptotic series in the acceptance test."
 ],
 "C130": [
  "partial",
  "With max_digits10 digits: all 24. False with the default precision of a stream (c130_default_precision_false), and for the geometric distribution of long double, which is read as a double (c130_long_double_false)."
 ],
 "C131": [
  "partial",
  "For the 21 distributions that read a param_type first; false for the seven that read into their members (c131_members_false). Failed streams: all 28."
 ],
 "C132": [
  "partial",
  "geometric, triangle, uniform_int, uniform_real (up to min = max). False for the others (c132_false)."
 ],
 "C133": [
  "partial",
  "Vectors with max_digits10 digits; the exact set of accepted texts; piecewise_linear with rounding; the laws of discrete, piecewise_constant and hyperexponential in exact arithmetic. False: c133_unreadable_false, c133_history_false, c133_mismatch_false."
 ],
 "C134": [
  "partial",
  "Comparison of all. Reading without undefined behaviour: all without vectors except binomial (c134_total_false) and the deprecated geometric (c132_false)."
 ],
 "C135": [
  "proved",
  ""
 ],
 "C136": [
  "proved",
  ""
 ],
 "C137": [
  "proved",
  ""
 ],
 "C60": [
  "proved",
  ""
 ],
 "C138": [
  "proved",
  ""
 ],
 "C139": [
  "proved",
  ""
 ],
 "C140": [
  "proved",
  ""
 ],
 "C141": [
  "proved",
  ""
 ],
 "C142": [
  "proved",
  ""
 ],
 "C143": [
  "proved",
  ""
 ],
 "C144": [
  "proved",
  ""
 ],
 "C145": [
  "proved",
  ""
 ],
 "C146": [
  "proved",
  ""
 ],
 "C147": [
  "proved",
  "Exact arithmetic; uniform_01 independent and uniform (C65)."
 ],
 "C148": [
  "proved",
  "Distributions and engines are arbitrary functions of their states."
 ],
 "C149": [
  "partial",
  "c149_same_partial needs that the differences of engine values fit the result type; c149_narrow_false shows that it fails otherwise (new form wrong, old form right, c149_old and c149_exact)."
 ],
 "C150": [
  "partial",
  "c150_const_mod_partial excludes the modulus 2^16; for that c150_sixteen and c150_calls give the exact condition and c150_full_period_false, c150_discard_false show the failure."
 ],
 "C151": [
  "partial",
  "c151_types_partial excludes the ranges of C38's counterexample (c151_types_false); c151_smallint and c151_rng are complete."
 ],
 "C152": [
  "partial",
  "complete for uniform_int_distribution and random_number_generator; c152_bits_partial leaves out base engines of three values, where independent_bits_engine is undefined (c28_three_values_false)."
 ],
 "C153": [
  "partial",
  "c153_law_partial has the exact guard of C38 (c153_law_exact_power is the remaining case, c153_law_false the counterexample); c153_bits_partial leaves out base engines of three values, where the engine is undefined; c153_rng is complete."
 ],
 "C154": [
  "proved",
  ""
 ],
 "C155": [
  "proved",
  ""
 ],
 "C156": [
  "partial",
  "Proved under the rules of C++20 and, for seeding with a value, for f*(2^w-1) < 2^31; both guards are exact (c156_cpp17_false, c156_seed_false)."
 ],
 "C157": [
  "partial",
  "Proved for all arguments except lvalues of derived classes and lvalues of the base engine that are not const, for shuffle_output except copies of its variables, and for two arguments under the exact guard; outside the guards the negations are proved (c157_derived_false, c157_base_lvalue, c157_base_reseeded, c157_base_false, c157_shuffle_output_copy_false, c157_pair_false)."
 ],
 "C158": [
  "partial",
  "Proved where sums of residues fit in the type, for residues as seeds and for r = 607; outside these guards c158_acorn_overflow_false, c158_acorn_seed_false, c158_fib_size_false, c158_fib_seed_false."
 ],
 "C159": [
  "partial",
  "The period divides 16 (p^17-1)/(p-1) and is a multiple of the two known prime factors; that it is not shorter than published needs the factorization of the remaining 908-bit composite factor. Distinctness is complete for 64-bit seeds."
 ],
 "C160": [
  "proved",
  "For every N and multiplier; the bound N on the dimension is sharp."
 ],
 "C161": [
  "partial",
  "Guarded as C38, whose early return forgets the lower bound; complete for discrete_distribution."
 ],
 "C162": [
  "proved",
  "All engines, types, lengths and vectors."
 ],
 "C163": [
  "proved",
  "The formula and the shares in exact arithmetic; c163_shift shows where rounding breaks the pairs."
 ],
 "C164": [
  "proved",
  "Coordinates as exact fractions: sobol and niederreiter_base2 with 64 bits and their default tables, faure in exact arithmetic."
 ],
 "C165": [
  "proved",
  "Coordinates as exact fractions: sobol and niederreiter_base2 with 64 bits and their default tables, the point zero counted as the first; faure in exact arithmetic."
 ],
 "C166": [
  "proved",
  "Exponents are unbounded (no overflow or underflow of weights). Probabilities over the column and the test value, the two values operator() draws."
 ],
 "C167": [
  "partial",
  "Differences of engine values must fit their type (C50). False of the function constructor where the rounded boundaries do not increase: a draw never ends (c167_func_false)."
 ],
 "C168": [
  "partial",
  "The assertion and the law are proved in full; the range on engines has the guard on engine widths of C85."
 ],
 "C169": [
  "partial",
  "For the range the differences of engine values must fit their type (C50). For the law of the function constructor the rounded boundaries are assumed to increase; for its range they are not (c169_grid_partial)."
 ]
}