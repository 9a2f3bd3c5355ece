{"id": "C01", "title": "Integer log2 is exact", "statement": "For every unsigned integer type and every positive value t, the library's integer logarithm returns the unique e with 2^e <= t < 2^(e+1). All range computations (bits per engine call, rejection limits, division normalisation) rely on it.", "quantifier": "for all type widths (powers of two) and all t > 0", "why_tests_cant": "The value space is 2^64 per type and the recursion depth depends on the type width; sampled tests leave out almost every value.", "anchors": ["include/boost/random/detail/integer_log2.hpp: integer_log2, integer_log2_impl::apply"]}
{"id": "C02", "title": "Modular arithmetic never overflows and is exact", "statement": "For a modulus m fitting the integer type (m = 0 meaning 'the whole type') and operands in [0,m), the modular add, multiply, multiply-add and power used by the congruential engines return exactly (x+c) mod m, (a*x) mod m, (a*x+c) mod m and a^e mod m, and no signed overflow or other undefined behaviour occurs on any of the code paths (mask, small product, Schrage, wide product).", "quantifier": "for all moduli, operands, exponents, for signed and unsigned integer types of every width >= 32", "why_tests_cant": "Which path is taken depends on m, a and the signedness of the type; overflow shows only for particular large operands.", "anchors": ["include/boost/random/detail/const_mod.hpp: const_mod::apply, add, mult, mult_add, pow, mult_small, mult_schrage, mult_general, sub"]}
{"id": "C03", "title": "Wide multiply-and-divide is exact", "statement": "For all 64-bit a < m and b, the 128-bit helper returns floor(a*b/m) and (a*b) mod m.", "quantifier": "for all 64-bit a, b, m with a < m", "why_tests_cant": "The two-digit long division has correction cases that occur with probability about 2^-31 per step, so random tests practically never reach them.", "anchors": ["include/boost/random/detail/large_arithmetic.hpp: muldivmod, muldiv, mulmod"]}
{"id": "C04", "title": "Modular inversion returns the inverse", "statement": "For 0 < x < m with x relatively prime to m, the inversion routine terminates and returns the y in [0,m) with x*y = 1 (mod m); in general x*y = gcd(x,m) (mod m). For m = 0 (modulus 2^w) the same holds for odd x.", "quantifier": "for all moduli and all x, all type widths", "why_tests_cant": "The extended Euclid loop runs a data-dependent number of steps; intermediate coefficients must be bounded for every pair to exclude overflow.", "anchors": ["include/boost/random/detail/const_mod.hpp: const_mod::invert, invert_euclidian, invert_euclidian0"]}
{"id": "C05", "title": "Signed differences and offsets are computed without overflow", "statement": "For signed or unsigned T and x >= y, the library's subtraction helper returns the mathematical x - y as an unsigned value, and the addition helper returns the mathematical x + y whenever the result fits T; neither evaluates a signed expression that overflows, including when y is the minimum of T.", "quantifier": "for all type widths and all x, y of the type", "why_tests_cant": "The interesting cases are corner values of each type (minimum, maximum, -1); a proof covers all pairs at once.", "anchors": ["include/boost/random/detail/signed_unsigned_tools.hpp: subtract, add"]}
{"id": "C06", "title": "Linear congruential engine produces the recurrence and stays in range", "statement": "Each call of a linear congruential engine with parameters a, c, m returns x' = (a*x + c) mod m of the previous state, the returned value lies in [min(), max()] and the engine's new state is that value; the n-th value after seeding is the n-fold iterate.", "quantifier": "for all parameters a, c, m allowed by the static assertions, all seeds, all numbers of calls", "why_tests_cant": "Sequences have length up to 2^64 and the parameter space is unbounded.", "anchors": ["include/boost/random/linear_congruential.hpp: linear_congruential_engine::operator(), min, max", "include/boost/random/detail/const_mod.hpp: mult_add"]}
{"id": "C07", "title": "Linear congruential discard(z) equals z calls", "statement": "After discard(z) a linear congruential engine is in exactly the state it would be in after z calls of operator(), for every z.", "quantifier": "for all parameters, all states and all 64-bit z", "why_tests_cant": "z ranges over 2^64 values; the closed form divides by a-1 and is correct only under number-theoretic side conditions that sample parameters satisfy.", "anchors": ["include/boost/random/linear_congruential.hpp: linear_congruential_engine::discard", "include/boost/random/detail/const_mod.hpp: invert, pow"]}
{"id": "C08", "title": "Linear congruential seeding yields a valid state and separates seeds", "statement": "Seeding with any integer (negative included) leaves the engine in a state within [min(), max()]; a multiplicative engine (c = 0) is never left in the absorbing state 0; distinct seeds in [min(), m) leave the engine in distinct states.", "quantifier": "for all seeds of the integer type and all moduli", "why_tests_cant": "The claim is about all seed pairs.", "anchors": ["include/boost/random/linear_congruential.hpp: linear_congruential_engine::seed"]}
{"id": "C09", "title": "Linear congruential text round-trip and rejection of bad input", "statement": "Writing an engine to a stream and reading it back restores an equal engine that produces the same future values; reading a value outside [min(), max()] sets the fail bit and leaves the engine unchanged; reading never leaves the engine in a state outside [min(), max()].", "quantifier": "for all engine states and all integer tokens in the stream", "why_tests_cant": "Round-trip must hold from every reachable state, rejection for every bad token.", "anchors": ["include/boost/random/linear_congruential.hpp: operator<<, operator>>, read"]}
{"id": "C10", "title": "Standard congruential engines have full period", "statement": "minstd_rand0 and minstd_rand visit every value of [1, 2^31-2] exactly once before repeating, from every seed; rand48's internal state visits all 2^48 states before repeating.", "quantifier": "for all seeds, over the whole period (2^31-2 and 2^48 steps)", "why_tests_cant": "The period of rand48 is far beyond exhaustive testing.", "anchors": ["include/boost/random/linear_congruential.hpp: minstd_rand0, minstd_rand, rand48"]}
{"id": "C11", "title": "rand48 reproduces the lrand48 bit selection", "statement": "rand48 seeded with a 32-bit x0 starts at (x0<<16)|0x330e; each call returns bits 17..47 of the next 48-bit state of x -> (0x5DEECE66D*x + 0xB) mod 2^48, hence a value in [0, 2^31-1]; distinct seeds give distinct states; discard(z) equals z calls.", "quantifier": "for all seeds and all numbers of calls", "why_tests_cant": "Unbounded number of calls and 2^32 seeds.", "anchors": ["include/boost/random/linear_congruential.hpp: rand48::operator(), seed, cnv, discard"]}
{"id": "C12", "title": "Inversive congruential engine produces the inversive recurrence", "statement": "For prime p each call returns x' = (a*inv(x) + b) mod p with inv(x) the modular inverse (inv(0) = 0), and the value lies in [min(), max()].", "quantifier": "for all primes p, parameters a, b and all states", "why_tests_cant": "Every step runs the Euclid loop; all residues and primes must be covered.", "anchors": ["include/boost/random/inversive_congruential.hpp: inversive_congruential_engine::operator(), min, max, seed"]}
{"id": "C13", "title": "Linear feedback shift engine output is within range and follows the Tausworthe recurrence", "statement": "Each call transforms the low w bits exactly as the Tausworthe step of (w,k,q,s) and the returned value is at most max() = 2^w - 1.", "quantifier": "for all (w,k,q,s) allowed by the static assertions, all result type widths >= w, all states", "why_tests_cant": "Range violations appear only for particular parameter/type combinations and states.", "anchors": ["include/boost/random/linear_feedback_shift.hpp: linear_feedback_shift_engine::operator(), min, max"]}
{"id": "C14", "title": "Linear feedback shift engines never get stuck at zero", "statement": "Whatever the seed, the engine is left in a state whose k significant bits are not all zero, and no number of calls ever leads to a state whose significant bits are all zero.", "quantifier": "for all seeds and all numbers of calls, all legal (w,k,q,s)", "why_tests_cant": "A stuck state may appear after any number of steps.", "anchors": ["include/boost/random/linear_feedback_shift.hpp: seed, operator()"]}
{"id": "C15", "title": "Subtract-with-carry engine produces the recurrence", "statement": "Call number n returns x(n) = (x(n-s) - x(n-r) - c(n-1)) mod 2^w with borrow c(n) in {0,1}, whatever the position of the circular buffer; all values are in [0, 2^w-1].", "quantifier": "for all word sizes and lags s < r, all initial tables, all numbers of calls", "why_tests_cant": "The circular-buffer implementation is equal to the recurrence only by an invariant over all calls.", "anchors": ["include/boost/random/subtract_with_carry.hpp: subtract_with_carry_engine::operator(), do_update"]}
{"id": "C16", "title": "Subtract-with-carry discard(z) equals z calls", "statement": "After discard(z) a subtract-with-carry engine is in exactly the state it would be in after z calls.", "quantifier": "for all states (buffer position, borrow, table) and all z", "why_tests_cant": "The block-wise implementation has several boundary cases depending on buffer position and z; all (position, z) pairs matter.", "anchors": ["include/boost/random/subtract_with_carry.hpp: detail::subtract_with_carry_discard::apply"]}
{"id": "C17", "title": "Subtract-with-carry equality means identical futures", "statement": "If two subtract-with-carry engines compare equal they produce identical sequences of values.", "quantifier": "for all pairs of engine states and all numbers of subsequent calls", "why_tests_cant": "Quantifies over pairs of states and infinite futures.", "anchors": ["include/boost/random/subtract_with_carry.hpp: operator==, compute"]}
{"id": "C18", "title": "Subtract-with-carry text round-trip", "statement": "Writing a subtract-with-carry engine and reading it back (into any other engine of the type) gives an engine that compares equal and produces the same future values as the original.", "quantifier": "for all states reachable or not, and all target engines", "why_tests_cant": "Must hold for every buffer position and borrow.", "anchors": ["include/boost/random/subtract_with_carry.hpp: operator<<, operator>>"]}
{"id": "C19", "title": "Lagged Fibonacci engine produces the recurrence", "statement": "Call number n returns x(n) = (x(n-p) + x(n-q)) mod 2^w even though values are produced in blocks; outputs are in [0, 2^w-1]; equality implies identical futures, and a text round-trip preserves all future outputs.", "quantifier": "for all w and lags q < p, all initial tables and all numbers of calls", "why_tests_cant": "Block refill is in place and reads values it has just overwritten; correctness is an invariant over all calls.", "anchors": ["include/boost/random/lagged_fibonacci.hpp: lagged_fibonacci_engine::operator(), fill, operator==, operator<<, operator>>"]}
{"id": "C20", "title": "Mersenne Twister produces the published recurrence", "statement": "Call number n returns the tempering of x(n+N) where x(k+N) = x(k+M) xor ((upper bits of x(k) | lower bits of x(k+1)) A), although the state array is regenerated in blocks with an unrolled schedule.", "quantifier": "for all parameter sets (w,n,m,r,a,u,d,s,b,t,c,l), all initial arrays, all numbers of calls", "why_tests_cant": "The block regeneration order must be right for each index and each call number.", "anchors": ["include/boost/random/mersenne_twister.hpp: mersenne_twister_engine::operator(), twist"]}
{"id": "C21", "title": "Mersenne Twister outputs are in range and seeding is never degenerate", "statement": "Every output is in [0, 2^w-1]. Seeding from any integer, seed sequence or iterator range leaves a state whose significant bits are not all zero, and no number of calls leads to such a degenerate state.", "quantifier": "for all seeds and all numbers of calls", "why_tests_cant": "The degenerate state would have to be excluded for all of the 2^19937 states.", "anchors": ["include/boost/random/mersenne_twister.hpp: seed, normalize_state, twist, operator()"]}
{"id": "C22", "title": "Mersenne Twister equality means identical futures", "statement": "Two Mersenne Twister engines compare equal exactly when they produce the same infinite sequence of values starting now (soundness: equal implies same futures for seeded engines, whatever their positions in the block).", "quantifier": "for all pairs of engines and all numbers of subsequent calls", "why_tests_cant": "Comparison of engines at different block positions involves running the recurrence backwards; pairs of states and infinite futures.", "anchors": ["include/boost/random/mersenne_twister.hpp: operator==, equal_imp, rewind, rewind_find"]}
{"id": "C23", "title": "Mersenne Twister text round-trip", "statement": "Writing an engine at any point of its life and reading the text back yields an engine that compares equal and continues with the same values.", "quantifier": "for all states and positions", "why_tests_cant": "The written form is n reconstructed previous values; correct for each of the n+1 positions and all states.", "anchors": ["include/boost/random/mersenne_twister.hpp: operator<<, operator>>, print, rewind"]}
{"id": "C24", "title": "Mersenne Twister discard(z) equals z calls", "statement": "discard(z) leaves the engine producing the same future values as z calls of operator().", "quantifier": "for all states and all z", "why_tests_cant": "z up to 2^64; the jump-ahead path uses polynomial arithmetic over GF(2).", "anchors": ["include/boost/random/mersenne_twister.hpp: discard, discard_many, get_characteristic_polynomial, reconstruct_state", "include/boost/random/detail/polynomial.hpp"]}
{"id": "C25", "title": "Seeding from an iterator range consumes exactly the needed elements", "statement": "Seeding an engine from [first,last) either consumes exactly the documented number of 32-bit words, advances first past them and leaves each state word equal to the little-endian concatenation of its 32-bit words (mod 2^w or mod m), or throws std::invalid_argument when the range is too short; elements beyond are not read.", "quantifier": "for all word sizes, state sizes and input ranges", "why_tests_cant": "All lengths of input including each truncation point.", "anchors": ["include/boost/random/detail/seed_impl.hpp: get_one_int, fill_array_int_impl, seed_one_int, seed_array_int_impl"]}
{"id": "C26", "title": "seed_seq::generate computes the standard algorithm", "statement": "generate(begin,end) writes the values prescribed by the C++ standard for seed_seq, all below 2^32, whatever the integer type of the destination; on an empty range it does nothing.", "quantifier": "for all stored seed vectors, all destination lengths and destination types", "why_tests_cant": "All lengths (the index arithmetic has regimes at 7, 39, 68, 623) and all contents.", "anchors": ["include/boost/random/seed_seq.hpp: seed_seq::generate"]}
{"id": "C27", "title": "Engine generate() packs engine bits into 32-bit words", "statement": "generate(first,last) fills the range with exactly last-first values below 2^32 which are the little-endian 32-bit chunks of the concatenation of the accepted engine outputs' low bits, no bit being reused or lost; on an empty range it writes nothing.", "quantifier": "for all engine ranges, all engine output sequences and all lengths", "why_tests_cant": "The packing state machine (saved bits, remaining bits) has a different path for each engine width; all lengths and inputs matter.", "anchors": ["include/boost/random/detail/seed_impl.hpp: generate_from_int"]}
{"id": "C28", "title": "independent_bits_engine outputs exactly w bits", "statement": "For any base engine each call of an independent_bits_engine returns a value in [0, 2^w - 1] and no undefined shift occurs.", "quantifier": "for all w, all base ranges, all base output sequences", "why_tests_cant": "The splitting parameters depend on w and the base range in a non-monotone way; all pairs matter.", "anchors": ["include/boost/random/independent_bits.hpp: independent_bits_engine::operator(), calc_params"]}
{"id": "C29", "title": "independent_bits_engine is unbiased", "statement": "If the base engine's outputs are equidistributed then every w-bit value is produced from equally many accepted base output tuples.", "quantifier": "for all w, all base ranges, all output values", "why_tests_cant": "Equidistribution is a counting statement over all tuples of base outputs.", "anchors": ["include/boost/random/independent_bits.hpp: independent_bits_engine::operator(), calc_params"]}
{"id": "C30", "title": "shuffle_order_engine stays within its table and only delays base outputs", "statement": "Every table access is within the k entries; every returned value is an output of the base engine, each base output is returned at most once, and at any time the multiset of base outputs drawn, other than the (k+1)-st which only serves as the first index, equals the returned values plus the table.", "quantifier": "for all base engines (all ranges), all k and all numbers of calls", "why_tests_cant": "The index computation has four arithmetic regimes depending on the base range; an out-of-bounds index corrupts memory.", "anchors": ["include/boost/random/shuffle_order.hpp: shuffle_order_engine::operator(), init"]}
{"id": "C31", "title": "discard_block_engine returns the first r of each block of p", "statement": "The n-th value returned by a freshly seeded discard_block_engine<Base,p,r> is the base engine's value number (n div r)*p + (n mod r).", "quantifier": "for all p >= r > 0, all base engines and all n", "why_tests_cant": "Unbounded number of calls.", "anchors": ["include/boost/random/discard_block.hpp: discard_block_engine::operator()"]}
{"id": "C32", "title": "xor_combine_engine outputs are within [min(), max()]", "statement": "Each output of xor_combine_engine is (b1 << s1) xor (b2 << s2) of the two base outputs and lies within [min(), max()].", "quantifier": "for all base engines, shifts and base outputs", "why_tests_cant": "Range violations depend on the shifts and base ranges.", "anchors": ["include/boost/random/xor_combine.hpp: xor_combine_engine::operator(), min, max"]}
{"id": "C33", "title": "additive_combine_engine returns the difference of its bases modulo m1-1", "statement": "Each output of additive_combine_engine is the value in [1, m1-1] congruent to (MLCG1 - MLCG2) modulo (m1-1) and lies within [min(), max()]; discard(z) equals z calls.", "quantifier": "for all multiplicative base engines (multipliers above 1, relatively prime to their moduli) with m2 <= m1, all states and all z", "why_tests_cant": "All pairs of base outputs.", "anchors": ["include/boost/random/additive_combine.hpp: additive_combine_engine::operator(), discard, ecuyer1988"]}
{"id": "C34", "title": "splitmix64 is a permutation with full period", "statement": "splitmix64 visits all 2^64 states before repeating and over one period returns every 64-bit value exactly once; discard(z) equals z calls.", "quantifier": "for all seeds, over the full period of 2^64", "why_tests_cant": "2^64 values cannot be enumerated.", "anchors": ["include/boost/random/splitmix64.hpp: splitmix64::next, discard"]}
{"id": "C35", "title": "splitmix64 text round-trip", "statement": "Writing a splitmix64 and reading the text back restores an equal engine and leaves the stream good, also when other data follows in the stream.", "quantifier": "for all states and all following stream contents", "why_tests_cant": "All stream continuations.", "anchors": ["include/boost/random/splitmix64.hpp: operator<<, operator>>"]}
{"id": "C36", "title": "mixmax outputs are within range and follow the matrix recurrence", "statement": "Every mixmax output is in [min(), max()] = [0, 2^61-1], and the state vector after each refill is the matrix image of the previous one modulo 2^61-1.", "quantifier": "for all states and all numbers of calls", "why_tests_cant": "Lazy modular reduction can exceed the bound for rare states.", "anchors": ["include/boost/random/mixmax.hpp: mixmax_engine::operator(), iterate_raw_vec, MOD_MERSENNE, MULWU, modadd"]}
{"id": "C37", "title": "mixmax text round-trip", "statement": "Writing a mixmax engine at any point and reading the text back restores an equal engine and leaves the stream good.", "quantifier": "for all reachable states and counter positions", "why_tests_cant": "Depends on the position in the block.", "anchors": ["include/boost/random/mixmax.hpp: operator<<, operator>>"]}
{"id": "C38", "title": "uniform_int_distribution stays within [min,max]", "statement": "uniform_int_distribution(min,max) returns a value v with min <= v <= max for every engine and every sequence of engine outputs, without overflow.", "quantifier": "for all min <= max of the type, all engine ranges and all engine output sequences", "why_tests_cant": "The algorithm has regimes (engine range smaller, equal, larger, exact power); out-of-range results show only for particular range pairs.", "anchors": ["include/boost/random/uniform_int_distribution.hpp: generate_uniform_int, uniform_int_distribution::operator()"]}
{"id": "C39", "title": "uniform_int_distribution is exactly uniform", "statement": "If engine outputs are independent and equidistributed, then all values of [min,max] are equally likely: each value has the same number of accepted engine output tuples of each length.", "quantifier": "for all ranges, all engine ranges, all values and all numbers of rejected attempts", "why_tests_cant": "A statistical test can only bound the bias; exact uniformity is a counting identity.", "anchors": ["include/boost/random/uniform_int_distribution.hpp: generate_uniform_int"]}
{"id": "C40", "title": "uniform_smallint stays in range and meets its documented quantization bound", "statement": "uniform_smallint(min,max) consumes exactly one engine output, returns a value in [min,max], and over all engine outputs the sum over i of (p(i)/p_uniform - 1)^2 equals the documented r_out/r_base^2 * (r_base mod r_out)*(r_out - r_base mod r_out).", "quantifier": "for all min <= max and all engine ranges at least as large", "why_tests_cant": "Exact counting over the whole engine range.", "anchors": ["include/boost/random/uniform_smallint.hpp: uniform_smallint::generate"]}
{"id": "C41", "title": "discrete_distribution with integer weights has exactly the requested probabilities", "statement": "For integer weights with positive sum, the alias table built by discrete_distribution gives each value i exactly weight(i) accepted (column, test) pairs out of the total sum, so that P(i) = weight(i)/sum; every table access is in bounds and no arithmetic overflows.", "quantifier": "for all weight vectors with positive sum", "why_tests_cant": "Vose-style table construction with rounding corrections; exactness for all weight vectors needs an invariant.", "anchors": ["include/boost/random/discrete_distribution.hpp: integer_alias_table, discrete_distribution::init, operator()"]}
{"id": "C42", "title": "discrete_distribution parameters survive a round trip", "statement": "probabilities()/param() of a discrete_distribution with integer weights returns the weights it was built from, whatever distribution the object held before param(p) was called, and only accesses elements of its own tables; two distributions with the same parameters compare equal.", "quantifier": "for all weight vectors and all histories of param() calls", "why_tests_cant": "Depends on the history of the object.", "anchors": ["include/boost/random/discrete_distribution.hpp: probabilities, param, init, operator=="]}
{"id": "C43", "title": "discrete_distribution called with explicit parameters honours them", "statement": "dist(engine, param) returns values in [0, number of weights) with the probabilities given by param, including for an empty parameter list (equivalent to the default {1}) and for weights whose sum exceeds the weight type.", "quantifier": "for all weight vectors and weight types", "why_tests_cant": "Boundary weights at the limits of the weight type.", "anchors": ["include/boost/random/discrete_distribution.hpp: operator()(URNG&, const param_type&), try_get_sum, param_type"]}
{"id": "C44", "title": "Quasi-random seed(n) equals n vectors of output", "statement": "For a Sobol or Niederreiter engine of dimension d, seed(n) puts the engine in the state reached from seed() by n*d calls of operator(); it throws range_error exactly when that point does not exist (n >= 2^w - 1).", "quantifier": "for all lattices, dimensions, word sizes and n", "why_tests_cant": "n ranges over 2^w values; the stepwise path flips one direction vector per step, the direct path uses the Gray code.", "anchors": ["include/boost/random/detail/gray_coded_qrng.hpp: seed, compute_seq, update_quasi", "include/boost/random/detail/qrng_base.hpp: operator(), next_state"]}
{"id": "C45", "title": "Quasi-random discard(z) equals z calls", "statement": "discard(z) leaves a quasi-random engine in a state equivalent to z calls of operator(), or throws range_error when z calls would.", "quantifier": "for all positions, dimensions and z", "why_tests_cant": "All (position, z) pairs including those at the end of the 64-bit counter.", "anchors": ["include/boost/random/detail/qrng_base.hpp: discard, discard_vector"]}
{"id": "C46", "title": "Quasi-random equality means identical futures", "statement": "Two quasi-random engines of the same type compare equal iff they have the same dimension and the same position in the sequence, and then produce identical outputs.", "quantifier": "for all pairs of states", "why_tests_cant": "Pairs of states and infinite futures.", "anchors": ["include/boost/random/detail/qrng_base.hpp: operator=="]}
{"id": "C47", "title": "Quasi-random text round-trip into any engine", "statement": "Reading the text written by a quasi-random engine into another engine of the type, of whatever dimension and position, makes it produce the same future outputs as the original; if reading throws, the engine stays usable.", "quantifier": "for all source and target states and dimensions", "why_tests_cant": "Depends on pairs of states of different dimensions.", "anchors": ["include/boost/random/detail/qrng_base.hpp: operator<<, operator>>", "include/boost/random/detail/gray_coded_qrng.hpp: seed"]}
{"id": "C48", "title": "Each Sobol coordinate is a permutation", "statement": "Over the complete sequence of 2^w - 1 vectors, each coordinate of a Sobol engine takes every value in [1, 2^w-1] exactly once.", "quantifier": "for all word sizes, all tables with odd initial values below 2^(k+1), every dimension", "why_tests_cant": "2^64 - 1 vectors cannot be enumerated.", "anchors": ["include/boost/random/sobol.hpp: sobol_lattice::resize", "include/boost/random/detail/gray_coded_qrng.hpp"]}
{"id": "C49", "title": "Integer/fraction pair used by the ziggurat tables is in bounds", "statement": "The pair (bucket, fraction) drawn for normal and exponential variates has 0 <= bucket < 2^w (so that table look-ups are in bounds) and 0 <= fraction < 1, and no undefined shift is evaluated.", "quantifier": "for all engine ranges, floating-point precisions, w and engine outputs", "why_tests_cant": "Depends on the residue of the precision modulo the engine width.", "anchors": ["include/boost/random/detail/int_float_pair.hpp: generate_int_float_pair, generate_one_digit"]}
{"id": "C50", "title": "bernoulli_distribution realises p to engine resolution", "statement": "bernoulli_distribution(p) returns true for exactly floor(p*R)+1 of the R+1 engine values when 0 < p <= 1 and for none when p = 0; so |P(true) - p| <= 1/(R+1), and p = 1 always gives true.", "quantifier": "for all engine ranges and p (exact arithmetic)", "why_tests_cant": "Counting over the complete engine range.", "anchors": ["include/boost/random/bernoulli_distribution.hpp: bernoulli_distribution::operator()"]}
{"id": "C51", "title": "Polynomial arithmetic over GF(2) is exact", "statement": "The polynomial helper used for jump-ahead computes exact products (schoolbook and Karatsuba agree with the mathematical product), squares and remainders of polynomials over GF(2), and x^n mod p.", "quantifier": "for all polynomial sizes, operands, exponents", "why_tests_cant": "Recursive splitting with unbounded depth on word arrays.", "anchors": ["include/boost/random/detail/polynomial.hpp: polynomial_ops::multiply, add_shifted_inplace, karatsuba, sqr, mod_pow_x"]}
{"id": "C52", "title": "piecewise_constant_distribution accesses only its own intervals", "statement": "Sampling a piecewise_constant_distribution only reads existing interval boundaries and returns a value between the first and last boundary, for every way of constructing the distribution; fewer than two boundaries is equivalent to the default distribution.", "quantifier": "for all boundary and weight lists", "why_tests_cant": "Depends on the lengths of user-provided lists.", "anchors": ["include/boost/random/piecewise_constant_distribution.hpp: constructors, param_type, operator()"]}
{"id": "C53", "title": "random_number_generator(n) returns values in [0,n)", "statement": "random_number_generator's call with n > 0 returns a value v with 0 <= v < n, and each value is equally likely for an equidistributed engine, as std::random_shuffle requires.", "quantifier": "for all n > 0, all engine ranges and outputs", "why_tests_cant": "All n and engine ranges.", "anchors": ["include/boost/random/random_number_generator.hpp: random_number_generator::operator()"]}
{"id": "C54", "title": "A seeded subtract-with-carry engine never gets stuck", "statement": "However the state table of a subtract-with-carry engine is seeded (including all-zero and all-ones tables), the engine never returns the same value r+1 times in a row, because the initial borrow (x[r-1]==0) keeps it out of the two constant states and no call leads into them.", "quantifier": "for all seed tables, all word sizes and lags, all numbers of preceding calls", "why_tests_cant": "Absence of a degenerate cycle at any distance from any seed.", "anchors": ["include/boost/random/subtract_with_carry.hpp: seed, do_update"]}
{"id": "C55", "title": "shuffle_order_engine uses the documented table index", "statement": "Each call of shuffle_order_engine returns table entry floor(k*(y-min)/(max-min+1)), where y is the previously returned value, and refills that entry with the next base value.", "quantifier": "for all base engines with results of at most 64 bits, all k and all states", "why_tests_cant": "The four arithmetic regimes are selected by the base range and k; the widest one needs 128-bit arithmetic and fails only for engines filling a 64-bit type.", "anchors": ["include/boost/random/shuffle_order.hpp: shuffle_order_engine::operator()", "include/boost/random/detail/large_arithmetic.hpp: muldiv"]}
{"id": "C56", "title": "Adaptor engines inherit comparison and text round trip from their bases", "statement": "If the base engines' operator== implies equal future output, so does the adaptor's; if base engines survive writing and reading, so do shuffle_order, discard_block, xor_combine and additive_combine engines, consuming exactly the text written.", "quantifier": "for all base engines, template parameters, states, target states and following text", "why_tests_cant": "All base engines and states.", "anchors": ["include/boost/random/shuffle_order.hpp: operator==, operator<<, operator>>", "include/boost/random/discard_block.hpp: operator==, operator<<, operator>>", "include/boost/random/xor_combine.hpp: operator==, operator<<, operator>>", "include/boost/random/additive_combine.hpp: operator==, operator<<, operator>>"]}
{"id": "C57", "title": "ecuyer1988 has period (m1-1)(m2-1)/2", "statement": "From every valid state, ecuyer1988 returns to that state after n calls if and only if n is a multiple of 2305842648436451838.", "quantifier": "for all states and all n", "why_tests_cant": "The period exceeds 2^60.", "anchors": ["include/boost/random/additive_combine.hpp: additive_combine_engine, ecuyer1988"]}
{"id": "C58", "title": "Hull-Dobell parameters give linear congruential engines full period", "statement": "A linear_congruential_engine with c relatively prime to m, a-1 divisible by every prime factor of m, and by 4 if m is, visits every state exactly once in m calls from any start; in particular the base engine of kreutzer1986.", "quantifier": "for all such parameters, all start states and all target states", "why_tests_cant": "Periods up to 2^64.", "anchors": ["include/boost/random/linear_congruential.hpp: linear_congruential_engine::operator()", "include/boost/random/shuffle_order.hpp: kreutzer1986"]}
{"id": "C59", "title": "linear_feedback_shift and taus88 state handling", "statement": "For linear_feedback_shift_engine, discard(z) equals z calls, engines comparing equal have the same future, and writing then reading restores the engine; every taus88 value is the exclusive or of the three component values at the same position and lies in [0, 2^32-1], no component ever being stuck at zero, and taus88 comparison and text are faithful.", "quantifier": "for all valid parameters, all states, all z, all trailing stream contents", "why_tests_cant": "2^96 states.", "anchors": ["include/boost/random/linear_feedback_shift.hpp: linear_feedback_shift_engine", "include/boost/random/taus88.hpp: taus88"]}
{"id": "C61", "title": "mixmax never reaches the zero vector", "statement": "The MIXMAX refill is injective modulo 2^61-1, so from a state whose vector is not zero modulo 2^61-1 no number of calls leads to a zero vector.", "quantifier": "for all sizes N, multipliers 2^mul+1, states and numbers of calls", "why_tests_cant": "(2^61-1)^17 states.", "anchors": ["include/boost/random/mixmax.hpp: iterate_raw_vec, operator()"]}
{"id": "C62", "title": "mixmax seeding skips exactly 2^512 * ID refills", "statement": "seed_uniquestream(cluster, machine, run, stream) never reads outside the skip table, leaves a well-formed state, and its vector equals the unit vector advanced by exactly 2^512 * (stream + 2^32 run + 2^64 machine + 2^96 cluster) applications of the MIXMAX matrix; row r of the table represents a skip of 2^(512+r). The seeded vector is not zero.", "quantifier": "for all 2^128 identifiers, all 2^64 seeds, all rows of the table", "why_tests_cant": "Skips of 2^512 steps cannot be executed; one wrong digit in 2176 table entries affects only identifiers with that bit set.", "anchors": ["include/boost/random/mixmax.hpp: apply_bigskip, fmodmulM61, seed_uniquestream", "include/boost/random/detail/mixmax_skip_N17.ipp"]}
{"id": "C63", "title": "Floating lagged Fibonacci engine is the integer engine scaled", "statement": "lagged_fibonacci_01_engine started from a table of multiples of 2^-w returns exactly X(n)/2^w where X is the integer lagged Fibonacci sequence mod 2^w: values stay in [0,1), no drift accumulates, and the text form restores the table exactly.", "quantifier": "for all w, lags 0<q<p, all tables of multiples of 2^-w and all numbers of calls (exact arithmetic)", "why_tests_cant": "A drift or an output of exactly 1 might show after any number of calls.", "anchors": ["include/boost/random/lagged_fibonacci.hpp: lagged_fibonacci_01_engine::operator(), fill, operator<<, operator>>"]}
{"id": "C64", "title": "generate_canonical stays in [0,1)", "statement": "generate_canonical<RealType,bits>(g) returns a value v with 0 <= v < 1, and evaluates no undefined operation.", "quantifier": "for all engine ranges, precisions, numbers of bits, roundings of the arithmetic, and engine outputs", "why_tests_cant": "The greatest results need several consecutive maximal engine values, and depend on the rounding of sums and products of unusual ranges.", "anchors": ["include/boost/random/generate_canonical.hpp: generate_canonical, generate_canonical_impl"]}
{"id": "C65", "title": "uniform_01 and uniform_real_distribution stay in their half-open interval", "statement": "uniform_01 returns values in [0,1) and uniform_real_distribution(a,b) values in [a,b), for any rounding of the arithmetic; and there is an engine value that ends their rejection loops.", "quantifier": "for all engine ranges, bounds, precisions and roundings", "why_tests_cant": "The upper bound is only reached by rounding at extreme engine values.", "anchors": ["include/boost/random/uniform_01.hpp: operator()", "include/boost/random/uniform_real_distribution.hpp: detail::generate_uniform_real"]}
{"id": "C67", "title": "Integer/fraction pair is uniform", "statement": "Every pair (N/2^digits, k) with N < 2^digits and k < 2^w is produced by generate_int_float_pair from the same number of sequences of engine values.", "quantifier": "for all engine ranges, precisions and w", "why_tests_cant": "Exact uniformity over 2^61 pairs cannot be sampled.", "anchors": ["include/boost/random/detail/int_float_pair.hpp: generate_int_float_pair, generate_one_digit"]}
{"id": "C66", "title": "Niederreiter points form nets", "statement": "For a Niederreiter base 2 engine of dimension s whose table holds distinct irreducible polynomials of degrees e_1..e_s, the complete sequence with the zero point put in front is a digital (t,s)-sequence: in every aligned block of 2^M points every box with sides of k_d*e_d leading bits in coordinate d, in total at most M bits, holds exactly 2^(M - sum k_d e_d) points. The constructor throws exactly for unsupported dimensions.", "quantifier": "for all word sizes w <= 64, all tables of distinct irreducible polynomials, all dimensions, all blocks and boxes", "why_tests_cant": "There are 2^64 points in up to 4720 dimensions and exponentially many boxes.", "anchors": ["include/boost/random/niederreiter_base2.hpp: modulo2_multiply, calculate_v, niederreiter_base2_lattice::resize", "include/boost/random/detail/gray_coded_qrng.hpp"]}
{"id": "C68", "title": "Each Niederreiter coordinate is a permutation", "statement": "Over the complete sequence of 2^w - 1 vectors, each coordinate of a Niederreiter engine takes every value in [1, 2^w-1] exactly once.", "quantifier": "for all word sizes, all tables of irreducible polynomials, every dimension and coordinate", "why_tests_cant": "2^64 - 1 vectors cannot be enumerated.", "anchors": ["include/boost/random/niederreiter_base2.hpp: calculate_v, niederreiter_base2_lattice::resize"]}
{"id": "C69", "title": "The default Niederreiter table is complete", "statement": "The default table holds, in ascending order, exactly the irreducible polynomials over GF(2) of degree at most 15; there are 4720.", "quantifier": "for all polynomials of degree at most 15 and all table entries", "why_tests_cant": "No test checks irreducibility of the entries or that none is left out.", "anchors": ["include/boost/random/detail/niederreiter_base2_table.hpp", "include/boost/random/niederreiter_base2.hpp: closing comment"]}
{"id": "C70", "title": "Faure engine returns Faure's sequence", "statement": "The constructor throws exactly for dimension 0 and dimensions above 1117; otherwise the base is the least prime not below the dimension. From every state that can be reached, the values returned are the coordinates of Faure's sequence in that base from the position on: the digits of coordinate d of point n are the sums of C(j,i) d^(j-i) a_j modulo the base, exactly with floating-point numbers of at least 24 bits in any rounding mode, only the final sums being rounded; whatever was cached from earlier calls does not matter.", "quantifier": "for all dimensions, all reachable states, all 64-bit sequence numbers, all rounding modes", "why_tests_cant": "Validation compares a few vectors; the cache of coefficients, ytemp and qs_pow carries over between points of different lengths, and seeds, discards and reads interleave.", "anchors": ["include/boost/random/faure.hpp: default_faure_prime_table, integer_log, integer_pow, binomial_coefficients", "include/boost/random/detail/qrng_base.hpp"]}
{"id": "C71", "title": "Faure values lie in [min(), max()]", "statement": "Every value returned by a Faure engine lies in [min(), max()] = [0, 1].", "quantifier": "for all dimensions, sequence numbers and coordinates", "why_tests_cant": "The sum of rounded quotients exceeds 1 only for rare digit patterns far out in the sequence.", "anchors": ["include/boost/random/faure.hpp: min, max, binomial_coefficients::update, compute_recip"]}
{"id": "C72", "title": "Faure points form (0,s)-nets in base b", "statement": "In exact arithmetic, for every c and M, of the points c*b^M to (c+1)*b^M - 1 exactly one lies in each elementary box of volume b^-M (sides powers of 1/b, in all dimensions). The engine returns values up to the end of its counter and then throws.", "quantifier": "for all dimensions up to 1117, all M, c, boxes", "why_tests_cant": "Number of boxes is exponential in the dimension.", "anchors": ["include/boost/random/faure.hpp: binomial_coefficients"]}
{"id": "C73", "title": "Binomial inversion computes the binomial quantile", "statement": "In exact arithmetic, when (t+1)*min(p,1-p) < 11, binomial_distribution takes one value u of uniform_01; the number of the less probable outcomes is the least whose cumulative probability is at least u (or the first whose probability is below epsilon and falling). The values of u giving k have measure C(t,k) p^k (1-p)^(t-k).", "quantifier": "for all t, p, u, widths of IntType", "why_tests_cant": "A statistical test on one t and p cannot separate the exact law from one off by a rounding of the recurrence; t and p range over infinite sets.", "anchors": ["include/boost/random/binomial_distribution.hpp: init, invert, operator()"]}
{"id": "C74", "title": "Binomial inversion stays in range under rounding", "statement": "With rounding to nearest the inversion loop ends without overflow and its result is from 0 to t.", "quantifier": "for all precisions, roundings to nearest, library functions, t, p, u", "why_tests_cant": "The failing u are within one unit of 1; random testing does not draw them.", "anchors": ["include/boost/random/binomial_distribution.hpp: invert"]}
{"id": "C75", "title": "Binomial rejection returns numbers from 0 to t without undefined behaviour", "statement": "In exact arithmetic, when (t+1)*min(p,1-p) >= 11, each number returned by the transformed rejection method is from min() to max(), the immediate acceptance region needs one value and stays in range, and no conversion to IntType is out of range.", "quantifier": "for all t, p, sequences of values of uniform_01", "why_tests_cant": "The out-of-range conversion needs a second value below about 2^-33.", "anchors": ["include/boost/random/binomial_distribution.hpp: init, generate"]}
{"id": "C76", "title": "Binomial rejection tests candidates against the binomial probabilities", "statement": "A candidate k is accepted exactly when v <= P(k)/P(m): the product loops near the mode compute the ratio exactly, and the last comparison far from the mode computes its logarithm up to 1.3e-10 (table and series for the error of Stirling's formula).", "quantifier": "for all t, p, m, k, v", "why_tests_cant": "An error of 1e-10 in the logarithm of a probability, or a wrong digit of the table, is invisible to a statistical test.", "anchors": ["include/boost/random/binomial_distribution.hpp: fc, generate, binomial_table"]}
{"id": "C77", "title": "Poisson inversion computes the Poisson quantile", "statement": "For mean < 10 the distribution takes one value u of uniform_01 and returns the least k whose cumulative probability is at least u; the values of u giving k have measure e^-mean mean^k / k!. The loop ends.", "quantifier": "for all means below 10, all u", "why_tests_cant": "The values of u for which the rounded loop does not end are those next to 1, for some means only.", "anchors": ["include/boost/random/poisson_distribution.hpp: init, invert, operator()"]}
{"id": "C78", "title": "Poisson rejection returns non-negative numbers and tests against the Poisson probabilities", "statement": "For mean >= 10, in exact arithmetic, every number returned is from min() to max(), the immediate acceptance region needs one value, and a candidate k is accepted exactly when v <= e^-mean mean^k / k!, up to a factor of 1 +- 6e-11. No conversion to IntType is out of range.", "quantifier": "for all means of at least 10, all sequences of values of uniform_01, all candidates", "why_tests_cant": "As C76.", "anchors": ["include/boost/random/poisson_distribution.hpp: generate, poisson_table, log_factorial"]}
{"id": "C79", "title": "Geometric distribution inverts the geometric law", "statement": "In exact arithmetic geometric_distribution(p) takes one value u and returns the k with (1-p)^(k+1) < 1-u <= (1-p)^k; the values of u giving k have measure p (1-p)^k. The deprecated class has the law (1-p) p^(i-1). No undefined behaviour.", "quantifier": "for all p, u, widths of IntType", "why_tests_cant": "For small p the failing conversions depend on p and the width.", "anchors": ["include/boost/random/geometric_distribution.hpp: operator(), init, boost::geometric_distribution"]}
{"id": "C80", "title": "The ziggurat tables lie on the curve and cut it into equal areas", "statement": "The tables of exponential_distribution (257 entries) and normal_distribution (129 entries) are strictly monotone from and to the right end points, table_y[i] = f(table_x[i]) up to 5e-20, all layers have equal area up to 1e-19, and the part of layer 0 beyond table_x[1] has the area of the tail.", "quantifier": "for all indices of the tables, f over the reals", "why_tests_cant": "A wrong digit in one of 772 literals changes the distribution by less than a statistical test can see.", "anchors": ["include/boost/random/exponential_distribution.hpp: exponential_table", "include/boost/random/normal_distribution.hpp: normal_table"]}
{"id": "C81", "title": "The squeeze tests of the ziggurat do not change the outcome", "statement": "In exact arithmetic a point of a layer is accepted iff it is below the curve, up to 1e-19: the chord and the tangent, whose roles change at the point of inflection of the normal curve, decide only cases that the exponential function would decide in the same way.", "quantifier": "for all layers, all points of the layer", "why_tests_cant": "A wrong squeeze affects only a sliver between chord, curve and tangent.", "anchors": ["include/boost/random/exponential_distribution.hpp: unit_exponential_distribution::operator()", "include/boost/random/normal_distribution.hpp: unit_normal_distribution::operator()"]}
{"id": "C82", "title": "exponential_distribution has the exponential law", "statement": "In exact arithmetic, with independent uniform numbers, P(value <= t within n iterations) equals the distribution function of the exponential distribution up to 2e-15 + 50^-n.", "quantifier": "for all lambda > 0, all t, all n", "why_tests_cant": "Statistical tests have a resolution of about 1e-4.", "anchors": ["include/boost/random/exponential_distribution.hpp: unit_exponential_distribution::operator(), operator()"]}
{"id": "C83", "title": "normal_distribution has the normal law", "statement": "In exact arithmetic, with independent uniform and exponential numbers, P(value <= t within n iterations) equals the distribution function of the normal distribution with that mean and sigma up to 1e-15 + 10^-n.", "quantifier": "for all means, sigma > 0, all t, all n", "why_tests_cant": "As C82.", "anchors": ["include/boost/random/normal_distribution.hpp: unit_normal_distribution::operator(), generate_tail, operator()"]}
{"id": "C84", "title": "The tail of the normal distribution is exact", "statement": "In exact arithmetic, with independent exponential numbers, generate_tail returns within n iterations with probability 1-(1-q)^n for a q >= 9/10, and its value has exactly the law of a normal variable conditioned to exceed table_x[1].", "quantifier": "for all t, all n", "why_tests_cant": "The tail is entered once in 1800 calls.", "anchors": ["include/boost/random/normal_distribution.hpp: unit_normal_distribution::generate_tail"]}
{"id": "C85", "title": "The ziggurat distributions have no undefined behaviour with a real engine", "statement": "With any engine (an integer type with min < max), any rounding of double and any functions exp, log, no table is read beyond its end, no shift is illegal, exponential values are not negative, and the tail of the normal distribution is not below table_x[1].", "quantifier": "for all engines, all sequences of engine values, all parameters, all roundings", "why_tests_cant": "The end of the table is read only for layer 255 or 127 and a rejected point.", "anchors": ["include/boost/random/exponential_distribution.hpp: operator()", "include/boost/random/normal_distribution.hpp: operator()"]}
{"id": "C86", "title": "cauchy_distribution has the Cauchy law and stays clear of the poles of the tangent", "statement": "In exact arithmetic with the literal pi of the code P(value <= t) equals the Cauchy distribution function up to 1e-20; with rounding of double to nearest the argument of tan lies strictly between -pi/2 and pi/2 for every value of uniform_01.", "quantifier": "for all medians, sigma > 0, all t; all u in [0,1)", "why_tests_cant": "The pole would be met for at most one value in 2^53.", "anchors": ["include/boost/random/cauchy_distribution.hpp: operator()"]}
{"id": "C87", "title": "weibull_distribution has the Weibull law and no negative values", "statement": "In exact arithmetic P(value <= t) = 1 - exp(-(t/b)^a); with any rounding and engine the logarithm is taken of a number in (0,1] and the value is at least min() = 0.", "quantifier": "for all a, b > 0, all t; all engines and sequences of their values", "why_tests_cant": "log(0) would need uniform_01 to be 1 - 2^-54 or more.", "anchors": ["include/boost/random/weibull_distribution.hpp: operator()"]}
{"id": "C88", "title": "extreme_value_distribution has the Gumbel law; it returns minus infinity exactly for a zero of uniform_01", "statement": "In exact arithmetic P(value <= t) = exp(-exp((a-t)/b)); with any rounding and engine the value is a number or minus infinity, and minus infinity does occur, with mt19937 when its value is 0.", "quantifier": "for all a, b > 0, all t; all engines and sequences of their values", "why_tests_cant": "A zero occurs once in 2^32 values.", "anchors": ["include/boost/random/extreme_value_distribution.hpp: operator()"]}
{"id": "C89", "title": "triangle_distribution has the triangle law", "statement": "In exact arithmetic P(value <= t) is the distribution function of the triangle distribution, including modes at the ends, although the second half is traversed downwards.", "quantifier": "for all a <= b <= c, a < c, all t", "why_tests_cant": "The ends b = a and b = c divide by small numbers; statistical resolution.", "anchors": ["include/boost/random/triangle_distribution.hpp: operator(), init"]}
{"id": "C90", "title": "triangle_distribution returns numbers between min() and max()", "statement": "With any rounding every value is a number (no square root of a negative number, also when a = b = c makes q1 not a number), and min() <= value <= max().", "quantifier": "for all representable a <= b <= c and u", "why_tests_cant": "The violation needs u at its greatest value and a particular rounding of c - a.", "anchors": ["include/boost/random/triangle_distribution.hpp: operator(), init, min, max"]}
{"id": "C91", "title": "laplace_distribution has the Laplace law", "statement": "In exact arithmetic with ideal exponential and uniform numbers P(value <= t) is the Laplace distribution function.", "quantifier": "for all means, beta > 0, all t", "why_tests_cant": "Statistical resolution.", "anchors": ["include/boost/random/laplace_distribution.hpp: operator()"]}
{"id": "C92", "title": "Both lognormal distributions have their laws", "statement": "In exact arithmetic with ideal normal numbers random::lognormal_distribution(m, s) has the law of exp(N(m, s^2)); the values of the deprecated boost::lognormal_distribution(mean, sigma) have a lognormal law with mean `mean` and standard deviation `sigma`.", "quantifier": "for all parameters (mean > 0), all t", "why_tests_cant": "Statistical resolution; the deprecated class is not tested.", "anchors": ["include/boost/random/lognormal_distribution.hpp: operator(), init"]}
{"id": "C93", "title": "gamma_distribution has the gamma law", "statement": "In exact arithmetic on independent uniform numbers, with the literal pi of the code, the probability that the value is at most t equals the gamma distribution function with shape alpha and scale beta, up to 2e-19 for alpha > 1 (the part the literal cuts off), exactly for alpha <= 1, and up to the probability (23/24)^m that m iterations accept nothing; below shape 1 every iteration accepts with the same probability of at least 1/4.", "quantifier": "for all alpha > 0, beta > 0, all t, any number of iterations", "why_tests_cant": "Statistical tests resolve about 1e-3; the claim is an identity of measures for every pair of parameters.", "anchors": ["include/boost/random/gamma_distribution.hpp: operator(), init"]}
{"id": "C94", "title": "gamma_distribution stays in the domain of the functions it calls and never returns a negative number", "statement": "With any rounding the logarithms are taken of positive numbers, the roots of numbers that are not negative, the powers of numbers at least 1; the values of gamma_distribution and chi_squared_distribution are at least min() = 0.", "quantifier": "for all parameters, all engines and sequences of their values, all roundings", "why_tests_cant": "The candidates at the edge of the domain occur once in 2^32 or 2^53 draws.", "anchors": ["include/boost/random/gamma_distribution.hpp: operator()", "include/boost/random/chi_squared_distribution.hpp: operator()"]}
{"id": "C95", "title": "chi_squared_distribution and non_central_chi_squared_distribution have their laws", "statement": "In exact arithmetic with ideal gamma, normal and Poisson numbers the values follow the chi-squared distribution, and the noncentral one (the Poisson mixture of chi-squared distributions) by both of its methods, k > 1 and k <= 1.", "quantifier": "for all degrees of freedom > 0, all lambda > 0, all t", "why_tests_cant": "Statistical resolution; the two methods must agree at every k.", "anchors": ["include/boost/random/chi_squared_distribution.hpp: operator()", "include/boost/random/non_central_chi_squared_distribution.hpp: operator()"]}
{"id": "C96", "title": "beta_distribution has the beta law", "statement": "In exact arithmetic with ideal gamma numbers P(value <= t) is that of the beta distribution.", "quantifier": "for all alpha, beta > 0, all t", "why_tests_cant": "Statistical resolution.", "anchors": ["include/boost/random/beta_distribution.hpp: operator()"]}
{"id": "C97", "title": "fisher_f_distribution has the F law", "statement": "In exact arithmetic with ideal gamma numbers P(value <= t) is that of the F distribution with m and n degrees of freedom, in either order of the two calls.", "quantifier": "for all m, n > 0, all t", "why_tests_cant": "Statistical resolution.", "anchors": ["include/boost/random/fisher_f_distribution.hpp: operator()"]}
{"id": "C98", "title": "student_t_distribution has Student's law", "statement": "In exact arithmetic with ideal normal and gamma numbers P(value <= t) is that of Student's t distribution, in either order of the two calls.", "quantifier": "for all n > 0, all t", "why_tests_cant": "Statistical resolution.", "anchors": ["include/boost/random/student_t_distribution.hpp: operator()"]}
{"id": "C99", "title": "negative_binomial_distribution has the negative binomial law", "statement": "In exact arithmetic with ideal gamma and Poisson numbers the value is j with probability binom(k+j-1, j) p^k (1-p)^j.", "quantifier": "for all k > 0, 0 < p < 1, all j", "why_tests_cant": "Statistical resolution.", "anchors": ["include/boost/random/negative_binomial_distribution.hpp: operator()"]}
{"id": "C100", "title": "beta, F and Student's t distributions return numbers in their range", "statement": "For parameters allowed by the documentation every value of beta_distribution is a number in [0,1], every value of fisher_f_distribution a number that is not negative, every value of student_t_distribution a number.", "quantifier": "for all allowed parameters, all engines and sequences of their values", "why_tests_cant": "The tests use shapes of about 1, for which a gamma number is zero once in 2^53 draws; the violation needs small shapes or rare zeros.", "anchors": ["include/boost/random/beta_distribution.hpp: operator()", "include/boost/random/fisher_f_distribution.hpp: operator()", "include/boost/random/student_t_distribution.hpp: operator()"]}
{"id": "C101", "title": "The value of fisher_f_distribution and student_t_distribution is determined by the engine", "statement": "The same engine state and the same parameters give the same value with every compiler.", "quantifier": "for all parameters and sequences of the engine, for all orders of evaluation the language allows", "why_tests_cant": "A test sees one compiler's order of evaluation.", "anchors": ["include/boost/random/fisher_f_distribution.hpp: operator()", "include/boost/random/student_t_distribution.hpp: operator()"]}
{"id": "C102", "title": "negative_binomial_distribution works for all documented parameters", "statement": "For k >= 0 and 0 <= p <= 1 no assertion of the distributions used inside fails.", "quantifier": "for all documented parameters and all sequences of the engine", "why_tests_cant": "The tests draw parameters at random inside the range; a zero of the gamma number occurs once in 2^32 or more.", "anchors": ["include/boost/random/negative_binomial_distribution.hpp: operator()"]}
{"id": "C103", "title": "piecewise_constant_distribution has a constant density on each interval", "statement": "In exact arithmetic on uniform numbers the values follow the mixture of the uniform distributions on the intervals with probabilities proportional to the weights, for every constructor and after param(parm).", "quantifier": "for all increasing boundaries and all weights that are not negative and not all zero, all thresholds", "why_tests_cant": "The tests compare a histogram for one set of random boundaries with a tolerance.", "anchors": ["include/boost/random/piecewise_constant_distribution.hpp: operator()", "include/boost/random/discrete_distribution.hpp: operator()"]}
{"id": "C104", "title": "piecewise_linear_distribution has the polygon as density", "statement": "In exact arithmetic on uniform numbers the values have a density proportional to the polygon through the given points, for every constructor and after param(parm); densities() are the weights scaled to area one; param() gives the boundaries and weights back; fewer than two boundaries give the uniform distribution on [0,1).", "quantifier": "for all increasing boundaries and all weights that are not negative and not all zero, all functions, all thresholds", "why_tests_cant": "A histogram test does not see a wrong half of a triangle in one bin, nor all shapes of the polygon.", "anchors": ["include/boost/random/piecewise_linear_distribution.hpp: operator(), init, densities, param"]}
{"id": "C105", "title": "piecewise_linear_distribution stays where its density is not zero", "statement": "With any rounding no access is outside a vector and every value lies in an interval at whose ends not both weights are zero, so in [first boundary, last boundary).", "quantifier": "for all valid boundaries and weights, all engines and sequences of their values", "why_tests_cant": "Rounding can move a value over a boundary only for rare engine values.", "anchors": ["include/boost/random/piecewise_linear_distribution.hpp: operator(), init"]}
{"id": "C106", "title": "hyperexponential_distribution is the mixture of exponential distributions", "statement": "In exact arithmetic on uniform and exponential numbers the values follow the mixture of exponential distributions with the given rates and with probabilities proportional to the given ones; the rates alone give equal probabilities; param() has the probabilities divided by their sum.", "quantifier": "for all probabilities that are not negative and not all zero, all positive rates, all thresholds", "why_tests_cant": "The tests compare samples of one mixture with a tolerance.", "anchors": ["include/boost/random/hyperexponential_distribution.hpp: operator(), constructors, param"]}
{"id": "C107", "title": "hyperexponential_distribution gives numbers that are not negative, and accepts just the valid parameters", "statement": "With any rounding no access is outside a vector and no value is negative; the assertion of the constructors holds just when there are as many rates as probabilities and all rates are positive.", "quantifier": "for all valid parameters, all engines and sequences of their values", "why_tests_cant": "The index comes from an alias table over all sizes.", "anchors": ["include/boost/random/hyperexponential_distribution.hpp: operator(), check_params"]}
{"id": "C108", "title": "normalize of hyperexponential_distribution makes probabilities that sum to one", "statement": "The result of normalize are probabilities: not negative, at most one, with the rounded sum exactly one, and normalizing again changes nothing; every constructor of param_type normalizes, so that the assertion holds for all valid arguments.", "quantifier": "for all lists of weights that are not negative and not all zero", "why_tests_cant": "The rounded sum of the first n-1 quotients exceeds one only for particular weights.", "anchors": ["include/boost/random/hyperexponential_distribution.hpp: hyperexp_detail::normalize, param_type"]}
{"id": "C109", "title": "uniform_on_sphere is uniform on the unit sphere", "statement": "In exact arithmetic on uniform and normal numbers the probability that a result lies in a measurable set is that of the rotation invariant probability on the unit sphere, in every dimension; the loop of dimensions 2 and 3 is left with probability 1 - (1 - pi/4)^n within n iterations.", "quantifier": "for all dimensions, all measurable sets, all numbers of iterations, all earlier contents of the container", "why_tests_cant": "The tests look at one dimension at a time and at the distribution of one coordinate with a tolerance; they do not see dependences in high dimensions.", "anchors": ["include/boost/random/uniform_on_sphere.hpp: operator()"]}
{"id": "C110", "title": "Every result of uniform_on_sphere has norm one", "statement": "In exact arithmetic every result has as many coordinates as the dimension and the sum of their squares is 1.", "quantifier": "for all dimensions, all sources of numbers", "why_tests_cant": "All dimensions and all values of the engine.", "anchors": ["include/boost/random/uniform_on_sphere.hpp: operator()"]}
{"id": "C111", "title": "Every result of uniform_on_sphere has norm one up to rounding", "statement": "In floating-point arithmetic with 53 bits the sum of the squares of the coordinates differs from 1 by at most (dim + 7) 2^-52.", "quantifier": "for all dimensions, all sources of numbers, all roundings to nearest", "why_tests_cant": "The error is a worst case over all values of the engine.", "anchors": ["include/boost/random/uniform_on_sphere.hpp: operator()"]}
{"id": "C112", "title": "Results of uniform_on_sphere lie between min() and max()", "statement": "In the lexicographical order of std::vector every result is at least min() and at most max(); so each coordinate is between -1 and 1.", "quantifier": "for all dimensions, all engines and sequences of their values", "why_tests_cant": "The order is violated for a few of 2^64 pairs of engine values.", "anchors": ["include/boost/random/uniform_on_sphere.hpp: min, max, operator()"]}
{"id": "C113", "title": "The state of uniform_on_sphere is its dimension", "statement": "Constructors, param(parm) and operator>> set the dimension and make a container of that size; calls keep both; equal objects produce the same sequences; operator()(eng, parm) is the call of an object with that parameter; what operator<< writes operator>> reads back.", "quantifier": "for all dimensions, all objects, all engines and sequences of their values", "why_tests_cant": "All dimensions before and after, all contents of the container.", "anchors": ["include/boost/random/uniform_on_sphere.hpp: constructors, param, operator>>, operator<<, operator==, operator()"]}
{"id": "C114", "title": "uniform_on_sphere does not write outside of its container", "statement": "No call writes outside of the container or takes a square root of a negative number.", "quantifier": "for all dimensions, all engines for which uniform_01 and the normal distribution are safe, and all sequences of their values", "why_tests_cant": "A square root of a negative number would need a rare rounding.", "anchors": ["include/boost/random/uniform_on_sphere.hpp: operator()"]}
{"id": "C115", "title": "uniform_int_distribution on an engine with real results", "statement": "uniform_int_float turns a value x of an engine of w bits into floor(x 2^w), without undefined conversion; so uniform_int_distribution on such an engine does what it does on an integral engine with the same bits: values in [min, max], all equally likely.", "quantifier": "for all word sizes up to the precision, all integer types and bounds, all sequences of engine values, all roundings", "why_tests_cant": "All engine values, types and bounds; the tests use a few engines and small ranges.", "anchors": ["include/boost/random/detail/uniform_int_float.hpp: uniform_int_float", "include/boost/random/uniform_int_distribution.hpp: generate_uniform_int(false_type)", "include/boost/random/detail/generator_bits.hpp: generator_bits"]}
{"id": "C116", "title": "uniform_smallint on an engine with real results stays in its range", "statement": "The conversion to the unsigned type is defined, one engine value is read, the result lies in [min, max], 0 gives min, and larger engine values give larger results.", "quantifier": "for all precisions, all integer types and bounds, all engine values, all roundings to nearest", "why_tests_cant": "The dangerous cases are bounds near the ends of 64-bit types together with engine values next to 1.", "anchors": ["include/boost/random/uniform_smallint.hpp: generate(false_type)"]}
{"id": "C117", "title": "The quantization of uniform_smallint on an engine with real results is the documented one", "statement": "If the bits of the range and of the engine together fit the precision, the numbers of engine values giving the various results differ by at most one, and the quantization sum is r_out/r_base^2 (r_base mod r_out)(r_out - r_base mod r_out).", "quantifier": "for all precisions, word sizes, integer types and bounds meeting the condition", "why_tests_cant": "It is a count over all 2^48 engine values.", "anchors": ["include/boost/random/uniform_smallint.hpp: generate(false_type)"]}
{"id": "C118", "title": "uniform_01 and uniform_real_distribution on an engine with real results", "statement": "uniform_01 returns values in [0, 1) and passes a value of the result type on unchanged, so that all 2^w values are equally likely; uniform_real_distribution returns values in [lo, hi), affine in the engine value in exact arithmetic.", "quantifier": "for all precisions of engine and result, all bounds, all sequences of engine values, all roundings", "why_tests_cant": "Values that round to 1 are one in 2^25 for float results of 48-bit engines.", "anchors": ["include/boost/random/uniform_01.hpp: new_uniform_01::operator()", "include/boost/random/uniform_real_distribution.hpp: generate_uniform_real(false_type)"]}
{"id": "C119", "title": "generate_canonical on an engine with real results is uniform with the asked number of bits", "statement": "The result lies in [0, 1), is uniformly distributed and has at least `bits` random bits.", "quantifier": "for all precisions, numbers of bits and word sizes, all engine values, all roundings", "why_tests_cant": "No test instantiates it with an engine with real results.", "anchors": ["include/boost/random/generate_canonical.hpp: generate_canonical_impl(false_type), generate_canonical"]}
{"id": "C120", "title": "bernoulli_distribution on an engine with real results", "statement": "Of the 2^w engine values exactly min(2^w, floor(p 2^w) + 1) give true, so that the probability of true is p up to 2^-w; p = 0 reads nothing and gives false, p = 1 gives true.", "quantifier": "for all precisions and word sizes, all p, all roundings", "why_tests_cant": "It is a count over all 2^48 engine values.", "anchors": ["include/boost/random/bernoulli_distribution.hpp: operator()"]}
{"id": "C121", "title": "generate_int_float_pair on an engine with real results", "statement": "The integer is in [0, 2^w), the fraction in [0, 1), no undefined behaviour; the integer is the leading bits of one engine value and the fraction the next one, so that all pairs are equally likely.", "quantifier": "for all precisions and word sizes, all sequences of engine values, all roundings", "why_tests_cant": "All pairs of 2^48 values.", "anchors": ["include/boost/random/detail/int_float_pair.hpp: generate_int_float_pair(false_type)"]}
{"id": "C122", "title": "subtract_with_carry_01 returns the subtract-with-carry sequence divided by 2^w", "statement": "The values are X(r)/2^w, X(r+1)/2^w, ... of the integer recurrence, without rounding error; each is a multiple of 2^-w in [0, 1). Seeding from words reads exactly r ceil(w/32) of them, and a seeded engine never returns one value r + 1 times in a row.", "quantifier": "for all template arguments with 0 < s < r and w at most the precision, all states, all roundings, any number of calls", "why_tests_cant": "One rounded subtraction in 2^48 states would spoil the sequence for ever; tests compare one value per engine.", "anchors": ["include/boost/random/subtract_with_carry.hpp: subtract_with_carry_01_engine::operator()", "include/boost/random/subtract_with_carry.hpp: subtract_with_carry_01_engine::do_update", "include/boost/random/subtract_with_carry.hpp: subtract_with_carry_01_engine::seed"]}
{"id": "C123", "title": "discard(z) of subtract_with_carry_01 equals z calls", "statement": "discard(z) gives the state after z calls of operator().", "quantifier": "for all states, all z", "why_tests_cant": "All positions and all z; the tests use one start and one z.", "anchors": ["include/boost/random/subtract_with_carry.hpp: subtract_with_carry_discard::apply", "include/boost/random/subtract_with_carry.hpp: subtract_with_carry_01_engine::discard"]}
{"id": "C124", "title": "Equal subtract_with_carry_01 engines have equal futures", "statement": "Two engines that compare equal return the same values for ever.", "quantifier": "for all pairs of states", "why_tests_cant": "States that differ in the borrow only are not met by comparing engines with the same history.", "anchors": ["include/boost/random/subtract_with_carry.hpp: subtract_with_carry_01_engine::operator=="]}
{"id": "C125", "title": "Text round trip of subtract_with_carry_01", "statement": "Writing a state and reading it back into any engine object gives an engine that compares equal and has the same future; the rest of the stream is left alone.", "quantifier": "for all states, all target objects, all following tokens", "why_tests_cant": "All states, including those with values next to 2^w.", "anchors": ["include/boost/random/subtract_with_carry.hpp: subtract_with_carry_01_engine::operator<<", "include/boost/random/subtract_with_carry.hpp: subtract_with_carry_01_engine::operator>>"]}
{"id": "C126", "title": "The ten ranlux engines", "statement": "Each returns, from every state of its base, the first r of every p values of the subtract-with-carry sequence (divided by 2^w for the _01 engines); text round trips restore them; discard(z) equals z calls; equal engines have equal futures.", "quantifier": "for all ten engines, all states, any number of calls, all roundings", "why_tests_cant": "All states and all positions within a block.", "anchors": ["include/boost/random/ranlux.hpp", "include/boost/random/discard_block.hpp", "include/boost/random/subtract_with_carry.hpp"]}
{"id": "C127", "title": "The period of the subtract-with-carry and ranlux engines", "statement": "If m = b^r - b^s + 1 is prime, b = 2^w, the values returned from any state but the two degenerate ones repeat after P calls exactly if b^P = 1 mod m. The period of ranlux24_base is (2^576 - 2^240)/48, that of ranlux48_base (2^576 - 2^240)/96, and ranlux3, ranlux4, ranlux24, ranlux48, ranlux3_01, ranlux4_01 have r times that period, from every seed.", "quantifier": "for all states that are not degenerate, all seed tables, all lags and word sizes with prime modulus", "why_tests_cant": "The periods are above 2^570.", "anchors": ["include/boost/random/subtract_with_carry.hpp: operator(), do_update, seed", "include/boost/random/ranlux.hpp", "include/boost/random/discard_block.hpp: operator()"]}
{"id": "C128", "title": "Binomial rejection has the binomial law", "statement": "In one round of the transformed rejection method, the pairs of values of uniform_01 for which j is returned have the area P(j)/(P(m) alpha), alpha and the other constants being the published ones of algorithm BTRD; the positions and heights of the candidates are uniform.", "quantifier": "for all t, p with (t+1) min(p,1-p) >= 11, all j, all measurable sets of candidates", "why_tests_cant": "A statistical test with finitely many samples sees neither small errors of the law nor all parameters.", "anchors": ["include/boost/random/binomial_distribution.hpp: init, generate"]}
{"id": "C129", "title": "Poisson rejection has the Poisson law", "statement": "In one round of the transformed rejection method, the pairs of values of uniform_01 for which k is returned have the area P(k) alpha, up to a factor of 1 +- 6e-11, the constants being the published ones of algorithm PTRD.", "quantifier": "for all means from 10 on, all k that fit in IntType", "why_tests_cant": "A statistical test with finitely many samples sees neither small errors of the law nor all parameters.", "anchors": ["include/boost/random/poisson_distribution.hpp: init, generate"]}
{"id": "C130", "title": "Text round trip of distributions", "statement": "A distribution written with operator<< and read with operator>> into any other object of the type makes that object equal in all members, also the computed ones, and what follows the text remains to be read.", "quantifier": "for all 24 distributions without vectors, all representable parameters, all old objects, all following texts", "why_tests_cant": "Which digits are lost, or which texts are accepted, depends on the values; the tests try a few values with a text that is exact.", "anchors": ["include/boost/random/bernoulli_distribution.hpp: operator<<, operator>>", "include/boost/random/beta_distribution.hpp: operator<<, operator>>", "include/boost/random/binomial_distribution.hpp: operator<<, operator>>", "include/boost/random/cauchy_distribution.hpp: operator<<, operator>>", "include/boost/random/chi_squared_distribution.hpp: operator<<, operator>>", "include/boost/random/exponential_distribution.hpp: operator<<, operator>>", "include/boost/random/extreme_value_distribution.hpp: operator<<, operator>>", "include/boost/random/fisher_f_distribution.hpp: operator<<, operator>>", "include/boost/random/gamma_distribution.hpp: operator<<, operator>>", "include/boost/random/geometric_distribution.hpp: operator<<, operator>>", "include/boost/random/laplace_distribution.hpp: operator<<, operator>>", "include/boost/random/lognormal_distribution.hpp: operator<<, operator>>", "include/boost/random/negative_binomial_distribution.hpp: operator<<, operator>>", "include/boost/random/non_central_chi_squared_distribution.hpp: operator<<, operator>>", "include/boost/random/normal_distribution.hpp: operator<<, operator>>", "include/boost/random/poisson_distribution.hpp: operator<<, operator>>", "include/boost/random/student_t_distribution.hpp: operator<<, operator>>", "include/boost/random/triangle_distribution.hpp: operator<<, operator>>", "include/boost/random/uniform_int_distribution.hpp: operator<<, operator>>", "include/boost/random/uniform_real_distribution.hpp: operator<<, operator>>", "include/boost/random/uniform_smallint.hpp: operator<<, operator>>", "include/boost/random/weibull_distribution.hpp: operator<<, operator>>"]}
{"id": "C131", "title": "A failed read changes nothing", "statement": "If operator>> sets failbit the distribution is as before; if the stream had failed before, nothing is taken from it and nothing changes.", "quantifier": "for all distributions, all texts, all objects", "why_tests_cant": "The texts that fail are infinitely many; the tests read valid texts only.", "anchors": ["include/boost/random/bernoulli_distribution.hpp: operator<<, operator>>", "include/boost/random/beta_distribution.hpp: operator<<, operator>>", "include/boost/random/binomial_distribution.hpp: operator<<, operator>>", "include/boost/random/cauchy_distribution.hpp: operator<<, operator>>", "include/boost/random/chi_squared_distribution.hpp: operator<<, operator>>", "include/boost/random/exponential_distribution.hpp: operator<<, operator>>", "include/boost/random/extreme_value_distribution.hpp: operator<<, operator>>", "include/boost/random/fisher_f_distribution.hpp: operator<<, operator>>", "include/boost/random/gamma_distribution.hpp: operator<<, operator>>", "include/boost/random/geometric_distribution.hpp: operator<<, operator>>", "include/boost/random/laplace_distribution.hpp: operator<<, operator>>", "include/boost/random/lognormal_distribution.hpp: operator<<, operator>>", "include/boost/random/negative_binomial_distribution.hpp: operator<<, operator>>", "include/boost/random/non_central_chi_squared_distribution.hpp: operator<<, operator>>", "include/boost/random/normal_distribution.hpp: operator<<, operator>>", "include/boost/random/poisson_distribution.hpp: operator<<, operator>>", "include/boost/random/student_t_distribution.hpp: operator<<, operator>>", "include/boost/random/triangle_distribution.hpp: operator<<, operator>>", "include/boost/random/uniform_int_distribution.hpp: operator<<, operator>>", "include/boost/random/uniform_real_distribution.hpp: operator<<, operator>>", "include/boost/random/uniform_smallint.hpp: operator<<, operator>>", "include/boost/random/weibull_distribution.hpp: operator<<, operator>>", "include/boost/random/detail/vector_io.hpp: print_vector, read_vector", "include/boost/random/piecewise_constant_distribution.hpp: operator<<, operator>>", "include/boost/random/piecewise_linear_distribution.hpp: operator<<, operator>>", "include/boost/random/discrete_distribution.hpp: operator<<, operator>>", "include/boost/random/hyperexponential_distribution.hpp: operator<<, operator>>"]}
{"id": "C132", "title": "What is read is valid", "statement": "If operator>> succeeds the parameters of the distribution satisfy the preconditions of its constructor.", "quantifier": "for all texts, all objects", "why_tests_cant": "Which digits are lost, or which texts are accepted, depends on the values; the tests try a few values with a text that is exact.", "anchors": ["include/boost/random/bernoulli_distribution.hpp: operator<<, operator>>", "include/boost/random/beta_distribution.hpp: operator<<, operator>>", "include/boost/random/binomial_distribution.hpp: operator<<, operator>>", "include/boost/random/cauchy_distribution.hpp: operator<<, operator>>", "include/boost/random/chi_squared_distribution.hpp: operator<<, operator>>", "include/boost/random/exponential_distribution.hpp: operator<<, operator>>", "include/boost/random/extreme_value_distribution.hpp: operator<<, operator>>", "include/boost/random/fisher_f_distribution.hpp: operator<<, operator>>", "include/boost/random/gamma_distribution.hpp: operator<<, operator>>", "include/boost/random/geometric_distribution.hpp: operator<<, operator>>", "include/boost/random/laplace_distribution.hpp: operator<<, operator>>", "include/boost/random/lognormal_distribution.hpp: operator<<, operator>>", "include/boost/random/negative_binomial_distribution.hpp: operator<<, operator>>", "include/boost/random/non_central_chi_squared_distribution.hpp: operator<<, operator>>", "include/boost/random/normal_distribution.hpp: operator<<, operator>>", "include/boost/random/poisson_distribution.hpp: operator<<, operator>>", "include/boost/random/student_t_distribution.hpp: operator<<, operator>>", "include/boost/random/triangle_distribution.hpp: operator<<, operator>>", "include/boost/random/uniform_int_distribution.hpp: operator<<, operator>>", "include/boost/random/uniform_real_distribution.hpp: operator<<, operator>>", "include/boost/random/uniform_smallint.hpp: operator<<, operator>>", "include/boost/random/weibull_distribution.hpp: operator<<, operator>>"]}
{"id": "C133", "title": "Vectors in text", "statement": "A vector that is written is read back; the accepted texts are brackets around numbers; distributions with vectors that are written are read back with the same law.", "quantifier": "for all vectors of representable numbers, all texts, all valid parameters, all old objects", "why_tests_cant": "Which digits are lost, or which texts are accepted, depends on the values; the tests try a few values with a text that is exact.", "anchors": ["include/boost/random/detail/vector_io.hpp: print_vector, read_vector", "include/boost/random/piecewise_constant_distribution.hpp: operator<<, operator>>", "include/boost/random/piecewise_linear_distribution.hpp: operator<<, operator>>", "include/boost/random/discrete_distribution.hpp: operator<<, operator>>", "include/boost/random/hyperexponential_distribution.hpp: operator<<, operator>>"]}
{"id": "C134", "title": "Comparison, and reading without undefined behaviour", "statement": "operator== holds exactly if all members are equal, computed members and tables included; reading any text has no undefined behaviour and fails no assertion.", "quantifier": "for all pairs of objects that there are, all texts", "why_tests_cant": "Pairs of objects and texts are infinitely many.", "anchors": ["include/boost/random/bernoulli_distribution.hpp: operator<<, operator>>", "include/boost/random/beta_distribution.hpp: operator<<, operator>>", "include/boost/random/binomial_distribution.hpp: operator<<, operator>>", "include/boost/random/cauchy_distribution.hpp: operator<<, operator>>", "include/boost/random/chi_squared_distribution.hpp: operator<<, operator>>", "include/boost/random/exponential_distribution.hpp: operator<<, operator>>", "include/boost/random/extreme_value_distribution.hpp: operator<<, operator>>", "include/boost/random/fisher_f_distribution.hpp: operator<<, operator>>", "include/boost/random/gamma_distribution.hpp: operator<<, operator>>", "include/boost/random/geometric_distribution.hpp: operator<<, operator>>", "include/boost/random/laplace_distribution.hpp: operator<<, operator>>", "include/boost/random/lognormal_distribution.hpp: operator<<, operator>>", "include/boost/random/negative_binomial_distribution.hpp: operator<<, operator>>", "include/boost/random/non_central_chi_squared_distribution.hpp: operator<<, operator>>", "include/boost/random/normal_distribution.hpp: operator<<, operator>>", "include/boost/random/poisson_distribution.hpp: operator<<, operator>>", "include/boost/random/student_t_distribution.hpp: operator<<, operator>>", "include/boost/random/triangle_distribution.hpp: operator<<, operator>>", "include/boost/random/uniform_int_distribution.hpp: operator<<, operator>>", "include/boost/random/uniform_real_distribution.hpp: operator<<, operator>>", "include/boost/random/uniform_smallint.hpp: operator<<, operator>>", "include/boost/random/weibull_distribution.hpp: operator<<, operator>>", "include/boost/random/detail/vector_io.hpp: print_vector, read_vector", "include/boost/random/piecewise_constant_distribution.hpp: operator<<, operator>>", "include/boost/random/piecewise_linear_distribution.hpp: operator<<, operator>>", "include/boost/random/discrete_distribution.hpp: operator<<, operator>>", "include/boost/random/hyperexponential_distribution.hpp: operator<<, operator>>"]}
{"id": "C135", "title": "Period of the Mersenne Twisters", "statement": "mt11213b, mt19937 and mt19937_64 have the period 2^(w n - r) - 1 (2^11213 - 1, 2^19937 - 1) from every state that is not degenerate, hence however they are seeded: the sequence repeats after that many values and after no number of values that is not a multiple; operator== is true of the engine and of what it was q calls ago exactly for these multiples.", "quantifier": "for all states, all seeds, all numbers of calls", "why_tests_cant": "The period has thousands of digits; no run of the engine can show it, nor that there are no shorter cycles.", "anchors": ["include/boost/random/mersenne_twister.hpp: mersenne_twister_engine, mt11213b, mt19937, mt19937_64"]}
{"id": "C136", "title": "Equidistribution of the Mersenne Twisters", "statement": "In a whole period every sequence of n - 1 values of w bits (623 values of 32 bits for mt19937) occurs 2^(w-r) times, the sequence of zeros once less. All states that are not degenerate lie on one cycle.", "quantifier": "for all states, all sequences of n - 1 values, all pairs of states", "why_tests_cant": "The counts are over a whole period.", "anchors": ["include/boost/random/mersenne_twister.hpp: mersenne_twister_engine, mt11213b, mt19937, mt19937_64"]}
{"id": "C137", "title": "Seeding every engine from a seed sequence", "statement": "For every seed sequence that fills the range it is given with 32-bit words, boost::random::seed_seq among them, every engine is seeded without undefined behaviour and its state is valid. The state is the one seed(first, last) gives from the same words, the first three skipped for the engines that hold one number; additive_combine_engine asks the sequence once for each engine but reads on from the same range; mixmax takes four words in the order cluster, machine, run, stream; subtract_with_carry seeded from a value takes the powers of 40014 times the value modulo 2147483563. A range too short is refused with the exception.", "quantifier": "for all seed sequences, all ranges of words, all parameters of the engines (mixmax: the 17-dimensional engine)", "why_tests_cant": "Tests seed with two fixed lists of numbers per engine.", "anchors": ["include/boost/random/detail/seed_impl.hpp: seed_one_int, seed_array_int, get_one_int, fill_array_int", "include/boost/random/linear_congruential.hpp: seed(SeedSeq&)", "include/boost/random/inversive_congruential.hpp: seed", "include/boost/random/linear_feedback_shift.hpp: seed", "include/boost/random/mersenne_twister.hpp: seed(SeedSeq&)", "include/boost/random/lagged_fibonacci.hpp: seed", "include/boost/random/subtract_with_carry.hpp: seed", "include/boost/random/additive_combine.hpp: seed", "include/boost/random/mixmax.hpp: seed"]}
{"id": "C60", "title": "Period of the linear feedback shift engines and taus88", "statement": "linear_feedback_shift_engine has the period N, the order of X modulo X^k + X^q + 1, if this polynomial is irreducible and s is coprime to N, from every state with a significant bit. The components of taus88 have the periods 2^31 - 1, 2^29 - 1 and 2^28 - 1, and taus88 has their product as period, from every valid state, hence however it is seeded (value, seed sequence, range): what is returned repeats after that many calls and after no number of calls that is not a multiple. operator== is true of two later states exactly for these multiples.", "quantifier": "for all states, all seeds, all numbers of calls; for all parameters with w + s + q <= 2k and a type of w bits (the general statement)", "why_tests_cant": "The period is nearly 2^88.", "anchors": ["include/boost/random/linear_feedback_shift.hpp: operator(), seed", "include/boost/random/taus88.hpp: taus88", "include/boost/random/xor_combine.hpp: operator(), seed"]}
{"id": "C138", "title": "Equidistribution of taus88", "statement": "In a whole period of taus88 every combination of nonzero significant bits of the three components occurs exactly once, so that all states lie on one cycle. Every 32-bit value is returned 2^56 - 2^28 - 2^27 - 2^25 times, once more for each component that could return it alone, and zero once less.", "quantifier": "for all states, all 32-bit values", "why_tests_cant": "The counts are over a whole period of nearly 2^88 values.", "anchors": ["include/boost/random/linear_feedback_shift.hpp: operator(), seed", "include/boost/random/taus88.hpp: taus88", "include/boost/random/xor_combine.hpp: operator(), seed"]}
{"id": "C139", "title": "Period of the lagged Fibonacci engines", "statement": "If 2^p - 1 is prime and X^p + X^(p-q) + 1 divides X^(2^p) - X over GF(2), as is the case for the lags of all nine typedefs, lagged_fibonacci_engine and lagged_fibonacci_01_engine of w bits have the period 2^(w-1-v) (2^p - 1), 2^v being the greatest power of 2 that divides all elements of the table: the full period 2^47 (2^p - 1) of the typedefs holds if some element is an odd multiple of 2^-48, for instance if the engine is constructed by default. It is an upper bound for all states, so the lengths of cycle in the documentation (2^32000 for lagged_fibonacci607) are false. A range of zero words seeds an engine that returns 0 for ever.", "quantifier": "for all tables, all word sizes, all positions, all numbers of calls; for the nine typedefs and for all lags with the stated properties", "why_tests_cant": "The shortest of the full periods is 2^47 (2^607 - 1).", "anchors": ["include/boost/random/lagged_fibonacci.hpp: operator(), fill, seed, lagged_fibonacci607 ... lagged_fibonacci44497", "doc/generators.qbk:67-75"]}
{"id": "C140", "title": "Seeds of the lagged Fibonacci engines", "statement": "Two seeds give lagged_fibonacci607 ... lagged_fibonacci44497 equal states, and equal values for ever, exactly if they are equal as seeds of minstd_rand0: distinct seeds in [1, 2147483647) give different states and different sequences, and every other seed is equivalent to one of these, as documented.", "quantifier": "for all pairs of 32-bit seeds, all nine typedefs", "why_tests_cant": "There are 2^62 pairs of seeds, and equality of futures is a statement about infinitely many values.", "anchors": ["include/boost/random/lagged_fibonacci.hpp: operator(), fill, seed, lagged_fibonacci607 ... lagged_fibonacci44497", "include/boost/random/linear_congruential.hpp: seed", "include/boost/random/detail/seed_impl.hpp: seed_array_real_impl"]}
{"id": "C141", "title": "Period of the inversive congruential engines", "statement": "An inversive congruential engine with a prime modulus p for which modular multiplication is exact (C02) and a multiplier that is not 0 visits all p numbers, from each of them, each exactly once in p calls, exactly if no term u(1), ..., u(p) of the Lucas sequence u(n+2) = b u(n+1) + a u(n) is divisible by p. The numbers it returns then have the period p. hellekalek1995 meets the condition, so that its length of cycle is the documented 2^31 - 1.", "quantifier": "for all valid parameters, all states, all numbers of calls", "why_tests_cant": "A test of hellekalek1995 takes 2^31 calls for a single seed; the equivalence is about all parameters.", "anchors": ["include/boost/random/inversive_congruential.hpp: operator(), hellekalek1995", "doc/generators.qbk:62"]}
{"id": "C142", "title": "Periods of the values of the linear congruential engines", "statement": "The numbers returned (not only the states) have the period m for every linear congruential engine that meets the conditions of Hull and Dobell and for which modular multiplication is exact, 2^31 - 2 for minstd_rand0 and minstd_rand, lcm(m1 - 1, m2 - 1) for an additive combination of multiplicative engines with prime moduli and primitive multipliers such that m2 - 1 does not divide 2 (m1 - 1), which is about 2^61 for ecuyer1988, and 2^48 for rand48, although only 31 of 48 bits are returned. The documented length of cycle of rand48, 2^48 - 1, is false.", "quantifier": "for all states, all numbers of calls; for all parameters meeting the conditions", "why_tests_cant": "The periods are about 2^31, 2^48 and 2^61; a shorter period of the values would not show in the states.", "anchors": ["include/boost/random/linear_congruential.hpp: operator(), minstd_rand0, minstd_rand, rand48", "include/boost/random/additive_combine.hpp: operator(), ecuyer1988", "doc/generators.qbk:55-58"]}
{"id": "C143", "title": "Sobol points form nets", "statement": "A Sobol engine of w bits whose table has irreducible polynomials, different from one another and from x, and odd initial values that are small enough returns 2^w - 1 points before it throws, and these points with the point zero in front are a digital sequence: in every aligned block of 2^M points every box whose sides take a multiple k(d) e(d) of the degree in bits of coordinate d, in total no more than M bits, holds exactly the share of the points that corresponds to its volume; e(0) = 1 and e(d) is the degree of polynomial d-1. Therefore the points of the typedef sobol form a (t,s)-sequence in base 2, t being the sum of the degrees less one, in every dimension up to 3667; in two dimensions t = 0. (The same for niederreiter_base2 is C66.)", "quantifier": "for all tables meeting the conditions, numbers of bits, dimensions, blocks and boxes; for the default table in all 3667 dimensions and 64 bits", "why_tests_cant": "There are 2^64 points, 3667 dimensions and more boxes than can be counted; an error in the recurrence or in one polynomial only shows in boxes that involve several coordinates.", "anchors": ["include/boost/random/sobol.hpp: sobol_lattice::resize", "include/boost/random/detail/gray_coded_qrng.hpp", "include/boost/random/detail/sobol_table.hpp"]}
{"id": "C144", "title": "Cycles of the shuffled engines", "statement": "Let a shuffle_order_engine with a table of k elements be seeded over a base engine that goes through P > k different values again and again. The values it returns enter a cycle, and the length of that cycle is a multiple of P. The first values are never part of the cycle: for no T > 0 does the engine return after T calls what it returned from the beginning. For knuth_b (P = 2^31 - 2) and kreutzer1986 (P = 714025) this holds from every seed. So the documented length of cycle 2^31 - 2 of knuth_b is not a period of what a freshly seeded engine returns.", "quantifier": "for all base engines with distinct values in a cycle, table sizes 0 < k < P, k < 2^64, seeds and numbers T of calls", "why_tests_cant": "The cycle of knuth_b is at least 2^31 - 2 long and is entered only after an unknown number of calls among states that are 257 words long; no run shows that a sequence never returns to its beginning.", "anchors": ["include/boost/random/shuffle_order.hpp: operator(), init", "include/boost/random/linear_congruential.hpp: minstd_rand0", "doc/generators.qbk"]}
{"id": "C145", "title": "Numbers of random_device", "statement": "On a POSIX system a call of random_device either returns the number whose memory is the next four bytes of the device, and has consumed exactly these bytes whatever parts read delivered them in (at most four calls of read, nothing stored outside the number, no byte left indeterminate); or throws system_error with the error number of the call of read that failed; or throws it with code 0 at the end of the file. In the last two cases fewer than four bytes have been consumed. Every number from min() to max() comes from exactly one string of four bytes, in either byte order. generate(first, last) stores the numbers of consecutive groups of four bytes, and the numbers before an exception stay stored. The documented std::ios_base::failure is never thrown.", "quantifier": "for all devices (byte sequences with or without end), all ways in which read delivers parts or fails, positions, byte orders and lengths of the range", "why_tests_cant": "A test reads from /dev/urandom, which delivers four bytes at once and never fails; the parts of a short read, errors and the end of the file do not occur.", "anchors": ["src/random_device.cpp: impl::next, impl::error", "include/boost/random/random_device.hpp: generate, min, max, entropy"]}
{"id": "C146", "title": "Descriptors of random_device objects", "statement": "In any program that creates, calls and destroys random_device objects in any order, catching exceptions: the descriptors in use are those that were in use before, with their files untouched, and one for each object alive, all different; failed constructors and calls leave nothing behind, and after all objects are destroyed the table of descriptors is as before. Nothing has undefined behaviour as long as the program uses objects that are alive. A new object reads its device from the first byte; a call changes the file of its own object only. The destructor ends the program exactly if close reports an error (it throws).", "quantifier": "for all programs (finite sequences of actions), all systems: descriptors in use before, outcomes of open, read and close", "why_tests_cant": "Leaks and double closes show only in long runs with failures of open, read or close, which a test cannot provoke.", "anchors": ["src/random_device.cpp: impl::impl, impl::~impl, random_device::random_device, random_device::~random_device, operator()"]}
{"id": "C147", "title": "poisson_distribution with a mean from 10 on has the Poisson law", "statement": "Over all rounds of the rejection loop, on independent uniform numbers in exact arithmetic: the probability that k is returned is the Poisson probability of k up to a factor of 1 +- 1.2e-10 (the error of the asymptotic series in the acceptance test) and up to the probability that the loop is still running, which after n rounds is at most 4^-n. The conversion of the result to IntType is undefined at most with the probability of the numbers that do not fit, up to the same factor.", "quantifier": "for all means from 10 on, all k that fit in IntType, all widths of IntType, all numbers of rounds", "why_tests_cant": "A statistical test with finitely many samples sees neither small errors of the law nor all means; the tails are never sampled.", "anchors": ["include/boost/random/poisson_distribution.hpp: init, generate, operator()"]}
{"id": "C148", "title": "variate_generator: engines held by value are isolated, engines held by reference or pointer are shared", "statement": "A variate generator that holds its engine by value returns the results of its distribution called again and again on a copy of the engine as it was at construction, whatever else the program does to the engine, to copies of the generator or to other generators; copies and assigned generators continue from the state of the original independently. Generators that hold an engine by reference or pointer (and copies of them) return the results of distributions called in turns on that one engine, in the order of the program. A program that uses only existing objects and destroys no engine is defined; calling a generator after its engine was destroyed is undefined. Generators holding references cannot be assigned.", "quantifier": "for all distributions, all engines, all programs of creations, copies, assignments, calls, direct uses and destructions, of any length", "why_tests_cant": "Aliasing and isolation are statements about all interleavings of uses of engines and generators; a dangling engine often still seems to work in a test.", "anchors": ["include/boost/random/variate_generator.hpp: variate_generator, operator(), engine, distribution", "include/boost/random/detail/ptr_helper.hpp: ptr_helper"]}
{"id": "C149", "title": "The deprecated uniform_01<Engine> and uniform_01<> give the same values", "statement": "uniform_01<Engine>, which keeps an engine and a factor computed at construction, returns values in [0, 1), in exact arithmetic (x - min) / (max - min + 1), and any number of calls of it return the same values and read the same engine values as uniform_01<> on the same engine. With integral promotion taken into account the last part is false for signed engine types narrower than int whose differences do not fit: only uniform_01<> converts the differences back to the narrow type, and then returns negative values or divides by zero.", "quantifier": "for all roundings to at least one digit, all integral engines of all widths, all sequences of engine values, all numbers of calls", "why_tests_cant": "The engines of the library are all at least 32 bits wide and the two forms are tested only with them.", "anchors": ["include/boost/random/uniform_01.hpp: new_uniform_01, backward_compatible_uniform_01"]}
{"id": "C150", "title": "Modular arithmetic and congruential engines on integer types narrower than int", "statement": "For integer types of 8 or 16 bits, whose operands are promoted to int, every operation of const_mod (add, mult, mult_add, pow, invert) returns the exact residue without undefined behaviour, and a linear_congruential_engine over such a type follows its recurrence. This holds for every modulus but 2^16. For uint16_t and modulus 2^16 the products are computed in int: they are exact if and only if they are below 2^31, and undefined otherwise, so that a call is defined exactly as long as a*x + c stays below 2^31; an engine of full period with a*65535 + c >= 2^31 runs into undefined behaviour within one period from every seed.", "quantifier": "for all widths up to 16, both signednesses, all moduli, all operands, all exponents, all seeds, all numbers of calls", "why_tests_cant": "The library instantiates const_mod only with types of at least 32 bits; overflow of int in a promoted product usually still gives the right low bits, so that a test passes.", "anchors": ["include/boost/random/detail/const_mod.hpp: const_mod", "include/boost/random/linear_congruential.hpp: operator(), discard"]}
{"id": "C151", "title": "Uniform integers do not depend on the integer types of the distribution and the engine", "statement": "uniform_int_distribution, uniform_smallint and random_number_generator return the same number and use the same engine values for all integer types that can hold the parameters, including those narrower than int, whose arithmetic is done in int, and for all result types of the engine that can hold its values. For uniform_int_distribution this is false where the early return forgets the lower bound (C38).", "quantifier": "for all pairs of integer types of all widths and signednesses, all parameters, all engines, all sequences of engine values", "why_tests_cant": "There are dozens of pairs of types and the mixed comparisons, conversions and promotions of each pair differ; the tests draw char-sized numbers from few engines and look only at frequencies.", "anchors": ["include/boost/random/uniform_int_distribution.hpp: generate_uniform_int", "include/boost/random/uniform_smallint.hpp: generate", "include/boost/random/random_number_generator.hpp: operator()", "include/boost/random/detail/signed_unsigned_tools.hpp: subtract, add"]}
{"id": "C152", "title": "Rejection loops of the integer distributions end with probability one after few engine values", "statement": "With an ideal engine of b values, uniform_int_distribution over [min,max] and random_number_generator use on average at most 2(k+2) engine values, where k is the integer part of the logarithm of max-min to base b (at most 2 if max-min < b), and independent_bits_engine at most 2(ceil(w/m)+1) base values for w bits, where m is the integer part of the binary logarithm of b. The probability of needing more than n values is at most that bound divided by n, so the loops end with probability one.", "quantifier": "for all engines, integer types, ranges, numbers of bits and numbers n of engine values", "why_tests_cant": "A test sees a few runs; it can neither bound the mean over all sequences of engine values nor show that an unbounded loop ends with probability one, for every engine and range.", "anchors": ["include/boost/random/uniform_int_distribution.hpp: generate_uniform_int", "include/boost/random/random_number_generator.hpp: operator()", "include/boost/random/independent_bits.hpp: operator()"]}
{"id": "C153", "title": "The law of the integer distributions, over all rounds of their loops", "statement": "With an ideal engine the probability that uniform_int_distribution has returned v after at most n engine values tends to 1/(max-min+1) for every v of [min,max] and is 0 for every other v; random_number_generator(n) returns each number below n with probability 1/n, independent_bits_engine each w-bit number with probability 2^-w.", "quantifier": "for all engines, integer types, ranges, values, numbers of bits", "why_tests_cant": "Statistical tests only bound the deviation; the probability is a limit over the unboundedly many rounds of the loop.", "anchors": ["include/boost/random/uniform_int_distribution.hpp: generate_uniform_int", "include/boost/random/random_number_generator.hpp: operator()", "include/boost/random/independent_bits.hpp: operator()"]}
{"id": "C154", "title": "Law and running time of discrete_distribution with integer weights", "statement": "With an ideal engine of b values and integer weights of positive sum S, discrete_distribution over L weights with a = S/L (rounded down) uses on average at most (2(k+2)+2(k'+2))*L(a+1)/S engine values, where k and k' are the integer parts of the logarithms of L-1 and a to base b; this is at most 4(k+k'+4) if S >= L. The loop ends with probability one, and the probability that it has returned v after at most n engine values tends to weight(v)/S.", "quantifier": "for all engines, weight and result types, lists of weights, values", "why_tests_cant": "Tests use a few short weight lists and statistical tolerances; neither the exact limit nor the bound on the mean over all engine sequences can be observed.", "anchors": ["include/boost/random/discrete_distribution.hpp: operator()", "include/boost/random/discrete_distribution.hpp: integer_alias_table", "include/boost/random/uniform_int_distribution.hpp: generate_uniform_int"]}
{"id": "C155", "title": "Over the whole period of a Mersenne Twister the distributions have the law of an ideal engine", "statement": "For mt11213b, mt19937 and mt19937_64 in any state but the degenerate ones, and any quantity that depends on fewer than n successive engine values, the mean over the whole period differs from the expectation with an ideal engine only by the missing list of zeros, a part of 1/period. So a distribution called from every position of the period returns each value with the frequency of the ideal law up to 1/period; uniform_int_distribution returns all numbers of its range equally often up to one; discrete_distribution in the proportion of the weights up to one; the mean number of engine values used is that of an ideal engine. For full-period congruential and inversive engines the same holds exactly for what depends on one value.", "quantifier": "for all states, distributions (functions of the engine values), ranges, weights, values", "why_tests_cant": "The period has 2^19937-1 positions; the assumption of independent engine values that underlies all tests of distributions cannot be checked by running them.", "anchors": ["include/boost/random/mersenne_twister.hpp: operator()", "include/boost/random/uniform_int_distribution.hpp: generate_uniform_int", "include/boost/random/discrete_distribution.hpp: operator()", "include/boost/random/linear_congruential.hpp: operator()", "include/boost/random/inversive_congruential.hpp: operator()"]}
{"id": "C156", "title": "Mersenne Twister on 8-bit and 16-bit types", "statement": "With UIntType narrower than int, where all operands are promoted to int, a Mersenne Twister behaves as if all arithmetic were done in UIntType: every call, every seeding from a range or sequence and every seeding with a value gives the documented words, and no operation is undefined. (False before C++20: the masks shift the int -1 to the left. False for 16-bit words and multipliers f from 32769 on: the seeding product overflows int for the seed 65532.)", "quantifier": "for all parameters, states, seeds, language versions", "why_tests_cant": "The library is only tested with 32-bit and 64-bit words; which multipliers and seeds overflow is a question about all of them, and undefined behaviour need not show.", "anchors": ["include/boost/random/mersenne_twister.hpp: seed, normalize_state, twist, operator()"]}
{"id": "C157", "title": "Constructing an engine from an argument does what the argument's type says", "statement": "An engine constructed from an engine of its class is a copy, an adaptor constructed from a base engine holds a copy of it and leaves the argument as it was, a number seeds by value, and any other object seeds as a sequence; two engines or seeds are never taken for iterators. (False for an lvalue of the base engine that is not const: discard_block_engine, shuffle_order_engine and independent_bits_engine take it for a seed sequence, seed a new engine from it and advance it. False likewise for variables of classes derived from an engine, and for copies of variables of the class shuffle_output. False for two variables of one engine type given to xor_combine_engine and two variables of type int given to additive_combine_engine, which does not compile.)", "quantifier": "for all classes, argument types and kinds, base engines and states", "why_tests_cant": "The tests construct adaptors from numbers, sequences and copies; a call that compiles and yields random-looking values shows nothing of which constructor was chosen.", "anchors": ["include/boost/random/detail/seed.hpp", "include/boost/random/discard_block.hpp: constructors", "include/boost/random/shuffle_order.hpp: constructors", "include/boost/random/independent_bits.hpp: constructors", "include/boost/random/xor_combine.hpp: constructors", "include/boost/random/shuffle_output.hpp"]}
{"id": "C158", "title": "The generators of extra/haertel.hpp: ACORN and lagged Fibonacci", "statement": "additive_congruential returns the sums of its seeds with binomial coefficients modulo m; for a prime m above the order and a first seed other than 0 its period is exactly m, in particular 2^30-35 for MRG_Acorn7. lagged_fibonacci_int returns the sequence x_n = x_(n-r) + x_(n-s) modulo m of its seeds. (False where the sum of two residues overflows, for seeds that are not residues, for r other than 607, which seed assigns whatever r is; the seed of lagged_fibonacci_int is ignored.)", "quantifier": "for all orders, moduli, integer types, seeds, numbers of calls", "why_tests_cant": "The period and the closed form are statements about all numbers of calls; test_haertel.cpp only prints values.", "anchors": ["extra/haertel.hpp: additive_congruential, lagged_fibonacci_int, MRG_Acorn7, MRG_Fib2"]}
{"id": "C159", "title": "Period of mixmax, and different seeds give different sequences", "statement": "From every state whose vector is not zero modulo p = 2^61-1, mixmax repeats modulo p after 16 (p^17-1)/(p-1) calls, and only after multiples of 336688632201494597573 > 2^68 calls, from whatever call on one looks. The values from any call on determine the vector. Engines seeded with two different 64-bit seeds, or with the same clusterID and machineID and other runID or streamID, never return sequences that agree from some call on. (The published period is exact only if the other prime factors of (p^17-1)/(p-1) divide the order too; that, and that streams do not overlap, is not proved.)", "quantifier": "for all well-formed states, numbers of calls, pairs of seeds and identifiers", "why_tests_cant": "A period of 10^294 cannot be run through, and 2^128 pairs of seeds cannot be compared.", "anchors": ["mixmax.hpp: mixmax_engine, operator(), seed_uniquestream, apply_bigskip", "detail/mixmax_skip_N17.ipp"]}
{"id": "C160", "title": "mixmax is equidistributed in N dimensions and in no more", "statement": "For every vector size N, 2 <= N < 2^31, and every multiplier 2^mul + 1, 1 <= mul <= 60: at whatever position n one looks, every sequence of k <= N values modulo p = 2^61-1 in a row is returned from exactly p^(N-k) of the p^N vectors. For N+1 values it is false: N zeros followed by a one are returned from no vector.", "quantifier": "for all N, mul, positions n, lengths k and sequences of values", "why_tests_cant": "There are 2^1037 vectors for N = 17 alone, and the claim is about every N.", "anchors": ["mixmax.hpp: mixmax_engine, operator(), iterate_raw_vec, iterate"]}
{"id": "C161", "title": "Calls of distributions that share an engine are independent", "statement": "On an ideal engine (each value equally likely, independent), any number of calls of uniform_int_distribution one after the other, with any integer types and ranges, return every sequence of values in the ranges with probability the product of 1/(max-min+1), and return with probability one (under the guard of C38 for each call); calls of one discrete_distribution return every sequence with the product of weight/sum. The number of engine values a call uses, which depends on the value returned, does not make the next call dependent on it. Calls in turn use on average at most the sum of the bounds of C152.", "quantifier": "for all engines, lists of types and ranges, weights, numbers of calls and sequences of results", "why_tests_cant": "Joint laws of n results need exponentially many samples, and dependence through the number of engine values used shows in no single call.", "anchors": ["uniform_int_distribution.hpp: generate_uniform_int", "discrete_distribution.hpp: operator()", "example/die.cpp: roll_die"]}
{"id": "C162", "title": "uniform_int, std::random_shuffle and the password example", "statement": "uniform_int::operator()(eng, n) returns each number of [0, n) with probability 1/n, whatever its own parameters, and the same value from the same engine values as random_number_generator, whatever the integer types. The shuffle of std::random_shuffle with either makes each of the n! orders of n different elements equally likely, the two shuffles are the same, the result is a permutation and nothing is undefined whatever the engine returns, and n elements take at most 2(n-1) engine values on average from an engine with at least n values. The program example/password.cpp writes each of the 95^8 sequences of 8 of its characters with probability 1/95^8 and never indexes out of bounds. (The loop of std::random_shuffle belongs to the standard library; it is modelled as the usual loop of swaps.)", "quantifier": "for all engines, integer types, lengths, vectors and orders", "why_tests_cant": "The test in the repository compares the shuffles of one vector for one seed; n! orders cannot be counted for n = 200.", "anchors": ["uniform_int.hpp: operator()(eng, n)", "random_number_generator.hpp: operator()", "example/password.cpp: main", "test/test_old_uniform_int_distribution.cpp: test_random_shuffle"]}
{"id": "C163", "title": "The points of example/intersections.cpp are uniform on the sphere", "statement": "The formula of the example maps two independent uniform numbers to a uniformly distributed point of the unit sphere (exact arithmetic). The loop makes as many points as asked for, all of norm one, on every engine and for every rounding in uniform_01. On the 4-dimensional niederreiter_base2 engine of the program, in exact arithmetic, points 2k and 2k+1 are made of the first and the last two coordinates of point k+1 of the sequence, and in every aligned block of 2^M points the share of the pairs that lies in two patches (zones of equal height, sectors of equal angle, numbers powers of two with product at most 2^(M-3)) is exactly the product of the areas of the patches. With the rounding of double there is a coordinate that uniform_01 rejects, after which the pairs are made of other coordinates.", "quantifier": "for all measurable sets, engines, roundings, numbers of points, blocks and patches", "why_tests_cant": "The program has no test; a law on the sphere and a share in exponentially many patches cannot be sampled, and the rejected coordinate lies far beyond what a test can reach.", "anchors": ["example/intersections.cpp: main", "include/boost/random/niederreiter_base2.hpp", "include/boost/random/uniform_01.hpp: operator()"]}
{"id": "C164", "title": "Discrepancy bounds of the Sobol, Niederreiter and Faure points", "statement": "Of the first N points made by sobol (default table, any dimension it takes), niederreiter_base2 or faure (exact arithmetic) the number that lies in any box [0,y_1) x ... x [0,y_s) differs from N times the volume of the box by at most Niederreiter's bound for a (t,s)-sequence in base b (b = 2 and one more for the point zero that the engine leaves out; b the least prime not below the dimension and t = 0 for faure). The bound grows like the power s of log N; in two dimensions with sobol it is w(w+1)/2 + 1 for N+1 < 2^w. A box whose volume times N is above the bound contains a point.", "quantifier": "for all dimensions the engines take, all numbers of points N up to the whole sequence and all real boxes", "why_tests_cant": "The tests compare a few hundred tabulated points; a bound over all real boxes and all N up to 2^64 cannot be sampled.", "anchors": ["include/boost/random/sobol.hpp", "include/boost/random/niederreiter_base2.hpp", "include/boost/random/faure.hpp", "include/boost/random/detail/gray_coded_qrng.hpp"]}
{"id": "C165", "title": "Means over blocks of quasi-random points approach the integral", "statement": "The mean of a function over an aligned block of 2^m points of sobol or niederreiter_base2 (b^m points of faure in exact arithmetic) differs from the integral of the function over the unit cube by no more than the function varies within cubes of side 2^-k (b^-k), for every k with t + s*k at most m, where s is the dimension and t the quality parameter of the sequence.", "quantifier": "for all dimensions the engines take, all aligned blocks within the sequence and all integrable functions", "why_tests_cant": "A statement about all integrable functions and all blocks of up to 2^64 points cannot be sampled.", "anchors": ["include/boost/random/sobol.hpp", "include/boost/random/niederreiter_base2.hpp", "include/boost/random/faure.hpp"]}
{"id": "C166", "title": "discrete_distribution with real weights keeps its probabilities under rounding", "statement": "With real weights and floating-point arithmetic of p digits rounding to nearest, building the alias table from n non-negative weights with a positive sum never leaves the table, also when rounding leaves columns unpaired. Every draw gives the number of a weight. The probability of a value differs from weight/sum by at most (8n+10)/2^p plus the granularity of the test value. Values of weight zero are never drawn if (8n+10)*n is less than 2^p. The weighted die of the examples rolls 1 with probability 1/2 and every other face with probability 1/10, up to 59/2^53 plus the granularity of the test value.", "quantifier": "for all roundings to nearest, all numbers of digits, all lists of non-negative rational weights with positive sum and 2(n+2) <= 2^p, all tables held before, all columns and test values", "why_tests_cant": "Rounding errors depend on the weights; a leftover column with a wrong value would need particular weights, and errors of the order of 2^-53 cannot be seen in samples.", "anchors": ["include/boost/random/discrete_distribution.hpp:142-164", "include/boost/random/discrete_distribution.hpp:428-442", "include/boost/random/discrete_distribution.hpp:572-627", "example/weighted_die.cpp:32-45"]}
{"id": "C167", "title": "piecewise_constant_distribution constructed in floating-point arithmetic", "statement": "With construction and drawing in floating-point arithmetic of p digits rounding to nearest, piecewise_constant_distribution has no undefined behaviour, every value lies in an interval whose weight is not zero, and the interval drawn has the requested probability up to (16n+18)/2^p plus the granularity of the test value; for every constructor and param(). On independent uniform numbers the distribution function is that of the requested mixture up to n(16n+18)/2^p.", "quantifier": "for all roundings to nearest, all engines, all increasing boundaries, all non-negative weights with positive sum and (8n+10)*n < 2^p", "why_tests_cant": "Rounding errors depend on weights and boundaries; draws of intervals with weight zero or endless loops occur for particular parameters only.", "anchors": ["include/boost/random/piecewise_constant_distribution.hpp:253-350", "include/boost/random/piecewise_constant_distribution.hpp:409-416", "include/boost/random/discrete_distribution.hpp:164-175"]}
{"id": "C168", "title": "hyperexponential_distribution constructed in floating-point arithmetic", "statement": "With the alias table built in floating-point arithmetic of p digits rounding to nearest, the assertion of hyperexponential_distribution's constructors holds just when there are as many positive rates as probabilities; on independent uniform and exponential numbers the object follows the mixture with each phase's probability as requested up to (8n+10)/2^p ((16n+18)/2^p if set by param), phases of probability zero never occurring; its values are not negative and drawing has no undefined behaviour. The distribution function differs from the requested one by at most n times these bounds.", "quantifier": "for all roundings to nearest, all non-negative probabilities with positive sum and (8n+10)*n < 2^p, all positive rates, all engines", "why_tests_cant": "The assertion tests rounded probabilities against 1 and the shares depend on every rounding; failures occur for particular parameters only.", "anchors": ["include/boost/random/hyperexponential_distribution.hpp:575-737", "include/boost/random/hyperexponential_distribution.hpp:815-819", "include/boost/random/discrete_distribution.hpp:496-511"]}
{"id": "C169", "title": "piecewise_linear_distribution constructed in floating-point arithmetic", "statement": "With weights of bins, alias table and boundaries in floating-point arithmetic of p digits rounding to nearest, every constructor of piecewise_linear_distribution and param() succeed on valid parameters; on independent uniform numbers the distribution function is that of the polygon through the n given points up to n(64n+100)/2^p; with an engine, drawing has no undefined behaviour and every value lies in an interval where the density is not zero.", "quantifier": "for all roundings to nearest, all increasing boundaries, all non-negative weights not all zero with (16n+10)*2n < 2^p, all engines", "why_tests_cant": "Rounding errors depend on weights and boundaries, and a bin of weight zero is drawn for particular parameters only.", "anchors": ["include/boost/random/piecewise_linear_distribution.hpp:265-365", "include/boost/random/piecewise_linear_distribution.hpp:434-441", "include/boost/random/piecewise_linear_distribution.hpp:487-519"]}
