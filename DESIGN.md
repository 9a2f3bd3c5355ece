# Formal model of boostorg/random: design

## Method

The C++ headers in `/repo/include/boost/random` were read as text and transcribed, function by
function, into total computable Lean 4 functions. Nothing in `/repo` is compiled or run. Every
model definition cites the file and lines it transcribes, and says where it simplifies.

Layout of `lean/Verif`:

* `Model/X.lean`: transcription of the code (only definitions).
* `Spec/X.lean`: small, separate specifications: recurrences, counting, "z calls", byte streams.
* `Proofs/X.lean`: helper lemmas (invariants, refinement steps).
* `Props/X.lean`: the property theorems, named after the property (`c07_...`), each with a
  concrete `example` that meets its hypotheses, and the refutations (`..._false`, concrete
  witnesses) where a property does not hold for the code.

Conventions:

* Integers: unsigned values are `Nat` with explicit reduction mod `2^w` where the C++ type wraps;
  bit-level engines use `Nat` bit operations (`>>>`, `<<<`, `^^^`, `&&&`) or `BitVec`.
* Undefined behaviour (division by zero, signed overflow, out-of-range shift, out-of-bounds access)
  is a distinct outcome: `Res.ub`, or `none` in an `Option` that is documented as "undefined". A C++ exception is
  `Res.throw`.
* Engines are state machines (`state`, `next : state → value × state`). "z calls" is
  `Nat.iterate`/recursion on z in `Spec`.
* A distribution that draws from an engine is a function of the list of raw engine outputs
  (`List Nat`), returning the value and the rest of the list; running out of input is `none`.
  Rejection loops are then structurally recursive; no bound is put on their length.
* Uniformity is exact counting: number of input tuples accepted for each result is the same.
* Integer types narrower than `int` (8 and 16 bits) are promoted in `const_mod`, the congruential engines, the
  uniform integer distributions, `uniform_01` (C149-C151), seeding and `generate` (C25, C27, C137) and the Mersenne
  Twister (C156). Elsewhere all widths are >= 32 where the promotion matters. Widths between 17 and 31 do not exist and are treated like the wide ones.

## Trusted base

* Lean 4.33.0 kernel; Mathlib lemmas (compiled by the same kernel).
* Axioms: at most `propext`, `Classical.choice`, `Quot.sound` (printed for each theorem by
  `#print axioms`; see `AXIOMS.txt` if present). No added axioms, no `sorry`, no `native_decide`,
  no `bv_decide`.
* The transcription from C++ to Lean is by hand. It is checked by mutation testing
  (`seeded/LOG.jsonl`) and by evaluating the model against the values in the library's own tests
  (`Verif/Validation.lean`: the 10000-th value of every engine, seeded by default, from a `seed_seq` and from a range;
  `Verif/ValidationQrng.lean`, written by `tools/gen_validation_qrng.py`: the quasi-random sequences). These are tests of
  the model by evaluation in the compiler; no theorem depends on them.
* Not modelled: iostream formatting (a stream is the list of whitespace-separated tokens, except
  for `splitmix64`, where it is the list of characters), allocation, `random_device` on Windows,
  the compile-time dispatch by tag types (only the selected branch), the end-of-file behaviour of `is >> std::ws`
  (LWG issue 415). `std::random_shuffle`, which is not in the repository, is modelled as the loop of swaps that standard libraries
  use (`Program.shuffleTo`, C162). Headers without behaviour of their own (`auto_link`, `config`, `operators`, `generator_bits`,
  `iterator_mixin`, `disable_warnings`, `enable_warnings`, `traits`) are not modelled.
* Floating-point numbers are rationals. In `Model/RealDist.lean` every operation is followed by a function `fl`; theorems hold for
  every `fl` that is monotone, exact on and onto the numbers of the precision (all IEEE rounding modes), or for every rounding to
  nearest, or (where it says so) for exact arithmetic. Exponents are unbounded: no overflow, underflow, infinities or NaN. Elsewhere
  (`discrete_distribution` with real weights, construction of `piecewise_constant_distribution`) real arithmetic is exact in the first
  models, and rounded in `Model/DiscreteRound.lean` (C166) and `Model/PiecewiseRound.lean` (C167).
* The distributions that call `<cmath>` (`Model/RealOps.lean`) are modelled over an ordered field: `fl`, `sqrt`, `exp`, `log`, `pow` are
  parameters. Theorems are for the exact functions over the reals (`Spec.exactOps`), or for any functions with any rounding to nearest over
  the rationals, or (the counterexamples) assume the named value of a function to be correctly rounded. The literals of the code are those of `double`.
  The input is the list of results of `uniform_01`, which is modelled separately (C65).
* The ziggurat distributions (`Model/Ziggurat.lean`) read a `Source`: over the rationals the engine with `generate_int_float_pair` and
  `uniform_01`, over the reals a list of independent uniform draws. Probabilities (`Spec.prob`) are iterated Lebesgue integrals over the
  draws; a loop that does not end within its bound on the iterations counts as no result, so that the theorems bound this probability too.
  For the normal law the exponential numbers of the tail are ideal (inversion of a uniform number), not those of C82.
* The distributions that transform uniform, exponential and normal numbers (`Model/Variates.lean`) read `Numbers`: over the rationals those of
  the engine, over the reals one uniform number for each, transformed by inversion (`Spec.idealNumbers`; the normal number by the quantile
  function of `gaussianReal 0 1`). `Spec.chance` is the probability over independent uniform numbers. Results that may be infinite or NaN are
  of type `Ieee`, without the sign of zero and without overflow.
* The mixtures (`Model/Mixture.lean`) read `Mixed`: `uniform_int_distribution`, `uniform_01`, `uniform_real_distribution` and
  `unit_exponential_distribution`, over the rationals those of the engine, over the reals one uniform number each (`Spec.idealMixed`). The alias
  table inside is built in exact arithmetic, as for C51 and C52, and in floating-point arithmetic in `Model/HyperRound.lean` (C168) and
  `Model/LinearRound.lean` (C169); the weights put into it are rounded.
* Engines with floating-point results (`Model/FloatEngine.lean`) are the list of the values of their next calls; `flb` rounds to the type of the
  engine, `fl` to that of the distribution. `generator_bits` is a parameter. The engines themselves (`lagged_fibonacci_01`, `subtract_with_carry_01`)
  are modelled in `Model/LaggedFibonacci.lean` and `Model/Swc01.lean`; that their values are multiples of 2^-w in [0, 1) is the hypothesis `GridOutputs`,
  proved of them in C63 and `c122_range`.
* `subtract_with_carry_01_engine` (`Model/Swc01.lean`): every floating-point operation is rounded by `fl`, any function that returns a representable number
  exactly; that the results are exact is proved. Reading a number goes through an integral token scaled by 2^w as in the code.
* Text of the distributions (`Model/DistText.lean`): a stream is the list of numbers, brackets and other characters that remain, and `failbit`. A number is
  exact: `pr x` is the number that `operator<<` writes for `x`, and extraction rounds it. `bad` stands for characters that look like a number but
  are none. White space, formatting flags, `eofbit`, `badbit` and exceptions are not modelled; of a number with a fraction where an integer is
  expected the library would read the beginning only, the model fails.
* `uniform_on_sphere` (`Model/Sphere.lean`) is modelled for `std::vector`; a negative size is the exception of the constructor or of `resize`. It
  reads `Numbers`: `uniform_01` and `unit_normal_distribution`, over the rationals those of the engine, over the reals a uniform and a normal number
  (`Spec.idealNumbers`).
* The distributions made of gamma numbers (`Model/Gamma.lean`) read `Compound`: over the rationals the modelled `gamma_distribution` and
  `poisson_distribution` on the engine, over the reals one uniform number for each, transformed by the quantile function
  (`Spec.idealCompound`). That the modelled `gamma_distribution` has this law is C93, and C76 for `poisson_distribution`. Where the language
  leaves the order of two calls open, both are modelled (`Run.both`). Failed assertions of inner constructors are undefined behaviour.

* `random_device` (`Model/RandomDevice.lean`): the operating system is POSIX's `open`, `read` and `close`; which calls fail, how many bytes `read` delivers
  (at least one before the end of the file) and the bytes of the device are left open. `open` returns the lowest free descriptor, `close` releases the
  descriptor also if it reports an error. That the bytes of the device are uniform is not a statement about this code.

## Properties

| id | what is modelled | proof |
|---|---|---|
| C01 | `integer_log2` and its halving recursion | induction on the number of halvings |
| C02 | `const_mod` for an integer type (width, signedness); overflow of a signed type is `none` | case analysis on path; Schrage's lemma; induction for pow |
| C03 | `muldivmod` with 32-bit digits and 64-bit wrap | digit-step lemma (Knuth D); false in general (witness), partial under the guard that no step hits the overflow case |
| C04 | `invert_euclidian`, `invert_euclidian0` | extended Euclid invariant by strong induction |
| C05 | `subtract`, `add` of signed_unsigned_tools over w-bit two's complement | case analysis, omega |
| C06 | LCG `operator()`, `min`, `max` | from C02; iterate induction |
| C07 | LCG `discard` | geometric-sum identity; false in general (witnesses: a = 1, non-coprime (a-1)/gcd, a^z = 0), partial under exact guard |
| C08 | LCG `seed` | modular arithmetic |
| C09 | LCG `<<`, `>>` on token streams | direct |
| C10 | `minstd_rand0`, `minstd_rand`, `rand48` | primitive root via factored order (`orderOf`), Hull-Dobell for 2^48 |
| C11 | `rand48` | from C06/C07 |
| C12 | inversive engine | from C04, field inverse |
| C13 | LFSR step | bit-level spec; range false for w < digits (witness), partial for w = digits |
| C14 | LFSR seed and step | invariant |
| C15 | SWC circular buffer | refinement to the recurrence over an infinite sequence |
| C16 | SWC `discard` | case analysis on position; false for k = 0, 0 < z < r (witness), partial otherwise |
| C17 | SWC `==` | false (borrow ignored, witness); partial with equal borrow |
| C18 | SWC `<<`, `>>` | round trip |
| C19 | Model/LaggedFibonacci, Props/LaggedFibonacci | recurrence through the in-place block refill, range, discard, ==, text |
| C20 | `mersenne_twister_engine` twist, operator() | in-place block refill = sequence of the recurrence |
| C21 | seed, normalize_state | backward determinism: no n zero words ever |
| C22 | operator==, rewind | sequence extended backwards |
| C23 | <<, >> | rewind |
| C24 | MT `discard`, `discard_many`, `get_characteristic_polynomial`, `as_polynomial`, `reconstruct_state` (on the polynomials of C51) | loop by induction; the characteristic polynomial annihilates the low bits (shift operator as a linear map); existence of the impulse sequence; triangular solve by invariant; `reconstruct_state` by an invariant per bit; Frobenius for the second term of the polynomial of the typedefs |
| C25 | `get_one_int`, `seed_one_int`, `fill_array_int`, `seed_array_int`, `fill_array_real` on lists; seeding of LCG, MT, lagged Fibonacci, SWC | induction over the range |
| C26 | `seed_seq::generate` | refinement to a BitVec transcription of the standard; empty/64-bit cases false (witness) |
| C27 | `generate_from_int`, `generate_from_real` | invariant: words written + saved bits = number formed by the accepted digits; empty range false |
| C28 | `independent_bits` | refinement to the algorithm of the standard; UB proved for 3-valued engines |
| C29 | same | counting by recursion on the first base value |
| C30 | `shuffle_order` | index bound in each regime; multiset invariant |
| C31 | `discard_block` | invariant on (position, n) |
| C32 | `xor_combine` | false (witness), partial under guard |
| C33 | `additive_combine` | arithmetic |
| C34 | `splitmix64` | bijection of each xorshift and odd multiplication; additive generator of ZMod 2^64 |
| C35 | `splitmix64` streams as characters | false (witness); partial if the number is alone in the stream |
| C36 | `mixmax` | congruences mod 2^61-1; range false (witness), partial bound |
| C37 | `mixmax` streams | false at counter = N (witness); partial otherwise |
| C38 | `generate_uniform_int` | induction over the engine output list; false in the exact-power case (witness) |
| C39 | same | counting/bijection |
| C40 | `uniform_smallint` | counting |
| C41 | discrete_distribution.hpp: `integer_alias_table`, `real_alias_table` (rationals), `init`, `operator()(urng)` | mass invariant of the pairing loop generic in the arithmetic; counting of tuples through two draws per iteration (`cnt_bind`) |
| C42 | discrete_distribution.hpp: `probabilities`, `param`, `init` on an object in use, `==` | invariant of the accumulation loop; witness for the negation |
| C43 | discrete_distribution.hpp: `operator()(urng, parm)`, `try_get_sum` | reduction to C41; witnesses for the negation |
| C44 | qrng_base.hpp, gray_coded_qrng.hpp: constructor, `seed`, `operator()`, `compute_seq`, `update_quasi` | invariant: the vector held is the point of the Gray code; one step of the code flips one bit |
| C45 | qrng_base.hpp: `discard`, `discard_vector` | position arithmetic over the invariant; witness for the negation |
| C46 | qrng_base.hpp: `operator==` | position arithmetic; witness for the negation |
| C47 | qrng_base.hpp: `operator<<`, `operator>>` | seed and discard lemmas; witnesses for the negation |
| C48 | sobol.hpp: `sobol_lattice::resize`; detail/sobol_table.hpp (transcribed) | triangular direction numbers, linearity, pigeonhole; table checked by the kernel |
| C49 | int_float_pair.hpp 32-98 | any rounding; reduction to digits `pairNat`; witness for the negation |
| C50 | bernoulli_distribution.hpp | counting, exact and under any rounding; witness for the negation |
| C51 | detail/polynomial.hpp (all) | digit arrays as polynomials over ZMod 2; induction on the recursion of Karatsuba and on the rounds of the reduction; squaring is xor-linear (finite check of the masks and of the basis) |
| C52 | piecewise_constant_distribution.hpp: constructors, `param`, `operator()`; real part of discrete_distribution.hpp | invariant of the alias table; witness for the negation |
| C53 | `random_number_generator` | from C38/C39 |
| C54 | SWC seeding, step | invariant: not all-zero/all-ones |
| C55 | `shuffle_order` index | case analysis on the four regimes; false for full 64-bit bases (witness) |
| C56 | `==`, `<<`, `>>` of the four adaptors | bisimulation; relative to the bases |
| C57 | `ecuyer1988` | primitive roots (Lucas check in the kernel), lcm of the orders |
| C58 | LCG full period | Hull-Dobell theorem (lifting the exponent) |
| C59 | `linear_feedback_shift_engine`, `taus88` | through the adaptor theorems |
| C61 | `mixmax` refill | recurrence inverted element by element |
| C62 | `mixmax` seeding, skip table | polynomials in the matrix; table checked in the kernel |
| C63 | Props/LaggedFibonacci | floating lagged Fibonacci = integer sequence / 2^w, text |
| C64 | generate_canonical.hpp | any rounding for powers of two; exact arithmetic; witness for the negation under round to nearest |
| C65 | uniform_01.hpp, uniform_real_distribution.hpp | any rounding |
| C67 | int_float_pair.hpp 32-98 | counting; witness for the negation |
| C66 | niederreiter_base2.hpp 25-191, 234-249 on top of gray_coded_qrng.hpp | a column is the coefficients of a linear recurring block sequence with characteristic polynomial a power of the polynomial; independence from coprimality (Proofs/NbAlgebra, NbColumn), counting solutions of triangular systems over Gray codes (Proofs/NbNet) |
| C68 | as C66 | net property with one coordinate; evaluation of one column for the refutation |
| C69 | niederreiter_base2_table.hpp (generated by tools/gen_nb_table.py) | sieve in the kernel, lifted to irreducibility (Proofs/NbTable) |
| C70 | faure.hpp 36-100, 104-237, 267-354 on top of qrng_base.hpp | cache invariant; Pascal's triangle modulo b; the step matrix is the Taylor shift of a polynomial over the prime field; trial division of the table in the kernel, lifted |
| C71 | as C70 | monotone and relative-error bounds for any rounding to nearest; chain of 44 roundings for the refutation |
| C72 | as C70 | Chinese remainder argument for (X-d)^k over the prime field; counting |
| C73 | `binomial_distribution`: `init`, `invert`, `operator()` over any ordered field with rounding and `<cmath>` as parameters | loop invariant with the recurrence of the probabilities; Lebesgue measure of the interval |
| C74 | as C73 | Sterbenz' lemma; bound of the last step of the recurrence under rounding to nearest |
| C75 | `btrd`, `generate` | real inequalities for the bounding parameters; induction on the list of draws |
| C76 | `fc`, `ratioLoop`, `acceptNear`, `acceptFar`, `finalBound` | two-sided bounds for Stirling's formula from Mathlib's series; the table by verified integer bounds on logarithms |
| C77 | `poisson_distribution`: `init`, `invert`, `operator()` | loop invariant; measure; a verified trace in `double` and `float` with a stationary end |
| C78 | `ptrd`, `generate`, `accept`, `poisson_table` | as C75, C76 |
| C79 | `geometric_distribution`, the deprecated class | logarithm inequalities; measure |
| C80 | `exponential_table`, `normal_table` (decimal literals scaled by 10^23) | alternating series evaluated in the kernel for every entry; tail of the normal curve by a series and `π` to 20 digits |
| C81 | the tests in both `operator()` | convexity, concavity; the layer with the point of inflection by a separate argument |
| C82 | `unit_exponential_distribution::operator()`, `exponential_distribution::operator()` | area of the accepted part of each layer (Fubini); the loop as a contraction with the distribution function as fixed point |
| C83 | `unit_normal_distribution::operator()`, `normal_distribution::operator()` | as C82; link to `gaussianReal` of Mathlib |
| C84 | `generate_tail` | substitution; geometric series |
| C85 | the same over the engine | bucket below 256, induction over the iterations |
| C86 | `cauchy_distribution::operator()` | inversion; the literal against `π` to 20 digits; `cauchyMeasure` by the fundamental theorem |
| C87 | `weibull_distribution::operator()` | inversion; monotone rounding |
| C88 | `extreme_value_distribution::operator()` over `Ieee` (infinities and NaN) | inversion; case distinction |
| C89 | `triangle_distribution::init`, `operator()` | measure of the two parts of the unit interval |
| C90 | the same over `Ieee` | `u > fl(d1/d2)` implies `d2 u > d1` for monotone rounding; relative errors; witness in `double` |
| C91 | `laplace_distribution::operator()` | product of two uniform numbers |
| C92 | both `lognormal_distribution`s | image measure, moment generating function of `gaussianReal` |
| C93 | `gamma_distribution::init`, `operator()` | rejection from a tangent-transformed (shape > 1) or a two-piece (shape < 1) density; geometric series over the iterations |
| C94 | the same over the rationals with a rounding | congruence of functions; monotone rounding |
| C95 | `chi_squared_distribution`, `non_central_chi_squared_distribution` | scaling of `gammaMeasure`; noncentral square by the series of cosh; convolution of gamma densities |
| C96 | `beta_distribution::operator()` | change of variables in the product of two gamma densities |
| C97 | `fisher_f_distribution::operator()` | the same for the ratio, and exchange of two independent numbers |
| C98 | `student_t_distribution::operator()` | the same for the ratio with the root |
| C99 | `negative_binomial_distribution::operator()` | Poisson-gamma mixture by the gamma integral |
| C100 | C96 – C98 over `Ieee` with the engine's numbers | case distinction; witness words of `mt19937` |
| C101 | the two orders of the calls (`Run.both`) | witness words of `mt19937`; C97, C98 |
| C102 | the assertions of the constructors of the inner distributions | witnesses |
| C103 | `piecewise_constant_distribution::operator()` over a source of numbers | law of the alias table; finite sum of measures |
| C104 | `piecewise_linear_distribution`: constructors, `init`, `operator()`, `densities`, `param` | law of the alias table; maximum and minimum of two uniform numbers; induction over the intervals |
| C105 | the same over the rationals with a rounding | safe runs; monotone rounding |
| C106 | `hyperexponential_distribution`: constructors, `operator()`, `param` | law of the alias table; inversion |
| C107 | the same over the rationals with a rounding | safe runs |
| C108 | `hyperexp_detail::normalize`, `check_params`, `param_type` | error analysis, Sterbenz; witnesses |
| C109 | `uniform_on_sphere::operator()` over the reals | polar coordinates by the layer cake formula; change of variables for dimension 3; rejection |
| C110 | the same | case analysis of the runs |
| C111 | the same over the rationals with rounding to nearest | counting relative errors |
| C112 | `min`, `max`, `operator()` | exact norm; rounded square root of a rounded square; witnesses |
| C113 | constructors, `param`, `operator>>`, `operator<<`, `operator==`, `operator()` | case analysis; witness |
| C114 | `operator()` | safe runs; congruence |
| C115 | `uniform_int_float`, `generate_uniform_int(false_type)` | exact products; transfer of C38 and C39 along the conversion |
| C116 | `uniform_smallint::generate(false_type)` | the computed size is at most 2^W under rounding to nearest |
| C117 | the same | counting the multiples in an interval |
| C118 | `new_uniform_01::operator()`, `generate_uniform_real(false_type)` | induction over the values read |
| C119 | `generate_canonical_impl(false_type)`, `generate_canonical` | loop invariant; digits; witnesses |
| C120 | `bernoulli_distribution::operator()` | counting |
| C121 | `generate_int_float_pair(false_type)` | bucket case of `uniform_int_distribution`; counting |
| C122 | `subtract_with_carry_01_engine` | simulation by the integer engine: every operation is exact |
| C123 | its `discard` | simulation; exact condition; witness |
| C124 | its `operator==` | the table oldest first; witness |
| C125 | its `operator<<`, `operator>>` | induction over the words read |
| C126 | `ranlux.hpp` | C15, C122 composed with `discard_block` |
| C127 | `subtract_with_carry_engine`, `ranlux.hpp` | the linear congruential sequence behind the engine; Lucas certificates for 2^576 - 2^240 + 1 and the prime factors of its predecessor |
| C128 | `binomial_distribution::generate` | measure-preserving pieces of the map from the unit square; the derivative of the transformation integrates to 1 over each candidate |
| C129 | `poisson_distribution::init`, `generate` | as for C128, with the error of the acceptance test; that the region lies below the hat, above the rectangle of quick acceptance and below the triangle of quick rejection for all means: affine arithmetic over rectangles of (1/sqrt(mean), position), evaluated by the kernel (`Proofs/Affine.lean`, `Proofs/PtrdBox.lean`, tables `PtrdHatR`, `PtrdHatL`, `PtrdLow`), and analytic bounds in the tails |
| C130 | `operator<<` and `operator>>` of the distributions | error of a decimal text against the distance of representable numbers; double rounding through `double` |
| C131 | `operator>>` of the distributions | case analysis of the extractions, shared lemma for `param_type` |
| C132 | `operator>>` of the distributions | the same |
| C133 | `vector_io.hpp`, `operator<<` and `operator>>` of the distributions with vectors | induction on the text; the alias table lemmas of C51 and C104 |
| C134 | `operator==` of the distributions | members determined by parameters |
| C135 | `mersenne_twister_engine` with the parameters of the three typedefs | the characteristic polynomial of C24 divides `X^(2^k) - X`: repeated squaring modulo the polynomial on numbers of k bits, evaluated by the kernel in pieces (`Proofs/MtSquares`, written by `tools/gen_mt_squares.py`, which is not trusted); `2^k - 1` is prime by the Lucas-Lehmer test, evaluated by the kernel; a sequence of period 1 is zero |
| C136 | the same | the windows of significant bits in a period are different from each other and from zero, and as many as there are |
| C137 | `seed(SeedSeq&)`, `seed(first, last)` of every engine, `subtract_with_carry_engine::seed(value)` | both reduced to the digits of C25; `seedOneInt` against `getOneInt` on the same words; `swcSeeder` against powers |
| C60 | `linear_feedback_shift_engine`, `taus88` and its seeding | bits of the sequence as a module over GF(2)[X] with the shift; order of the trinomials by square and multiply on numbers, inverses of `X^(N/p) - 1` as certificates, evaluated by the kernel; periods without common divisors |
| C138 | the same | counting; each pair of components spans all 32-bit words (preimages of the powers of two, checked by the kernel); inclusion and exclusion of zero |
| C139 | `lagged_fibonacci_engine`, `lagged_fibonacci_01_engine`, their seeding | Brent: sequences as a module over Z[X]; `X^(2^p - 1) = 1 + 2 U` modulo the trinomial, a relation modulo 4 shows that neither `U` nor `U + 1` has a factor in common with it; repeated squaring modulo the trinomials and the Lucas-Lehmer test evaluated by the kernel |
| C140 | `lagged_fibonacci_01_engine::seed(value)` | backward determinism, first word injective in the seed |
| C141 | `inversive_congruential_engine::operator()`, `hellekalek1995` | the orbit of `b` is `u(n+1)/u(n)`, d'Ocagne's identity; the zeros of the Lucas sequence are the multiples of the first, `u(2^30)` and `u(2^31)` by doubling |
| C142 | `linear_congruential_engine`, `rand48`, `additive_combine_engine`, the typedefs | counting arguments: the state 2^47 calls later differs in the top bit only; of three differences congruent modulo m1 - 1 two are equal |
| C143 | `sobol_lattice::resize`, the default table, `gray_coded_qrng` | row r of the direction numbers satisfies p(shift) row(r) = row(r-e): the leading k e rows are annihilated by p^k and triangular; coprime powers and a prefix of M columns; counting solutions of linear equations; the table by a mask of irreducible polynomials |
| C144 | `shuffle_order_engine::operator()` and `init`, `knuth_b`, `kreutzer1986` | an element put into the table is returned at the next visit of its slot: a period of the values is a period of the base; pigeonhole on table, value and place in the base's cycle; a fresh table never holds the base value that a repetition would need |
| C145 | `random_device::impl::next`, `generate`, `min`, `max`, `entropy`; POSIX `read` as a parameter | invariant of the loop (bytes stored so far, offset), induction on the iterations and on the range |
| C146 | constructors, destructor, `operator()` of `random_device` in programs; POSIX `open`, `close`: lowest free descriptor | invariant (descriptors = those before + one per object, no duplicates) by induction on the actions |
| C147 | `poisson_distribution::init`, `generate`, `operator()` | C129 for each round; the round is independent of what follows; induction on the rounds with sandwiching measurable sets |
| C148 | `variate_generator`, `ptr_helper`, programs that use them | simulation by induction on the program: invariant that the generators in a set, and no others, refer to an engine |
| C149 | `new_uniform_01`, `backward_compatible_uniform_01` with integral promotions | the old form on a narrow type is the new form on `int`; induction on calls |
| C150 | `const_mod`, `linear_congruential_engine` with integral promotion | the specifications of C02, C04 with the overflow of `int` as an outcome; induction on calls; Hull-Dobell |
| C151 | `generate_uniform_int`, `uniform_smallint`, `random_number_generator`, `add`, `subtract` with integral promotion | refinement of the same abstract algorithm for all types |
| C152 | `generate_uniform_int`, `random_number_generator`, `independent_bits_engine` | mean over all lists of engine values of the number used; recursion on the first value, averaged over the digits read; Markov's inequality |
| C153 | the same | counting of C39, C29 summed over all lengths (the loops look only at the values they use) and C152 |
| C154 | `discrete_distribution` with integer weights | C152 composed along the loop: mean of a draw followed by another, probability of accepting a pair counted by the alias table of C41 |
| C155 | Mersenne Twister, congruential and inversive engines under the distributions | equidistribution (C136) summed over all lists of engine values; C39, C152, C154; full periods of C58 and C141 |
| C156 | `mersenne_twister_engine` on types of at most 16 bits | model with `int` operators and explicit conversions, equal to the model of the wide types |
| C157 | `detail/seed.hpp`, one-argument and two-argument constructors of the engines | overload resolution on references and templates, and what the chosen constructor does to both engines |
| C158 | `extra/haertel.hpp`: `additive_congruential`, `lagged_fibonacci_int` | functions on the array of values, unassigned elements distinct |
| C159 | `mixmax`: period, distinct seeds | powers of the matrix as packed polynomials, evaluated in the kernel; order argument with two prime factors of `(p^17 - 1)/(p - 1)` |
| C160 | `mixmax_engine`: equidistribution | `N` consecutive outputs are a bijective linear image of the vector; counting; sharpness by the zero vector |
| C161 | calls in turn on one engine | lower bounds of probabilities multiply along `Draw.bind`; bounds that add up to one are the law |
| C162 | `uniform_int`, `random_number_generator` in `std::random_shuffle`, `example/password.cpp` | every order comes from an order of one element fewer by one swap; C161 |
| C163 | `example/intersections.cpp` | the square is mapped to the disc with constant Jacobian and from there as in C109; C66 for the shares |
| C164 | `sobol`, `niederreiter_base2`, `faure` | Niederreiter's induction on the dimension for nets in any base, applied to the nets of C143, C66 and C72 |
| C165 | `sobol`, `niederreiter_base2`, `faure` | every cube of side b^-k holds its share of the points of a net; the integral is split into these cubes |
| C166 | `discrete_distribution` with real weights in floating-point arithmetic; example/weighted_die.cpp | the mass invariant of C41 up to rounding errors; what is left unpaired lies on one side of 1, so it is no further from 1 than the total error; value 0 gets no mass or all of a column |
| C167 | `piecewise_constant_distribution`, all constructors and `param` in floating-point arithmetic | a rounded alias table is the exact table of weights nearby (its column masses), to which C52 applies; weight zero stays zero by C166; midpoints and the boundaries of a grid are within a few rounding errors of the exact ones |
| C168 | `hyperexponential_distribution`, constructors and `param` in floating-point arithmetic | the rounded alias table is the exact table of probabilities nearby (C167), to which the law of C107 applies; sums of columns rounded to nearest are at most their total, so the probabilities read back are at most 1 |
| C169 | `piecewise_linear_distribution`, all constructors and `param` in floating-point arithmetic | weights of bins within four rounding errors; the rounded alias table is the exact table of weights nearby (C167); the distribution function is a sum over bins with factors at most 1; intervals without width have weight zero |

## Findings: properties that do not hold for the code

Each is proved as a `..._false` theorem with a concrete witness; beside it stands a `..._partial`
theorem under the condition that makes the property true.

* C02/C03/C06: the 128-bit `muldivmod` computes a wrong quotient digit when the estimate overflows;
  multiplication modulo some 64-bit moduli is wrong.
* C06: a multiplicative engine whose multiplier is not relatively prime to the modulus reaches 0.
* C07: `linear_congruential_engine::discard` is wrong when `(a-1)/gcd(a-1,m)` is not invertible, and
  divides by zero for `a = 1`.
* C12: inversive engine with `a = 0`.
* C16: `subtract_with_carry::discard(z)` from position 0 with `0 < z < r`.
* C17: `subtract_with_carry::operator==` ignores the borrow.
* C38: `uniform_int_distribution` omits `+ min` when the engine range is an exact power.
* C32: `xor_combine_engine::min()/max()` ignore shifts and the exclusive or; `max()` of the
  deprecated `xor_combine` uses the first base's minimum.
* C55: `shuffle_order_engine` over an engine that fills a 64-bit type uses two table entries only.
* C13: `linear_feedback_shift_engine` does not mask its result: if `UIntType` has more than `w` bits values exceed `max()`.
* C14: `linear_feedback_shift_engine::seed` shifts an `int` by `w-k`, not defined if `w-k > 30`.
* C35: `splitmix64`'s `operator>>` reads to the end of the stream, leaves it failed, and concatenates all digits found.
* C36: a `mixmax` element can be `2^61`, above `max()`, because `MOD_MERSENNE` does not reduce fully.
* C37: `mixmax`'s `operator>>` rejects the counter value `N`, which occurs every `N-1` calls.
- **lagged_fibonacci ==** (C19) compares the position in the block as well as the table, so two engines with the same future may compare different, against the documentation (`c19_eq_complete_false`).
- **mersenne_twister with r = 0** (C20): `twist` tests the lowest bit of `x[j+1]` instead of the lowest bit of `y`; for `r = 0` these are different words (`c20_r_zero_false`). No typedef has `r = 0`.
- **mersenne_twister >>** (C22, C23) does not call `normalize_state`: an array read may have redundant bits that `==` compares (`c22_eq_unnormalized_false`), and may be degenerate, returning only zeros for ever (`c23_degenerate_text_false`).
- `seed_seq::generate` on an empty range computes `k % 0` instead of doing nothing (C26). Into a range of a 64-bit type it stores `r2` and `r4` without the mask, and the surplus bits get back into the low 32 bits through `>> 27`, so that the values differ from the standard's (C26).
- `generate(first, last)` of every engine writes `*first` before comparing `first` with `last`: an empty range is written past its end (C27).
- `detail::pow2<double>(64)` is 1, not `2^64` (`const_pow` gets the bound `digits / 32 = 1`): a 64-bit `lagged_fibonacci_01_engine<double>` would be seeded wrongly (C25, `c25_pow2_false`).
- `independent_bits_engine` over a base engine with exactly three values: for `w >= 3` the retry with `n + 1` gives `n + 1 > w`, so the assertion `w >= n` fails and with assertions off there is a shift by `-1` (`c28_three_values_false`).
- C42: `init` resizes the alias table and leaves the `.second` of full columns as they are; an object that held `{0, 0, 5}` and is given `{7}` keeps a reference to value 2, `probabilities()` then writes past the end of its vector and `==` with a new object is false (`c42_roundtrip_false`).
- C43: the test in `try_get_sum` is the wrong way round: the quick path is taken only if the first weight is the greatest value of its type, and there the sum overflows (`c43_max_first_false`).
- C43: with real weights and an empty parameter list, `operator()(urng, parm)` returns -1 (`c43_real_empty_false`).
- C45: in dimension one, after a call, `discard(2^64 - 1)` does not throw but goes back one position: the number of vectors wraps to zero (`c45_discard_false`).
- C46, C47: text of an engine read into an engine of another dimension with the same sequence number keeps the old vector, cut or filled up with zeros: the engine compares equal to the original but returns other values (`c47_roundtrip_false`, `c46_eq_false`).
- C47: if reading throws after the dimension has been changed, the next call may read past the end of the vector (`c47_throw_false`).
- C48: `sobol_engine` with fewer bits than the degree of a polynomial used writes past the end of a vector in its constructor (`c48_small_false`).
- C48: `min()` of the Sobol engine is 0, called a tight lower bound in gray_coded_qrng.hpp, but 0 is never returned (`c48_min_false`).
- C49: `generate_int_float_pair` evaluates `engine_t(1) << (0 - 1)` when the digits of the engine exactly fill integer and fraction, that is, when the number `m` of engine bits divides `digits + w` (and `m - w % m < digits`). For the `w = 8` of the normal and exponential distributions: `float` with an 8- or 16-bit engine, `long double` (64 digits) with `ranlux24` or an 8-bit engine (`c49_shift_false`).
- C67: if the first digit has more bits than the fraction, as with `mt19937_64` and `double`, the code clears the single bit `m - digits` where it means to clear the bits below; the fraction `2^-53` never occurs, and odd multiples of `2^-53` are less frequent (`c67_first_digit_false`).
- C50, C65: `bernoulli_distribution` and `uniform_01` subtract in the result type of the engine: signed overflow for an engine that has all values of `int` (`c50_signed_false`). `uniform_real_distribution` is not affected (it subtracts in the unsigned type).
- C52: the range constructors of `piecewise_constant_distribution` with fewer than two boundaries set the boundaries to `{0, 1}` but keep all weights (`param_type` even appends one), so that a boundary past the end is read (`c52_ranges_false`).
- C64: `generate_canonical<double, 53>` with `ecuyer1988` can return `1 + 2^-52`: the sum of the digits is rounded up and the power of the range is rounded down; only `result == 1` is corrected (`c64_ecuyer_false`). With assertions the program stops at `BOOST_ASSERT(result <= 1)`.
- C51: `sparse_mod` writes (xor with 0) one digit past the end of the array for some moduli, e.g. `X^63 + X + 1` with a 64-bit `unsigned long` (`c51_overrun_false`); it cannot happen when the degree modulo the digit size is below half of it, and does not for the polynomials of the Mersenne Twisters of the library.
- C51: `mod_pow_x(1, X + 1)` is 0 instead of 1: the first power is not reduced (`c51_linear_false`).
- C51: `multiply_add` with an empty right factor never ends (`c51_empty_false`); `operator*` takes the address of the first element of an empty vector.
- C24: `mersenne_twister_engine` with a `UIntType` wider than `w` (`uint_fast32_t` of 64 bits and `w = 32`): `reconstruct_state` does not mask the words, so that after `discard(z)` with `z` above the threshold the engine returns wrong values, above `max()` (`c24_wide_false`).
- C24: for template arguments whose polynomial does not fit (finding on `sparse_mod` above) `discard` writes outside an array (`c24_overrun_false`). The typedefs of the library are not affected.
- C68: when the degree e of the polynomial does not divide the word size w, the last block of `niederreiter_base2_lattice::resize` needs a power of the polynomial of degree above w, which `modulo2_multiply` cuts off at the width of the bitset. For `niederreiter_base2` (64 bits) and the fourth polynomial x^3+x+1 all direction numbers come out even, so the fourth coordinate never has its lowest bit set and `max()` is never returned in it (`c68_permutation_false`).
- C70: `integer_pow` in faure.hpp squares the base once more than needed: with a signed `SeqSizeT` the last square overflows although the power itself is in range (`c70_signed_false`).
- C71: `faure_engine<double, ...>` of dimension 4 (base 5) returns `1 + 2^-51`, above `max()`, as second coordinate of point 10483355094225109, whose digits there are 23 times the digit 4 (`c71_range_false`).
- C45: `faure_engine` has the same error in dimension one (`c45_faure_false`).
- C73: `binomial_distribution(t, p)` computes `t + 1` in `IntType` (binomial_distribution.hpp:278); for the largest value of the type that overflows.
- C74: the inversion for small `t*p` can return `t + 1` or `-1`: with `double`, `t = 3`, `p = 27/64`, the value `1 - 2^-53` of `uniform_01` gives 4, and with `p = 37/64` it gives -1 (binomial_distribution.hpp:369-396). Proved: never further out of range than that.
- C75: the transformed rejection converts a candidate to `IntType` before it tests the range (binomial_distribution.hpp:321); for `t = 100`, `p = 1/2` in `int` the candidate is out of range of the type when the second value is at most `2^-40`, and infinite when it is 0.
- C76: the squeeze of the rejection is not valid far below the mode: `t = 10000`, `p = 0.005`, `k = 0` is accepted at `v = e^-45` although `P(0)/P(50) < e^-45` (binomial_distribution.hpp:348).
- C77: with rounding, the inversion of `poisson_distribution` may not end before the counter overflows: mean `83/64` in `double`, mean `59/128` in `float`, with the largest value of `uniform_01` (poisson_distribution.hpp:326-331).
- C78: a candidate that is out of range of `IntType` can be accepted and converted, when the second value of `uniform_01` is zero (poisson_distribution.hpp:302-316).
- C79: `geometric_distribution` converts the quotient of logarithms without a test of its range (geometric_distribution.hpp:159): `p = 2^-40`, `u = 1/2` in `int`; and for `p < 2^-54` the divisor is zero.
- `triangle_distribution` may return a value below `min()`: with the parameters (-1.9, -1.9, 0.2) in `double` and `uniform_01` at its greatest value the result is -1.9000000000000001 (`c90_triangle_false`).
- `extreme_value_distribution` returns minus infinity when `uniform_01` gives zero, once in 2^32 values for `mt19937` (`c88_extreme_value_infinite`).
- `beta_distribution`, `fisher_f_distribution` and `student_t_distribution` return NaN when both gamma numbers underflow to zero: for shapes of 1/256 and less on few chosen words of `mt19937`, and for a shape of 0.001 in about every fourth call of `beta_distribution` (`c100_nan_false`).
- The value of `fisher_f_distribution` and `student_t_distribution` depends on the order in which the compiler evaluates two calls in one expression: `fisher_f_distribution(2, 2)` gives 2 or 1/2 on the same four words of `mt19937` (`c101_order_false`).
- `negative_binomial_distribution` documents `k >= 0 && 0 <= p <= 1`, but `k = 0` and `p = 1` fail assertions of `gamma_distribution`, `p = 0` asks for an infinite mean (`c102_parameters_false`); for the default parameters a zero of the gamma number fails the assertion of `poisson_distribution` (`c102_mean_false`).
- `hyperexp_detail::normalize` can make the last probability negative: 7, 1, 1, 1, 2, 0 in `double` end with -2^-52, and the assertion `check_params` fails for valid arguments (`c108_assert_false`).
- `hyperexponential_distribution::param_type(rate_first, rate_last)` does not normalize the probabilities, although its comment says "will be normalized below" and the documentation says 1/k: `probabilities()` is 1, 1, … (`c108_rates_false`).
- `uniform_on_sphere<double>(2)` can return (-1, -2^-31), which is less than `min()` (`c112_min_false`), and `uniform_on_sphere<double>(3)` a point with the first coordinate 1 + 2^-52, which is greater than `max()` (`c112_max_false`).
- `operator>>` of `uniform_on_sphere` stores a negative number before `resize` throws; the object then has a negative dimension, and if its container was empty `operator()` never returns (`c113_negative_false`).
- `generate_canonical` on engines with real results (`lagged_fibonacci607`, `ranlux3_01`, …): the first value is stored as the fraction `g()` where the other values are stored as `floor(g() * 2^w)`. If the engine has at least the asked number of bits the result is `g() / 2^w`, at most 2^-w (`c119_law_false`): `generate_canonical<double, 24>` and `generate_canonical<float, b>` with `lagged_fibonacci607` return numbers below 2^-47. With 53 bits, results above 1/2 have 48 random bits in place of 53 (`c119_bits_false`).
- `uniform_smallint` on a `double` engine over the whole range of a 64-bit type has an undefined conversion under upward rounding (`c116_upward_false`); rounding to nearest is safe (C116).
- `subtract_with_carry_01_engine`, and with it the `ranlux*_01` engines, shares the defects of the integer engine: `discard(z)` with `0 < z < r` on a freshly seeded engine updates nothing (`c123_discard_false`), and `operator==` ignores the borrow (`c124_equal_futures_false`). `discard` of the `ranlux` adaptors is right, since `discard_block` makes the calls one by one (`c126_discard`); their comparison is not (`c126_equal_false`).
- `ranlux64_base` (`w = 48, s = 10, r = 24`), used by `ranlux64_3`, `ranlux64_4` and their `_01` variants, has the composite modulus 2^1152 - 2^480 + 1 (divisible by 521), unlike the other bases: its period depends on the seed, and there are seed tables with a period of 65 (`c127_ranlux64_false`).
- C130: `operator<<` writes parameters with the precision of the stream, six digits by default, so that a distribution read back is in general another one (`c130_default_precision_false`); only with `max_digits10` digits is it the same. `geometric_distribution` and `triangle_distribution` of `long double` are read as `double` whatever the precision (`c130_long_double_false`).
- C131: `bernoulli`, `cauchy`, `exponential`, `normal`, `lognormal` and `uniform_smallint` (and the deprecated `lognormal`) read directly into their members: a failed read leaves a rate or deviation of zero behind (`c131_members_false`).
- C132: `operator>>` accepts invalid parameters in most distributions; `operator<<` or `param()` then fails an assertion (`uniform_real` for `1 1`, `poisson` for `-1`, `beta` for `-1 -1`). The deprecated `geometric_distribution` fails an assertion while it reads `2` (`c132_false`).
- C133: `read_vector` takes `[1 1e999]` for `[1]` (`c133_unreadable_false`). `piecewise_constant_distribution` accepts `[0 1][1 1]` and then reads outside its boundaries; `piecewise_linear_distribution` has undefined behaviour while it reads `[][]`; `hyperexponential_distribution` accepts negative rates (`c133_mismatch_false`). `discrete_distribution` read into an object that has had more weights compares unequal, and writing it reads outside its table (`c133_history_false`).
- C134: `binomial_distribution` overflows `t + 1` while it reads the greatest value of `IntType` (`c134_total_false`).
- **Length of cycle of the lagged Fibonacci engines** (C139): doc/generators.qbk:67-75 gives about 2^32000 for `lagged_fibonacci607` up to 2^2300000 for `lagged_fibonacci44497`. The period is at most 2^47 (2^p - 1), below 2^654 and 2^44544 (`c139_documented_false`: the documented numbers exceed the 40th powers of these bounds).
- **lagged_fibonacci seeded from a range** (C139): unlike the Mersenne Twister nothing prevents a table of zeros, or one in which all elements are even; from words that are zeros the engine returns 0 for ever (`c139_zeros_false`).
- **Length of cycle of rand48** (C142): doc/generators.qbk:57 gives 2^48 - 1; it is 2^48 (`c142_rand48_documented_false`).
- `knuth_b`: doc/generators.qbk gives the length of cycle 2^31 - 2. A freshly seeded engine never returns to its beginning, after 2^31 - 2 calls or any other number (`c144_knuth_b_documented_false`); the cycle it enters later has a length that is a multiple of 2^31 - 2 (`c144_knuth_b`). Whether that multiple is 2^31 - 2 itself is not decided here.
- `random_device`: the documentation promises `std::ios_base::failure` for an error or the end of the file; what is thrown is `boost::system::system_error` (`c145_documented_false`). An interrupted call (`EINTR`) is treated as an error, and the bytes read before it are lost.
- `random_device::impl::~impl` throws if `close` reports an error. A destructor does not let exceptions out (C++11): the program ends (`c146_destructor_false`).
- C149: `new_uniform_01` converts `eng.max() - eng.min()` and `eng() - eng.min()` back to the result type of the engine. For a signed type narrower than `int` the differences, computed in `int`, need not fit: with a `short` engine on [-20000, 20000] it returns negative numbers, with all values of `short` it divides by zero (`c149_narrow_false`). The deprecated form has no such conversion and is right (`c149_exact`).
- C150: `const_mod` multiplies `unsigned_type`s and relies on them wrapping; for `uint16_t` the product is computed in `int` and overflows (undefined behaviour) when it reaches 2^31. `linear_congruential_engine<uint16_t, 47485, 1, 0>` is undefined at its second call (`c150_full_period_false`). All other moduli of 8- and 16-bit types are safe (`c150_const_mod_partial`).
- C153: by the defect of C38 the law is wrong for ranges whose size is a power of the number of engine values: a die asked for 1..36 returns 0 with probability 1/36 (`c153_law_false`).
- C156: a Mersenne Twister on `uint8_t` or `uint16_t` computes its masks as `(~UIntType(0)) << r`, a left shift of the `int` -1: undefined before C++20, in every constructor (`c156_cpp17_false`). With 16-bit words and a multiplier `f >= 32769` the product in `seed(value)` overflows `int`, for the seed 65532 at the latest, under every version of the language (`c156_seed_false`).
- C157: `discard_block_engine(const base_type&)`, documented to copy the engine, is not called for a variable of the base type: the constructor template for seed sequences is a better match for an lvalue that is not `const`. So `minstd_rand0 rng(1); discard_block_engine<minstd_rand0, p, r> e(rng);` seeds `e` from `rng` and advances `rng` by five values (`c157_base_false`); likewise `shuffle_order_engine` and `independent_bits_engine`. `disable_constructor` excludes only the class itself and arithmetic types. So an engine constructed from a variable of a derived class is seeded from it, too (`c157_derived_false`), and `shuffle_output<...> b(a)` is no copy of the variable `a` (`c157_shuffle_output_copy_false`), which also happens inside `variate_generator`.
- C158: `lagged_fibonacci_int::seed(start)` in `extra/haertel.hpp` does not use `start` (`c158_fib_seed_false`), and `seed(gen)` assigns 607 elements whatever the size of the array (`c158_fib_size_false`). `MRG_Acorn7` has the period `2^30 - 35` only, that of its first order (`c158_acorn7`).
- `example/intersections.cpp` makes the two points of a chord of the four coordinates of one quasi-random point, but `uniform_01<double>` takes another value when one is rounded to 1: after the point whose first coordinate is 2^64-1 every point is made of the wrong coordinates (`c163_shift`).
- C167: `piecewise_constant_distribution(nw, xmin, xmax, f)` with intervals narrower than the spacing of the floating-point numbers gets boundaries that are equal; drawing from such an interval never ends (`c167_func_false`: three intervals between 1 and 1 + 2^-52).
