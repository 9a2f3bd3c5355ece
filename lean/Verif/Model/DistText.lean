import Verif.Model.Gamma
import Verif.Model.Poisson
import Verif.Model.Binomial
import Verif.Model.Mixture

/-!
# Text representation and comparison of the distributions

Model of `operator<<`, `operator>>` and `operator==` of the distributions and of their `param_type`s, and of
`include/boost/random/detail/vector_io.hpp`.

A stream is the list of what remains to be read and the fail bit. White space only separates numbers and is skipped before every item.
Numbers are exact: `os << x` writes the number `pr x`, which depends on the precision of the stream, and `is >> x` rounds the number that it
finds. Two numbers next to each other are separated by white space, as in everything that is written here. Formatting flags, `eofbit`,
`badbit` and exceptions of the stream are not modelled.
-/

namespace Boost.Random.DistText

/-- What a text consists of. `bad v`: characters that look like a number but are none, as `1e999`, `-` or `1e`; extraction takes them, stores
`v` and fails. `junk`: any other character; extraction of a number leaves it. -/
inductive Item where
  | num (v : ℚ)
  | bad (v : ℚ)
  | open
  | close
  | junk
  deriving DecidableEq

/-- An input stream: what remains, and `ok = !fail()`. -/
structure Str where
  rest : List Item
  ok : Bool
  deriving DecidableEq

/-- Arithmetic in `RealType`, the value of the text written for a number, and rounding to `double`. -/
structure Text extends RealOps ℚ where
  pr : ℚ → ℚ
  dbl : ℚ → ℚ

/-- `is >> x` for a floating-point type with the rounding `fl`, and the new value of `x`. As in the standard library a stream that has failed
leaves `x` alone, and an extraction that fails stores zero. -/
def Str.real (fl : ℚ → ℚ) (s : Str) (x : ℚ) : Str × ℚ :=
  match s.ok, s.rest with
  | false, _ => (s, x)
  | true, .num v :: r => (⟨r, true⟩, fl v)
  | true, .bad v :: r => (⟨r, false⟩, v)
  | true, r => (⟨r, false⟩, 0)

/-- `is >> x` for an integer type. A number out of range is taken, the nearest value is stored and extraction fails; a negative number read
into an unsigned type wraps. Simplified: a number with a fraction or an exponent, of which the library would read the beginning only, is
taken to fail. -/
def Str.int (T : IntTy) (s : Str) (x : Int) : Str × Int :=
  match s.ok, s.rest with
  | false, _ => (s, x)
  | true, .num v :: r =>
    if v.den = 1 then
      if T.signed then
        if v.num < -(T.maxv : Int) - 1 then (⟨r, false⟩, -(T.maxv : Int) - 1)
        else if (T.maxv : Int) < v.num then (⟨r, false⟩, T.maxv)
        else (⟨r, true⟩, v.num)
      else if 0 ≤ v.num ∧ v.num ≤ T.maxv then (⟨r, true⟩, v.num)
      else if -(T.maxv : Int) ≤ v.num ∧ v.num < 0 then (⟨r, true⟩, v.num + 2 ^ T.bits)
      else (⟨r, false⟩, T.maxv)
    else (⟨r, false⟩, 0)
  | true, .bad v :: r => (⟨r, false⟩, v.floor)
  | true, r => (⟨r, false⟩, 0)

/-- `is >> ch`: the next character that is no white space, and whether it is `c`; a character that is not is put back and `failbit` is set.
vector_io.hpp:44-49, 59-63. -/
def Str.char (c : Item) (s : Str) : Str :=
  match s.ok, s.rest with
  | true, x :: r => if x = c then ⟨r, true⟩ else ⟨x :: r, false⟩
  | _, r => ⟨r, false⟩

/-- `is.setstate(std::ios_base::failbit)`. -/
def Str.fail (s : Str) : Str := ⟨s.rest, false⟩

/-- What can be done with an object of the type `D`: `operator<<` (`none`: an assertion fails or the behaviour is undefined), `operator>>`
(`none` likewise) into an object, and `operator==`. -/
structure Io (D : Type) where
  write : D → Option (List Item)
  read : Str → D → Option (Str × D)
  eq : D → D → Bool

/-- `param_type parm; if(is >> parm) d.param(parm);`, as in most distributions: `parm` is read from the default value, `set` is `param(parm)`. -/
def viaParam {P D : Type} (readParam : Str → P → Str × P) (default : P) (set : D → P → Option D) (s : Str) (d : D) : Option (Str × D) :=
  let r := readParam s default
  if r.1.ok then (set d r.2).map fun d' => (r.1, d') else some (r.1, d)

/-- `is >> x >> std::ws >> y` with numbers of `RealType`. -/
def two (fl : ℚ → ℚ) (s : Str) (p : ℚ × ℚ) : Str × (ℚ × ℚ) :=
  let r := s.real fl p.1
  let q := r.1.real fl p.2
  (q.1, (r.2, q.2))

/-! ## Distributions that read into their members -/

variable (F : Text)

/-- `bernoulli_distribution`, with the member `_p`; bernoulli_distribution.hpp:158-176, 182. -/
def bernoulli : Io ℚ where
  write p := some [.num (F.pr p)]
  read s p := some (s.real F.fl p)
  eq p q := p = q

/-- `cauchy_distribution`, with the members `_median` and `_sigma`; cauchy_distribution.hpp:174-193, 203-204. -/
def cauchy : Io (ℚ × ℚ) where
  write d := some [.num (F.pr d.1), .num (F.pr d.2)]
  read s d := some (two F.fl s d)
  eq d e := d.1 = e.1 ∧ d.2 = e.2

/-- `exponential_distribution`, with the member `_lambda`; exponential_distribution.hpp:349-367, 375. -/
def exponential : Io ℚ where
  write l := some [.num (F.pr l)]
  read s l := some (s.real F.fl l)
  eq l m := l = m

/-- `normal_distribution`, with the members `_mean` and `_sigma`; normal_distribution.hpp:334-354, 363. -/
def normal : Io (ℚ × ℚ) where
  write d := some [.num (F.pr d.1), .num (F.pr d.2)]
  read s d := some (two F.fl s d)
  eq d e := d.1 = e.1 ∧ d.2 = e.2

/-- `random::lognormal_distribution`, with the member `_normal`; lognormal_distribution.hpp:158-177. -/
def lognormal : Io (ℚ × ℚ) where
  write d := (normal F).write d
  read s d := (normal F).read s d
  eq d e := (normal F).eq d e

/-- `uniform_smallint`, with the members `_min` and `_max`; uniform_smallint.hpp:208-227. -/
def smallint (T : IntTy) : Io (Int × Int) where
  write d := some [.num d.1, .num d.2]
  read s d :=
    let r := s.int T d.1
    let q := r.1.int T d.2
    some (q.1, (r.2, q.2))
  eq d e := d.1 = e.1 ∧ d.2 = e.2

/-! ## Distributions that read their parameters first -/

/-- `beta_distribution`, with the members `_alpha` and `_beta`. `param()` asserts that both are positive; beta_distribution.hpp:47-70,
132-173. -/
def beta : Io (ℚ × ℚ) where
  write d := if 0 < d.1 ∧ 0 < d.2 then some [.num (F.pr d.1), .num (F.pr d.2)] else none
  read := viaParam (two F.fl) (1, 1) fun _ p => some (p.1, p.2)
  eq d e := d.1 = e.1 ∧ d.2 = e.2

/-- `extreme_value_distribution`, with the members `_a` and `_b`; extreme_value_distribution.hpp:49-68, 125-166. -/
def extremeValue : Io (ℚ × ℚ) where
  write d := some [.num (F.pr d.1), .num (F.pr d.2)]
  read := viaParam (two F.fl) (1, 1) fun _ p => some (p.1, p.2)
  eq d e := d.1 = e.1 ∧ d.2 = e.2

/-- `laplace_distribution`, with the members `_mean` and `_beta`; laplace_distribution.hpp:45-65, 123-164. -/
def laplace : Io (ℚ × ℚ) where
  write d := some [.num (F.pr d.1), .num (F.pr d.2)]
  read := viaParam (two F.fl) (0, 1) fun _ p => some (p.1, p.2)
  eq d e := d.1 = e.1 ∧ d.2 = e.2

/-- `weibull_distribution`, with the members `_a` and `_b`; weibull_distribution.hpp:49-68, 125-166. -/
def weibull : Io (ℚ × ℚ) where
  write d := some [.num (F.pr d.1), .num (F.pr d.2)]
  read := viaParam (two F.fl) (1, 1) fun _ p => some (p.1, p.2)
  eq d e := d.1 = e.1 ∧ d.2 = e.2

/-- `non_central_chi_squared_distribution`, with the parameters `_k` and `_lambda`; non_central_chi_squared_distribution.hpp:68-105,
169-215. -/
def nonCentral : Io (ℚ × ℚ) where
  write d := some [.num (F.pr d.1), .num (F.pr d.2)]
  read := viaParam (two F.fl) (1, 1) fun _ p => some p
  eq d e := d.1 = e.1 ∧ d.2 = e.2

/-- `uniform_real_distribution`, with the members `_min` and `_max`. `param()` asserts `min < max`; reading requires `min <= max`;
uniform_real_distribution.hpp:99-138, 173-234. -/
def uniformReal : Io (ℚ × ℚ) where
  write d := if d.1 < d.2 then some [.num (F.pr d.1), .num (F.pr d.2)] else none
  read := viaParam
    (fun s p =>
      let r := two F.fl s (0, 0)
      if r.1.ok then (if r.2.1 ≤ r.2.2 then (r.1, r.2) else (r.1.fail, p)) else (r.1, p))
    (0, 1) fun _ p => some (p.1, p.2)
  eq d e := d.1 = e.1 ∧ d.2 = e.2

/-- `uniform_int_distribution`, with the members `_min` and `_max`. `param()` asserts `min <= max`; uniform_int_distribution.hpp:277-326,
352-414. -/
def uniformInt (T : IntTy) : Io (Int × Int) where
  write d := if d.1 ≤ d.2 then some [.num d.1, .num d.2] else none
  read := viaParam
    (fun s p =>
      let a := s.int T 0
      let b := a.1.int T 0
      if b.1.ok then (if a.2 ≤ b.2 then (b.1, (a.2, b.2)) else (b.1.fail, p)) else (b.1, p))
    (0, T.maxv) fun _ p => some (p.1, p.2)
  eq d e := d.1 = e.1 ∧ d.2 = e.2

/-- `gamma_distribution`: `param(parm)` calls `init()`; gamma_distribution.hpp:54-92, 143-150, 217-279. Comparison also compares the
exponential distributions, whose rate is one in every object. -/
def gamma : Io (Gamma.Dist ℚ) where
  write d := some [.num (F.pr d.alpha), .num (F.pr d.beta)]
  read := viaParam (two F.fl) (1, 1) fun _ p => some (Gamma.init F.toRealOps p.1 p.2)
  eq d e := d.alpha = e.alpha ∧ d.beta = e.beta

/-- `chi_squared_distribution`, with the member `_impl`; chi_squared_distribution.hpp:41-84, 119-199. -/
def chiSquared : Io (Gamma.Dist ℚ) where
  write d := some [.num (F.pr (F.fl (2 * d.alpha)))]
  read := viaParam (fun s => s.real F.fl) 1 fun _ n => some (Gamma.init F.toRealOps (F.fl (n / 2)) 1)
  eq d e := (gamma F).eq d e

/-- `fisher_f_distribution`, with the members `_impl_m` and `_impl_n`; fisher_f_distribution.hpp:52-72, 117-179. -/
def fisherF : Io (Gamma.Dist ℚ × Gamma.Dist ℚ) where
  write d := some [.num (F.pr (F.fl (2 * d.1.alpha))), .num (F.pr (F.fl (2 * d.2.alpha)))]
  read := viaParam (two F.fl) (1, 1) fun _ p =>
    some (Gamma.init F.toRealOps (F.fl (p.1 / 2)) 1, Gamma.init F.toRealOps (F.fl (p.2 / 2)) 1)
  eq d e := (chiSquared F).eq d.1 e.1 ∧ (chiSquared F).eq d.2 e.2

/-- `student_t_distribution`, with the members `_normal`, which stays as it is, and `_chi_squared`; student_t_distribution.hpp:52-76,
113-179. -/
def studentT : Io ((ℚ × ℚ) × Gamma.Dist ℚ) where
  write d := some [.num (F.pr (F.fl (2 * d.2.alpha)))]
  read := viaParam (fun s => s.real F.fl) 1 fun d n => some (d.1, Gamma.init F.toRealOps (F.fl (n / 2)) 1)
  eq d e := (normal F).eq d.1 e.1 ∧ (chiSquared F).eq d.2 e.2

/-- `poisson_distribution`. `param()` asserts that the mean is positive; `param(parm)` calls `init()`; poisson_distribution.hpp:80-121,
180-190, 195-236. -/
def poisson : Io (Poisson.Dist ℚ) where
  write d := if 0 < d.mean then some [.num (F.pr d.mean)] else none
  read := viaParam (fun s => s.real F.fl) 1 fun _ m => some (Poisson.init F.toRealOps m)
  eq d e := d.mean = e.mean

/-- `is >> parm._p >> std::ws >> parm._t`; binomial_distribution.hpp:104, negative_binomial_distribution.hpp:76. The pair is `_t`, `_p`. -/
def intParam (T : IntTy) (s : Str) (p : Int × ℚ) : Str × (Int × ℚ) :=
  let r := s.real F.fl p.2
  let q := r.1.int T p.1
  (q.1, (q.2, r.2))

/-- `binomial_distribution` with a signed type of `bits` bits: `param(parm)` calls `init()`; binomial_distribution.hpp:81-118, 187-250. -/
def binomial (bits : Nat) : Io (Binomial.Dist ℚ) where
  write d := some [.num (F.pr d.p), .num d.t]
  read := viaParam (intParam F ⟨bits, true⟩) (1, 1 / 2) fun _ q => Binomial.init F.toRealOps bits q.1 q.2
  eq d e := d.t = e.t ∧ d.p = e.p

/-- `negative_binomial_distribution`, with the members `_k` and `_p`; negative_binomial_distribution.hpp:52-88, 143-207. -/
def negativeBinomial (T : IntTy) : Io (Int × ℚ) where
  write d := some [.num (F.pr d.2), .num d.1]
  read := viaParam (intParam F T) (1, 1 / 2) fun _ q => some (q.1, q.2)
  eq d e := d.1 = e.1 ∧ d.2 = e.2

/-- The members of `random::geometric_distribution`; geometric_distribution.hpp:202-203. -/
structure Geo where
  p : ℚ
  log1mp : ℚ

/-- `param(parm)` of `random::geometric_distribution`: `init()`; geometric_distribution.hpp:137-141, 195-200. -/
def Geo.make (p : ℚ) : Geo := ⟨p, F.fl (F.log (F.fl (1 - p)))⟩

/-- `random::geometric_distribution`: the parameter is read as a `double` and must lie between zero and one; geometric_distribution.hpp:58-96,
170-192. -/
def geometric : Io Geo where
  write d := some [.num (F.pr d.p)]
  read := viaParam
    (fun s p =>
      let r := s.real F.dbl 0
      if r.1.ok then (if 0 < r.2 ∧ r.2 < 1 then (r.1, F.fl r.2) else (r.1.fail, p)) else (r.1, p))
    (1 / 2) fun _ p => some (Geo.make F p)
  eq d e := d.p = e.p

/-- `boost::geometric_distribution`, with the member `_impl`; geometric_distribution.hpp:226-261. The constructor of `impl_param` asserts that
the parameter lies between zero and one (line 63). There is no comparison: that of `_impl` is given. -/
def geometricOld : Io Geo where
  write d := some [.num (F.pr (F.fl (1 - d.p)))]
  read s d :=
    let r := s.real F.fl 0
    if r.1.ok then
      (if 0 < F.fl (1 - r.2) ∧ F.fl (1 - r.2) < 1 then some (r.1, Geo.make F (F.fl (1 - r.2))) else none)
    else some (r.1, d)
  eq d e := d.p = e.p

/-- The members of `boost::lognormal_distribution`; lognormal_distribution.hpp:247-251. -/
structure LogOld where
  normal : ℚ × ℚ
  mean : ℚ
  sigma : ℚ
  nmean : ℚ
  nsigma : ℚ

/-- `init()`; lognormal_distribution.hpp:240-246. -/
def LogOld.init (n : ℚ × ℚ) (mean sigma : ℚ) : LogOld :=
  ⟨n, mean, sigma, LognormalOld.nmean F.toRealOps mean sigma, LognormalOld.nsigma F.toRealOps mean sigma⟩

/-- `boost::lognormal_distribution`; lognormal_distribution.hpp:222-237. `init()` is called even if reading has failed. There is no
comparison: that of all members is given. -/
def lognormalOld : Io LogOld where
  write d := some [.num (F.pr d.normal.1), .num (F.pr d.normal.2), .num (F.pr d.mean), .num (F.pr d.sigma)]
  read s d :=
    let r := two F.fl s d.normal
    let q := two F.fl r.1 (d.mean, d.sigma)
    some (q.1, LogOld.init F r.2 q.2.1 q.2.2)
  eq d e := d.normal = e.normal ∧ d.mean = e.mean ∧ d.sigma = e.sigma ∧ d.nmean = e.nmean ∧ d.nsigma = e.nsigma

/-- `triangle_distribution`: the parameters are read as `double`s and must be in order; `param()` asserts the order;
triangle_distribution.hpp:52-96, 134-143, 179-209. -/
def triangle : Io (Triangle.State ℚ) where
  write d := if d.a ≤ d.b ∧ d.b ≤ d.c then some [.num (F.pr d.a), .num (F.pr d.b), .num (F.pr d.c)] else none
  read := viaParam
    (fun s p =>
      let r := two F.dbl s (0, 0)
      let c := r.1.real F.dbl 0
      if c.1.ok then
        (if r.2.1 ≤ r.2.2 ∧ r.2.2 ≤ c.2 then (c.1, (F.fl r.2.1, F.fl r.2.2, F.fl c.2)) else (c.1.fail, p))
      else (c.1, p))
    (0, 1 / 2, 1) fun _ p => some (Triangle.init F.toRealOps p.1 p.2.1 p.2.2)
  eq d e := d.a = e.a ∧ d.b = e.b ∧ d.c = e.c

/-! ## Vectors -/

/-- `print_vector(os, vec)`; vector_io.hpp:24-37. -/
def printVector (v : List ℚ) : List Item := .open :: (v.map fun x => .num (F.pr x)) ++ [.close]

/-- `while(is >> std::ws >> val) vec.push_back(val)`; vector_io.hpp:51-54. -/
def readNumbers (fl : ℚ → ℚ) : List Item → List ℚ × List Item
  | .num v :: r => let q := readNumbers fl r; (fl v :: q.1, q.2)
  | .bad _ :: r => ([], r)
  | r => ([], r)

/-- `read_vector(is, vec)` into an empty vector; vector_io.hpp:39-66. After the loop, which has ended because an extraction failed,
`is.clear()` makes the stream good again, unless the first character was not found. -/
def readVector (fl : ℚ → ℚ) (s : Str) : Str × List ℚ :=
  let a := s.char .open
  if a.ok then
    let q := readNumbers fl a.rest
    ((Str.mk q.2 true).char .close, q.1)
  else (a, [])

/-- `is >> parm` of `piecewise_constant_distribution` and `piecewise_linear_distribution`: the boundaries and the weights;
piecewise_constant_distribution.hpp:188-199, piecewise_linear_distribution.hpp:203-214. Reading from a stream that has failed gives an
empty vector. -/
def readTwoVectors (fl : ℚ → ℚ) (s : Str) (p : List ℚ × List ℚ) : Str × (List ℚ × List ℚ) :=
  let a := readVector fl s
  let b := readVector fl a.1
  if b.1.ok then (b.1, (a.2, b.2)) else (b.1, p)

/-- `piecewise_constant_distribution`; piecewise_constant_distribution.hpp:53-58, 180-199, 404-416, 424-456. -/
def piecewiseConstant : Io RealDist.Pc where
  write d := d.getParam.map fun p => printVector F p.intervals ++ printVector F p.weights
  read := viaParam (readTwoVectors F.fl) ([0, 1], [1]) fun d p => d.setParam ⟨p.1, p.2⟩
  eq d e := d.bins = e.bins ∧ d.intervals = e.intervals

/-- `piecewise_linear_distribution`; piecewise_linear_distribution.hpp:55-61, 195-214, 429-441, 449-482. -/
def piecewiseLinear : Io Pl where
  write d := some (printVector F d.getParam.intervals ++ printVector F d.getParam.weights)
  read := viaParam (readTwoVectors F.fl) ([0, 1], [1, 1]) fun d p => d.setParam F.fl ⟨p.1, p.2⟩
  eq d e := d.intervals = e.intervals ∧ d.weights = e.weights

/-- `is >> parm` of `discrete_distribution` with real weights; discrete_distribution.hpp:305-314. -/
def readOneVector (fl : ℚ → ℚ) (s : Str) (p : List ℚ) : Str × List ℚ :=
  let a := readVector fl s
  if a.1.ok then (a.1, a.2) else (a.1, p)

/-- `discrete_distribution` with real weights, an alias table; discrete_distribution.hpp:212-215, 296-314, 513-524, 530-567. -/
def discrete : Io (List (ℚ × Nat)) where
  write d := (Discrete.realProbabilities d).map (printVector F)
  read := viaParam (readOneVector F.fl) [1] fun d p => Discrete.realInit d p
  eq d e := d = e

/-- `is >> param` of `hyperexponential_distribution`: an empty vector leaves the old one, the shorter of the two is filled with ones, and the
probabilities are normalized; hyperexponential_distribution.hpp:455-524. -/
def readHyper (fl : ℚ → ℚ) (s : Str) (p : Hyperexponential.Param) : Str × Hyperexponential.Param :=
  let a := readVector fl s
  if a.1.ok then
    let b := readVector fl a.1
    if b.1.ok then
      let probs := if a.2 = [] then p.probs else a.2
      let rates := if b.2 = [] then p.rates else b.2
      let n := max 1 (max probs.length rates.length)
      (b.1, ⟨Hyperexponential.normalize fl (probs ++ List.replicate (n - probs.length) 1), rates ++ List.replicate (n - rates.length) 1⟩)
    else (b.1, p)
  else (a.1, p)

/-- `hyperexponential_distribution`: `param()` asserts that the parameters are valid; hyperexponential_distribution.hpp:233-237, 443-524,
807-819, 830-861. -/
def hyperexponential : Io Hyperexponential.Dist where
  write d := (d.getParam F.fl).map fun p => printVector F p.probs ++ printVector F p.rates
  read := viaParam (readHyper F.fl) ⟨[1], [1]⟩ fun d p => d.setParam p
  eq d e := d.dd = e.dd ∧ d.rates = e.rates

end Boost.Random.DistText
