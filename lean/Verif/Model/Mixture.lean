import Verif.Model.Variates

/-!
# Mixtures: `piecewise_linear_distribution` and `hyperexponential_distribution`

Model of `include/boost/random/piecewise_linear_distribution.hpp` and `include/boost/random/hyperexponential_distribution.hpp` for `RealType` =
`double`. The parameters are rationals, the numbers drawn are in a field `K`: the rationals when an engine is read, the reals for the laws.
The alias table of the inner `discrete_distribution` is that of `Verif.Model.Discrete`, built in exact arithmetic.
-/

namespace Boost.Random

/-- What the mixtures read: the numbers of `Numbers`, `uniform_int_distribution<IntType>(0, n - 1)(eng)` and
`uniform_real_distribution<RealType>(a, b)(eng)`. -/
structure Mixed (K σ : Type) extends Numbers K σ where
  index : Nat → σ → Run σ Nat
  real : K → K → σ → Run σ K

/-- The numbers of an engine; `T` is `IntType`, at most `n` iterations of each loop of the ziggurat algorithms. -/
def engineMixed (o : RealOps ℚ) (E : EngInfo) (T : IntTy) (n : Nat) : Mixed ℚ (List Int) where
  toNumbers := engineNumbers o E n
  index m xs := (UniformInt.generate E T 0 ((m : Int) - 1) xs).run.bind fun i xs => .done i.toNat xs
  real a b xs := (RealDist.uniformReal o.fl E a b xs).run

section
variable {K σ : Type} [Field K] [LinearOrder K]

/-- `discrete_distribution::operator()` with real weights; discrete_distribution.hpp:428-442. -/
def Discrete.draw (t : List (ℚ × Nat)) (M : Mixed K σ) (s : σ) : Run σ Nat :=
  (M.index t.length s).bind fun result s =>
    (M.unif s).bind fun test s =>
      match t[result]? with
      | none => .ub
      | some e => .done (if test < (e.1 : K) then result else e.2) s

/-- `piecewise_constant_distribution::operator()(urng)`, as `Pc.next`, with any source of numbers; piecewise_constant_distribution.hpp:365-369. -/
def RealDist.Pc.sample (d : RealDist.Pc) (M : Mixed K σ) (s : σ) : Run σ K :=
  (Discrete.draw d.bins M s).bind fun i s =>
    match d.intervals[i]?, d.intervals[i + 1]? with
    | some a, some b => M.real a b s
    | _, _ => .ub

/-! ## `piecewise_linear_distribution` -/

/-- `piecewise_linear_distribution::param_type`; piecewise_linear_distribution.hpp:230-231. -/
structure PlParam where
  intervals : List ℚ
  weights : List ℚ

/-- `param_type()`; piecewise_linear_distribution.hpp:55-61. -/
def PlParam.default : PlParam := ⟨[0, 1], [1, 1]⟩

/-- `param_type(intervals_first, intervals_last, weight_first)`; piecewise_linear_distribution.hpp:74-91. `none`: the weights are read past
their end. -/
def PlParam.ofIters (intervals weights : List ℚ) : Option PlParam :=
  if intervals.length < 2 then some .default
  else if intervals.length ≤ weights.length then some ⟨intervals, weights.take intervals.length⟩
  else none

/-- `param_type(il, f)`; piecewise_linear_distribution.hpp:104-123. -/
def PlParam.ofList (il : List ℚ) (f : ℚ → ℚ) : PlParam := if il.length < 2 then .default else ⟨il, il.map f⟩

/-- `param_type(intervals_arg, weights_arg)`; piecewise_linear_distribution.hpp:134-148. -/
def PlParam.ofRanges (intervals weights : List ℚ) : PlParam := if intervals.length < 2 then .default else ⟨intervals, weights⟩

/-- `param_type(nw, xmin, xmax, f)`; piecewise_linear_distribution.hpp:157-169. The boundaries are those of `piecewise_constant_distribution`, in
exact arithmetic. -/
def PlParam.ofFunc (nw : Nat) (xmin xmax : ℚ) (f : ℚ → ℚ) : PlParam :=
  let x := RealDist.gridBounds (if nw = 0 then 1 else nw) xmin xmax
  ⟨x, x.map f⟩

/-- The sum of `densities()`, from `sum` on; piecewise_linear_distribution.hpp:180-184, 410-414. `none`: access outside a vector. -/
def plArea (fl : ℚ → ℚ) : (intervals weights : List ℚ) → (sum : ℚ) → Option ℚ
  | a :: b :: l, w1 :: w2 :: ws, sum => plArea fl (b :: l) (w2 :: ws) (fl (sum + fl (fl (fl (w1 + w2) * fl (b - a)) / 2)))
  | [_], _, sum => some sum
  | _, _, _ => none

/-- `densities()`; piecewise_linear_distribution.hpp:178-194, 408-424. -/
def plDensities (fl : ℚ → ℚ) (intervals weights : List ℚ) : Option (List ℚ) :=
  (plArea fl intervals weights 0).map fun sum => weights.map fun w => fl (w / sum)

/-- `piecewise_linear_distribution`; piecewise_linear_distribution.hpp:521-523. -/
structure Pl where
  bins : List (ℚ × Nat)
  intervals : List ℚ
  weights : List ℚ

/-- `bin_weights` of `init`: two for each interval; piecewise_linear_distribution.hpp:491-499. `none`: access outside a vector, as for no
intervals at all, when `intervals_arg.size() - 1` wraps. -/
def binWeights (fl : ℚ → ℚ) : (intervals weights : List ℚ) → Option (List ℚ)
  | a :: b :: l, w1 :: w2 :: ws =>
    (binWeights fl (b :: l) (w2 :: ws)).map fun r => fl (min w1 w2 * fl (b - a)) :: fl (fl (|fl (w1 - w2)| * fl (b - a)) / 2) :: r
  | [_], _ => some []
  | _, _ => none

/-- `init(intervals_arg, weights_arg)` of an object with the bins `old`, and the assignment of both vectors;
piecewise_linear_distribution.hpp:487-508. -/
def Pl.init (fl : ℚ → ℚ) (old : List (ℚ × Nat)) (intervals weights : List ℚ) : Option Pl :=
  (binWeights fl intervals weights).bind fun w => (RealDist.binsParam old w).map fun bins => ⟨bins, intervals, weights⟩

/-- `default_init()` in a constructor; piecewise_linear_distribution.hpp:510-519. -/
def Pl.default (fl : ℚ → ℚ) : Option Pl := Pl.init fl [(1, 0)] [0, 1] [1, 1]

/-- `piecewise_linear_distribution(first_interval, last_interval, first_weight)`; piecewise_linear_distribution.hpp:265-280. -/
def Pl.ofIters (fl : ℚ → ℚ) (intervals weights : List ℚ) : Option Pl :=
  if intervals.length < 2 then Pl.default fl
  else if intervals.length ≤ weights.length then Pl.init fl [(1, 0)] intervals (weights.take intervals.length)
  else none

/-- `piecewise_linear_distribution(il, f)`; piecewise_linear_distribution.hpp:294-310. -/
def Pl.ofList (fl : ℚ → ℚ) (il : List ℚ) (f : ℚ → ℚ) : Option Pl :=
  if il.length < 2 then Pl.default fl else Pl.init fl [(1, 0)] il (il.map f)

/-- `piecewise_linear_distribution(intervals_arg, weights_arg)`; piecewise_linear_distribution.hpp:321-332. -/
def Pl.ofRanges (fl : ℚ → ℚ) (intervals weights : List ℚ) : Option Pl :=
  if intervals.length < 2 then Pl.default fl else Pl.init fl [(1, 0)] intervals weights

/-- `piecewise_linear_distribution(nw, xmin, xmax, f)`; piecewise_linear_distribution.hpp:339-356. The boundaries in exact arithmetic. -/
def Pl.ofFunc (fl : ℚ → ℚ) (nw : Nat) (xmin xmax : ℚ) (f : ℚ → ℚ) : Option Pl :=
  let x := RealDist.gridBounds (if nw = 0 then 1 else nw) xmin xmax
  Pl.init fl [(1, 0)] x (x.map f)

/-- `piecewise_linear_distribution(parm)`; piecewise_linear_distribution.hpp:360-365. -/
def Pl.ofParam (fl : ℚ → ℚ) (p : PlParam) : Option Pl := Pl.init fl [(1, 0)] p.intervals p.weights

/-- `param(parm)`; piecewise_linear_distribution.hpp:434-441. -/
def Pl.setParam (fl : ℚ → ℚ) (d : Pl) (p : PlParam) : Option Pl := Pl.init fl d.bins p.intervals p.weights

/-- `param()`; piecewise_linear_distribution.hpp:429-432. -/
def Pl.getParam (d : Pl) : PlParam := PlParam.ofRanges d.intervals d.weights

/-- `operator()(urng)`; piecewise_linear_distribution.hpp:371-385. The constructor of `uniform_real` asserts `a < b` (uniform_real.hpp:66).
`max` and `min` of two numbers do not depend on which is drawn first. -/
def Pl.next (d : Pl) (M : Mixed K σ) (s : σ) : Run σ K :=
  (Discrete.draw d.bins M s).bind fun i s =>
    match d.intervals[i / 2]?, d.intervals[i / 2 + 1]? with
    | some a, some b =>
      if a < b then
        if i % 2 = 0 then M.real a b s
        else
          match d.weights[i / 2]?, d.weights[i / 2 + 1]? with
          | some w1, some w2 =>
            (M.real a b s).bind fun x s => (M.real a b s).bind fun y s => .done (if w1 < w2 then max x y else min x y) s
          | _, _ => .ub
      else .ub
    | _, _ => .ub

/-! ## `hyperexponential_distribution` -/

namespace Hyperexponential

/-- `std::accumulate(first, last, sum)`. -/
def accumulate (fl : ℚ → ℚ) (l : List ℚ) (sum : ℚ) : ℚ := l.foldl (fun s x => fl (s + x)) sum

/-- `normalize(v)`; hyperexponential_distribution.hpp:48-70. -/
def normalize (fl : ℚ → ℚ) (v : List ℚ) : List ℚ :=
  if v = [] then []
  else
    let sum := accumulate fl v 0
    let head := v.dropLast.map fun x => fl (x / sum)
    head ++ [fl (1 - accumulate fl head 0)]

/-- `check_params(probabilities, rates)`; hyperexponential_distribution.hpp:72-130. Rationals are finite. -/
def check (probs rates : List ℚ) : Bool :=
  probs.length == rates.length && probs.all (fun p => decide (0 ≤ p) && decide (p ≤ 1)) && rates.all fun r => decide (0 < r)

/-- `param_type`; hyperexponential_distribution.hpp:537-538. -/
structure Param where
  probs : List ℚ
  rates : List ℚ
  deriving DecidableEq

/-- The constructors of `param_type` from two ranges, whose assertion must hold; hyperexponential_distribution.hpp:261-270, 293-303, 384-391. -/
def Param.make (fl : ℚ → ℚ) (probs rates : List ℚ) : Option Param :=
  let p := normalize fl probs
  if check p rates then some ⟨p, rates⟩ else none

/-- `param_type(rate_first, rate_last)`; hyperexponential_distribution.hpp:332-340. -/
def Param.ofIters (rates : List ℚ) : Param := ⟨List.replicate rates.length 1, rates⟩

/-- `param_type(rate_range)`; hyperexponential_distribution.hpp:356-364, 410-417. -/
def Param.ofRange (fl : ℚ → ℚ) (rates : List ℚ) : Option Param := Param.make fl (List.replicate rates.length 1) rates

/-- `hyperexponential_distribution`; hyperexponential_distribution.hpp:865-866. -/
structure Dist where
  dd : List (ℚ × Nat)
  rates : List ℚ

/-- The constructors from two ranges, or from parameters, whose assertion must hold; hyperexponential_distribution.hpp:575-582, 606-614,
681-686, 707-712. -/
def Dist.make (probs rates : List ℚ) : Option Dist :=
  (Discrete.realInit [] probs).bind fun dd =>
    (Discrete.realProbabilities dd).bind fun p => if check p rates then some ⟨dd, rates⟩ else none

/-- `hyperexponential_distribution()`; hyperexponential_distribution.hpp:546-551. -/
def Dist.default : Option Dist := (Discrete.realInit [] [1]).map fun dd => ⟨dd, [1]⟩

/-- The constructors from the rates; hyperexponential_distribution.hpp:644-652, 668-674, 732-737. -/
def Dist.ofRates (rates : List ℚ) : Option Dist := Dist.make (List.replicate rates.length 1) rates

/-- `param(param)`; hyperexponential_distribution.hpp:815-819. -/
def Dist.setParam (d : Dist) (p : Param) : Option Dist := (RealDist.binsParam d.dd p.probs).map fun dd => ⟨dd, p.rates⟩

/-- `param()`; hyperexponential_distribution.hpp:807-812. -/
def Dist.getParam (fl : ℚ → ℚ) (d : Dist) : Option Param := (Discrete.realProbabilities d.dd).bind fun p => Param.make fl p d.rates

/-- `operator()(urng)`; hyperexponential_distribution.hpp:750-756, exponential_distribution.hpp:333-337. -/
def Dist.next (o : RealOps K) (d : Dist) (M : Mixed K σ) (s : σ) : Run σ K :=
  (Discrete.draw d.dd M s).bind fun i s =>
    match d.rates[i]? with
    | none => .ub
    | some rate => (M.expo s).bind fun v s => .done (o.fl (v / (rate : K))) s

end Hyperexponential
end

end Boost.Random
