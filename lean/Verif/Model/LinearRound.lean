import Verif.Model.PiecewiseRound
import Verif.Model.Mixture

/-!
# Construction of `piecewise_linear_distribution` in floating-point arithmetic

As in `Model/Mixture.lean`, but the alias table and the boundaries are rounded as well: `RealType` and `WeightType` are the same type.
-/

namespace Boost.Random

/-- `init(intervals_arg, weights_arg)` of an object with the bins `old`, and the assignment of both vectors;
piecewise_linear_distribution.hpp:487-508. -/
def Pl.initRound (fl : ℚ → ℚ) (old : List (ℚ × Nat)) (intervals weights : List ℚ) : Option Pl :=
  (binWeights fl intervals weights).bind fun w => (RealDist.binsRound fl old w).map fun bins => ⟨bins, intervals, weights⟩

/-- `default_init()` in a constructor; piecewise_linear_distribution.hpp:510-519. -/
def Pl.defaultRound (fl : ℚ → ℚ) : Option Pl := Pl.initRound fl [(1, 0)] [0, 1] [1, 1]

/-- `piecewise_linear_distribution(first_interval, last_interval, first_weight)`; piecewise_linear_distribution.hpp:265-280. -/
def Pl.ofItersRound (fl : ℚ → ℚ) (intervals weights : List ℚ) : Option Pl :=
  if intervals.length < 2 then Pl.defaultRound fl
  else if intervals.length ≤ weights.length then Pl.initRound fl [(1, 0)] intervals (weights.take intervals.length)
  else none

/-- `piecewise_linear_distribution(il, f)`; piecewise_linear_distribution.hpp:294-310. -/
def Pl.ofListRound (fl : ℚ → ℚ) (il : List ℚ) (f : ℚ → ℚ) : Option Pl :=
  if il.length < 2 then Pl.defaultRound fl else Pl.initRound fl [(1, 0)] il (il.map f)

/-- `piecewise_linear_distribution(intervals_arg, weights_arg)`; piecewise_linear_distribution.hpp:321-332. -/
def Pl.ofRangesRound (fl : ℚ → ℚ) (intervals weights : List ℚ) : Option Pl :=
  if intervals.length < 2 then Pl.defaultRound fl else Pl.initRound fl [(1, 0)] intervals weights

/-- `piecewise_linear_distribution(nw, xmin, xmax, f)`; piecewise_linear_distribution.hpp:339-356. -/
def Pl.ofFuncRound (fl : ℚ → ℚ) (nw : Nat) (xmin xmax : ℚ) (f : ℚ → ℚ) : Option Pl :=
  let x := RealDist.boundsRound fl (if nw = 0 then 1 else nw) xmin xmax
  Pl.initRound fl [(1, 0)] x (x.map f)

/-- `piecewise_linear_distribution(parm)`; piecewise_linear_distribution.hpp:360-365. -/
def Pl.ofParamRound (fl : ℚ → ℚ) (p : PlParam) : Option Pl := Pl.initRound fl [(1, 0)] p.intervals p.weights

/-- `param(parm)`; piecewise_linear_distribution.hpp:434-441. -/
def Pl.setParamRound (fl : ℚ → ℚ) (d : Pl) (p : PlParam) : Option Pl := Pl.initRound fl d.bins p.intervals p.weights

end Boost.Random
