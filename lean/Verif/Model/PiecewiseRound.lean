import Verif.Model.DiscreteRound
import Verif.Model.RealDist

/-!
# Construction of `piecewise_constant_distribution` in floating-point arithmetic

As in `Model/RealDist.lean`, but every operation on boundaries and weights is followed by `fl`: `RealType` and `WeightType` are the same type.
-/

namespace Boost.Random
namespace RealDist

/-- `normalize(weights)`; discrete_distribution.hpp:164-175. -/
def normalizeRound (fl : ℚ → ℚ) (ws : List ℚ) : List ℚ := ws.map fun x => fl (x / ws.foldl (fun s x => fl (s + x)) 0)

/-- `_bins.param(bins_param)` after `bins_param(weights)`; discrete_distribution.hpp:269-274, 521-524. -/
def binsRound (fl : ℚ → ℚ) (old : List (ℚ × Nat)) (weights : List ℚ) : Option (List (ℚ × Nat)) :=
  Discrete.realInitRound fl old (normalizeRound fl weights)

/-- The midpoints of neighbouring boundaries; piecewise_constant_distribution.hpp:111-114, 298-301. -/
def midpointsRound (fl : ℚ → ℚ) : List ℚ → List ℚ
  | a :: b :: l => fl (fl (a + b) / 2) :: midpointsRound fl (b :: l)
  | _ => []

/-- The boundaries and the points where the function is called, for `n` intervals; piecewise_constant_distribution.hpp:343-349,
discrete_distribution.hpp:404-411. -/
def boundsRound (fl : ℚ → ℚ) (n : Nat) (xmin xmax : ℚ) : List ℚ :=
  ((List.range n).map fun k : Nat => fl (xmin + fl (fl k * fl (fl (xmax - xmin) / fl n)))) ++ [xmax]

/-- The points where the function is called; discrete_distribution.hpp:406-411. -/
def pointsRound (fl : ℚ → ℚ) (n : Nat) (xmin xmax : ℚ) : List ℚ :=
  (List.range n).map fun k : Nat =>
    let delta := fl (fl (xmax - xmin) / fl n)
    fl (fl (xmin + fl (fl k * delta)) + fl (delta / 2))

/-- `piecewise_constant_distribution(first_interval, last_interval, first_weight)`; piecewise_constant_distribution.hpp:253-273. -/
def Pc.ofItersRound (fl : ℚ → ℚ) (intervals weights : List ℚ) : Option Pc :=
  if intervals.length < 2 then some .default
  else if intervals.length - 1 ≤ weights.length then
    (binsRound fl [(1, 0)] (weights.take (intervals.length - 1))).map fun b => ⟨b, intervals⟩
  else none

/-- `piecewise_constant_distribution(il, f)`; piecewise_constant_distribution.hpp:287-306. -/
def Pc.ofListRound (fl : ℚ → ℚ) (il : List ℚ) (f : ℚ → ℚ) : Option Pc :=
  if il.length < 2 then some .default else (binsRound fl [(1, 0)] ((midpointsRound fl il).map f)).map fun b => ⟨b, il⟩

/-- `piecewise_constant_distribution(intervals_arg, weights_arg)`; piecewise_constant_distribution.hpp:317-328. -/
def Pc.ofRangesRound (fl : ℚ → ℚ) (intervals weights : List ℚ) : Option Pc :=
  (Discrete.realInitRound fl [] weights).map fun b => ⟨b, if intervals.length < 2 then [0, 1] else intervals⟩

/-- `piecewise_constant_distribution(nw, xmin, xmax, f)`; piecewise_constant_distribution.hpp:336-350. -/
def Pc.ofFuncRound (fl : ℚ → ℚ) (nw : Nat) (xmin xmax : ℚ) (f : ℚ → ℚ) : Option Pc :=
  let n := if nw = 0 then 1 else nw
  (Discrete.realInitRound fl [] ((pointsRound fl n xmin xmax).map f)).map fun b => ⟨b, boundsRound fl n xmin xmax⟩

/-- `param(parm)`; piecewise_constant_distribution.hpp:409-416. -/
def Pc.setParamRound (fl : ℚ → ℚ) (d : Pc) (p : PcParam) : Option Pc := (binsRound fl d.bins p.weights).map fun b => ⟨b, p.intervals⟩

end RealDist
end Boost.Random
