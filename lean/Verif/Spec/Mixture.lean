import Verif.Model.Mixture
import Verif.Spec.Variates
import Mathlib.Probability.Distributions.Exponential
import Mathlib.Probability.ConditionalProbability

/-!
# The laws of the mixtures
-/

namespace Boost.Random.Spec
open MeasureTheory Set ProbabilityTheory
open scoped ENNReal

/-- Ideal numbers: each is obtained by inversion from one uniform number. -/
noncomputable def idealMixed : Mixed ℝ (List ℝ) where
  toNumbers := idealNumbers
  index n
    | [] => .more
    | u :: l => .done ⌊(n : ℝ) * u⌋₊ l
  real a b := take fun u => a + u * (b - a)

/-- The function that is linear between the given points and zero outside of them. -/
noncomputable def polygon : (xs ys : List ℚ) → ℝ → ℝ
  | a :: b :: xs, v :: w :: ys, x => if (a : ℝ) ≤ x ∧ x < b then v + (w - v) * ((x - a) / (b - a)) else polygon (b :: xs) (w :: ys) x
  | _, _, _ => 0

/-- The measure with this density. -/
noncomputable def polygonMeasure (xs ys : List ℚ) : Measure ℝ := volume.withDensity fun x => ENNReal.ofReal (polygon xs ys x)

/-- The mixture of the uniform distributions on `[xs[i], xs[i + 1])`, with weights proportional to `ys`. -/
noncomputable def stepMeasure (xs ys : List ℚ) : Measure ℝ :=
  Measure.sum fun i : Nat => ENNReal.ofReal (ys.getD i 0 / ys.sum) • volume[|Ico (xs.getD i 0 : ℝ) (xs.getD (i + 1) 0)]

/-- The mixture of exponential distributions with rates `rates`, with weights proportional to `probs`. -/
noncomputable def hyperexponentialMeasure (probs rates : List ℚ) : Measure ℝ :=
  Measure.sum fun i : Nat => ENNReal.ofReal (probs.getD i 0 / probs.sum) • expMeasure (rates.getD i 1)

end Boost.Random.Spec
