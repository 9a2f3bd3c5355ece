import Verif.Model.Gamma
import Verif.Spec.Variates
import Verif.Spec.DiscreteReal
import Mathlib.Probability.Distributions.Gamma
import Mathlib.Probability.Distributions.Beta

/-!
# The distributions made of gamma numbers
-/

namespace Boost.Random.Spec
open MeasureTheory Set ProbabilityTheory
open scoped ENNReal

/-- The number at which the distribution function of the Poisson distribution reaches `u`. -/
noncomputable def poissonQuantile (μ u : ℝ) : Nat := sInf {k | u ≤ Spec.cdf (poissonPmf μ) k}

/-- A whole number that is a function of the next uniform number. -/
def takeInt (f : ℝ → Nat) : List ℝ → Run (List ℝ) Int
  | [] => .more
  | u :: l => .done (f u) l

/-- Ideal numbers: each is obtained by inversion from one uniform number. The second parameter of `gamma_distribution` is a scale, that of
`gammaMeasure` a rate. -/
noncomputable def idealCompound : Compound ℝ (List ℝ) where
  toNumbers := idealNumbers
  gamma a b := take (quantile (gammaMeasure a (1 / b)))
  poisson mean := takeInt (poissonQuantile mean)

/-- The F distribution. -/
noncomputable def fisherMeasure (m n : ℝ) : Measure ℝ :=
  volume.withDensity fun x => ENNReal.ofReal
    (if 0 < x then (m / n) ^ (m / 2) / ProbabilityTheory.beta (m / 2) (n / 2) * x ^ (m / 2 - 1) * (1 + m / n * x) ^ (-((m + n) / 2)) else 0)

/-- Student's distribution. -/
noncomputable def studentMeasure (n : ℝ) : Measure ℝ :=
  volume.withDensity fun x => ENNReal.ofReal
    (Real.Gamma ((n + 1) / 2) / (Real.sqrt (n * Real.pi) * Real.Gamma (n / 2)) * (1 + x ^ 2 / n) ^ (-((n + 1) / 2)))

/-- The probability of `j` failures before the `k`-th success. -/
noncomputable def negativeBinomialPmf (k : Nat) (p : ℝ) (j : Nat) : ℝ := (k + j - 1).choose j * p ^ k * (1 - p) ^ j

/-- The noncentral chi-squared distribution: a chi-squared number whose degrees of freedom are raised by twice a Poisson number. -/
noncomputable def nonCentralChiSquared (k lambda : ℝ) : Measure ℝ :=
  Measure.sum fun j : Nat => ENNReal.ofReal (poissonPmf (lambda / 2) j) • gammaMeasure ((k + 2 * j) / 2) (1 / 2)

end Boost.Random.Spec
