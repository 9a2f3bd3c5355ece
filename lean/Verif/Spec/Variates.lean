import Verif.Model.Variates
import Verif.Spec.Ziggurat
import Mathlib.Analysis.SpecialFunctions.Trigonometric.Arctan
import Mathlib.Probability.CDF
import Mathlib.Probability.Distributions.Gaussian.Real

/-!
# Distributions of functions of independent uniform numbers
-/

namespace Boost.Random.Spec
open MeasureTheory Set ProbabilityTheory
open scoped ENNReal

/-- Exact arithmetic. -/
noncomputable def exactTrig : TrigOps ℝ := { exactOps with tan := Real.tan }

open Classical in
/-- The probability that `p` holds of a list of `n` independent numbers, uniform in `[0, 1)`. -/
noncomputable def chance : Nat → (List ℝ → Prop) → ℝ≥0∞
  | 0, p => if p [] then 1 else 0
  | n + 1, p => ∫⁻ u in Ico (0 : ℝ) 1, chance n fun l => p (u :: l)

/-- The number at which a distribution function reaches `u`. -/
noncomputable def quantile (μ : Measure ℝ) (u : ℝ) : ℝ := if u ∈ Ioo (0 : ℝ) 1 then sInf {x | u ≤ ProbabilityTheory.cdf μ x} else 0

/-- A number that is a function of the next uniform number. -/
def take (f : ℝ → ℝ) : List ℝ → Run (List ℝ) ℝ
  | [] => .more
  | u :: l => .done (f u) l

/-- Ideal numbers: each is obtained by inversion from one uniform number. -/
noncomputable def idealNumbers : Numbers ℝ (List ℝ) where
  unif := take id
  expo := take fun u => -Real.log (1 - u)
  norm := take (quantile (gaussianReal 0 1))

/-- The value is not above `t`. -/
def IeeeLe (x : Ieee ℝ) (t : ℝ) : Prop :=
  match x with
  | .fin v => v ≤ t
  | .inf => False
  | .ninf => True
  | .nan => False

/-- The result is not above `t`. -/
def Run.LeI {σ : Type} (r : Run σ (Ieee ℝ)) (t : ℝ) : Prop := ∃ v s, r = .done v s ∧ IeeeLe v t

/-- The distribution function of the extreme value distribution. -/
noncomputable def gumbelCdf (a b t : ℝ) : ℝ := Real.exp (-Real.exp ((a - t) / b))

/-- The distribution function of the Weibull distribution. -/
noncomputable def weibullCdf (a b t : ℝ) : ℝ := if t ≤ 0 then 0 else 1 - Real.exp (-(t / b) ^ a)

/-- The distribution function of the Laplace distribution. -/
noncomputable def laplaceCdf (m b t : ℝ) : ℝ := if t < m then Real.exp ((t - m) / b) / 2 else 1 - Real.exp ((m - t) / b) / 2

/-- The distribution function of the triangle distribution: the integral of a density that is zero outside `[a, c]`, greatest at `b` and linear
on both sides. -/
noncomputable def triangleCdf (a b c t : ℝ) : ℝ :=
  if t < a then 0 else if t < b then (t - a) ^ 2 / ((c - a) * (b - a)) else if t < c then 1 - (c - t) ^ 2 / ((c - a) * (c - b)) else 1

end Boost.Random.Spec
