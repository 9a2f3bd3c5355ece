import Mathlib.Analysis.SpecialFunctions.Pow.Real

/-!
# Transformed rejection

W. Hörmann's method generates `(u, v)` uniformly in `(-1/2, 1/2) × (0, 1)`, takes the integer part `k` of `point u`, and returns it if `v` is at most
`f k * slope u`, where `slope` is the derivative of `point` and `f` is proportional to the probabilities.
-/

namespace Boost.Random.Spec.Trd

/-- The number whose integer part is the candidate. -/
noncomputable def point (a b c u : ℝ) : ℝ := (2 * a / (1 / 2 - |u|) + b) * u + c

/-- The derivative of `point`. -/
noncomputable def slope (a b u : ℝ) : ℝ := a / (1 / 2 - |u|) ^ 2 + b

/-- The rectangle contains the part of the region that belongs to `k`, and this part contains the rectangle of height `vr` in the middle. -/
def Hat (a b c vr f : ℝ) (k : Int) : Prop :=
  ∀ u, |u| < 1 / 2 → ⌊point a b c u⌋ = k → f * slope a b u ≤ 1 ∧ (|u| ≤ 43 / 100 → vr ≤ f * slope a b u)

/-- The constants of algorithm BTRD for a standard deviation `σ`, from "The generation of binomial random variates" (1993). -/
noncomputable def btrdB (σ : ℝ) : ℝ := 1.15 + 2.53 * σ
noncomputable def btrdA (p σ : ℝ) : ℝ := -0.0873 + 0.0248 * btrdB σ + 0.01 * p
noncomputable def btrdVr (σ : ℝ) : ℝ := 0.92 - 4.2 / btrdB σ
noncomputable def btrdAlpha (σ : ℝ) : ℝ := (2.83 + 5.1 / btrdB σ) * σ

/-- The constants of algorithm PTRD for the mean `μ`, from "The transformed rejection method for generating Poisson random variables" (1993). -/
noncomputable def ptrdB (μ : ℝ) : ℝ := 0.931 + 2.53 * Real.sqrt μ
noncomputable def ptrdA (μ : ℝ) : ℝ := -0.059 + 0.02483 * ptrdB μ
noncomputable def ptrdVr (μ : ℝ) : ℝ := 0.9277 - 3.6224 / (ptrdB μ - 2)
noncomputable def ptrdInvAlpha (μ : ℝ) : ℝ := 1.1239 + 1.1328 / (ptrdB μ - 3.4)

end Boost.Random.Spec.Trd
