import Mathlib.Analysis.SpecialFunctions.Log.Basic
import Mathlib.Analysis.Real.Pi.Bounds

/-!
# The error of Stirling's formula
-/

namespace Boost.Random.Spec

/-- The logarithm of `n!` less Stirling's approximation `(n + 1/2) log n - n + log (2π) / 2`. -/
noncomputable def stirlingError (n : Nat) : ℝ := Real.log n.factorial - ((n + 1 / 2) * Real.log n - n + Real.log (2 * Real.pi) / 2)

end Boost.Random.Spec
