import Verif.Model.RealDist
import Mathlib.Analysis.SpecialFunctions.Trigonometric.Basic
import Mathlib.Data.Fin.VecNotation

/-!
# Points on the sphere from a quasi-random engine

Model of the program `example/intersections.cpp`. The values of `uniform_01<double>` are computed as in `RealDist.lean`, with a
parameter `fl` for the rounding; what the program computes from them is computed with real numbers, without rounding.
-/

namespace Boost.Random
namespace Intersections
open RealDist

/-- The body of the loop, given the two values of `dist(gen)`; example/intersections.cpp:56-61. -/
noncomputable def chordPoint (u v : ℝ) : Fin 3 → ℝ :=
  let cosTheta := 1 - 2 * u
  let sinTheta := Real.sqrt (1 - cosTheta * cosTheta)
  let phi := 2 * Real.pi * v
  let sinPhi := Real.sin phi
  let cosPhi := Real.cos phi
  ![sinTheta * sinPhi, cosTheta, sinTheta * cosPhi]

/-- The loop; example/intersections.cpp:50-69, with `n` for `n_points`: the contents of `points`. -/
noncomputable def points (fl : ℚ → ℚ) (E : EngInfo) : Nat → List Int → Draw (List (Fin 3 → ℝ))
  | 0, xs => .done [] xs
  | n + 1, xs => (uniform01 fl E xs).bind fun u xs => (uniform01 fl E xs).bind fun v xs =>
      (points fl E n xs).bind fun ps xs => .done (chordPoint (u : ℚ) (v : ℚ) :: ps) xs

end Intersections
end Boost.Random
