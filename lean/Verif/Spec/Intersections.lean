import Mathlib.Analysis.SpecialFunctions.Trigonometric.Basic
import Mathlib.Data.Fin.VecNotation

/-!
# Patches of the sphere
-/

namespace Boost.Random.Spec

/-- A patch of the unit sphere whose axis is the second coordinate: of `2^b` zones of the same height the one with number `a`, counted from
the north pole, and of `2^b'` sectors between meridians the one with number `a'`. -/
def patch (b a b' a' : Nat) : Set (Fin 3 → ℝ) :=
  {p | ∃ s t : ℝ, ((a : ℝ) ≤ 2 ^ b * s ∧ 2 ^ b * s < a + 1) ∧ ((a' : ℝ) ≤ 2 ^ b' * t ∧ 2 ^ b' * t < a' + 1) ∧
    p 1 = 1 - 2 * s ∧ p 0 = Real.sqrt (1 - p 1 ^ 2) * Real.sin (2 * Real.pi * t) ∧ p 2 = Real.sqrt (1 - p 1 ^ 2) * Real.cos (2 * Real.pi * t)}

end Boost.Random.Spec
