import Verif.Model.Ziggurat
import Verif.Spec.DiscreteReal
import Mathlib.MeasureTheory.Measure.Lebesgue.Basic

/-!
# Probabilities over independent uniform numbers
-/

namespace Boost.Random.Spec
open MeasureTheory Set
open scoped ENNReal

open Classical in
/-- The probability that `p` holds of a list of `n` independent draws, each of two real numbers uniform in `[0, 1)` and a uniform integer below
256: the integral of the probability of the rest over the first draw. -/
noncomputable def prob : Nat → (List (ℝ × Fin 256 × ℝ) → Prop) → ℝ≥0∞
  | 0, p => if p [] then 1 else 0
  | n + 1, p => ∑ i : Fin 256, (∫⁻ a in Ico (0 : ℝ) 1 ×ˢ Ico (0 : ℝ) 1, prob n fun l => p ((a.1, i, a.2) :: l)) / 256

/-- The part of a draw that has not been used. -/
inductive Pending where
  | none
  | unif (w : ℝ)
  | expo (w : ℝ)

/-- The source of ideal numbers, in exact arithmetic: a pair of an integer and a fraction is the first two parts of a draw, a uniform number
that follows it is the third part. Two exponential numbers are obtained by inversion from the first and the third part of a draw. The list of
draws ends where the input ends. -/
noncomputable def ideal : Source ℝ (Pending × List (ℝ × Fin 256 × ℝ)) where
  pair
    | (_, []) => .more
    | (_, (u, i, w) :: l) => .done (u, i) (.unif w, l)
  unif
    | (.unif w, l) => .done w (.none, l)
    | (_, []) => .more
    | (_, (u, _, _) :: l) => .done u (.none, l)
  expo
    | (.expo w, l) => .done (-Real.log (1 - w)) (.none, l)
    | (_, []) => .more
    | (_, (u, _, w) :: l) => .done (-Real.log (1 - u)) (.expo w, l)

/-- The same, with exponential numbers from the loop of `unit_exponential_distribution`, at most `n` iterations. -/
noncomputable def idealExp (n : Nat) : Source ℝ (Pending × List (ℝ × Fin 256 × ℝ)) := { ideal with expo := Exponential.unit exactOps ideal n 0 }

/-- The result is not above `t`. -/
def Run.Le {σ : Type} (r : Run σ ℝ) (t : ℝ) : Prop := ∃ v s, r = .done v s ∧ v ≤ t

end Boost.Random.Spec
