import Verif.Model.Sphere
import Verif.Spec.Variates
import Mathlib.MeasureTheory.Measure.Lebesgue.EqHaar

/-!
# The uniform distribution on the unit sphere
-/

namespace Boost.Random.Spec
open MeasureTheory Set
open scoped ENNReal

/-- The open unit ball of Euclidean space. -/
def unitBall (d : Nat) : Set (Fin d → ℝ) := {x | ∑ i, x i ^ 2 < 1}

/-- The point of the unit sphere in the direction of `x`. -/
noncomputable def radial {d : Nat} (x : Fin d → ℝ) : Fin d → ℝ := fun i => x i / Real.sqrt (∑ j, x j ^ 2)

/-- The uniform distribution on the unit sphere: the share of the volume of the unit ball that lies in the directions of `A`. -/
noncomputable def sphereLaw (d : Nat) (A : Set (Fin d → ℝ)) : ℝ≥0∞ := volume (unitBall d ∩ radial ⁻¹' A) / volume (unitBall d)

/-- The result of a call is a point of `A`. -/
def Lands {σ : Type} (d : Nat) (A : Set (Fin d → ℝ)) (r : Run σ (Sphere.Dist ℝ)) : Prop :=
  ∃ e s, r = .done e s ∧ e.container.length = d ∧ (fun i : Fin d => e.container.getD i 0) ∈ A

/-- The share of the square that is accepted. -/
noncomputable def discShare (d : Nat) : ℝ := if d = 2 ∨ d = 3 then Real.pi / 4 else 1

/-- The container has as many elements as the dimension says. -/
def Sized {K : Type} (d : Sphere.Dist K) : Prop := (d.container.length : Int) = d.dim

/-- Lexicographical comparison, as `operator<=` of `std::vector`. -/
def LexLe {K : Type} [LinearOrder K] : List K → List K → Prop
  | [], _ => True
  | _ :: _, [] => False
  | a :: l, b :: m => a < b ∨ a = b ∧ LexLe l m

end Boost.Random.Spec
