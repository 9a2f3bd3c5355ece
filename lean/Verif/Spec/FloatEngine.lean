import Verif.Spec.RealDist
import Verif.Model.Ziggurat

/-!
# Engines with floating-point results

As for integral engines, uniformity is stated by counting: among all tuples of `n` engine values, the number that make the distribution
read exactly all of them and return `v`.
-/

namespace Boost.Random.Spec

deriving instance DecidableEq for Run

/-- Values of a floating-point type of `digits` bits, in `[0, 1)`. -/
def RealOutputs (digits : Nat) (xs : List ℚ) : Prop := ∀ x ∈ xs, 0 ≤ x ∧ x < 1 ∧ Representable digits x

/-- Values of an engine of `eb` bits: multiples of `2^-eb` in `[0, 1)`. -/
def GridOutputs (eb : Nat) (xs : List ℚ) : Prop := ∀ x ∈ xs, ∃ k : Nat, k < 2 ^ eb ∧ x = (k : ℚ) / 2 ^ eb

/-- All lists of `n` values of an engine of `eb` bits. -/
def gridTuples (eb : Nat) : Nat → List (List ℚ)
  | 0 => [[]]
  | n + 1 => (List.range (2 ^ eb)).flatMap fun (k : Nat) => (gridTuples eb n).map fun t => ((k : ℚ) / 2 ^ eb) :: t

/-- The number of `n`-tuples of engine values from which the distribution `q` returns `v`, having read exactly those `n` values. -/
def gridCount {α : Type} [DecidableEq α] (eb : Nat) (q : List ℚ → Run (List ℚ) α) (n : Nat) (v : α) : Nat :=
  (gridTuples eb n).countP fun t => decide (q t = .done v [])

/-- A distribution has no undefined behaviour, reads its values in order, and its results satisfy `P`. -/
def RunsIn {α : Type} (q : List ℚ → Run (List ℚ) α) (xs : List ℚ) (P : α → Prop) : Prop :=
  q xs ≠ .ub ∧ ∀ v rest, q xs = .done v rest → P v ∧ rest <:+ xs

end Boost.Random.Spec
