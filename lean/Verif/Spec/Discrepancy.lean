import Mathlib.Algebra.BigOperators.Group.Finset.Basic
import Mathlib.Data.Nat.Choose.Basic
import Mathlib.Data.Real.Basic

/-!
# Discrepancy

H. Niederreiter, Random Number Generation and Quasi-Monte Carlo Methods, 1992, chapters 2 and 4.
-/

namespace Boost.Random.Spec

open Classical in
/-- Of the points `x i`, `i < N`, in `s` dimensions the number of those in the box `[0, y 0) × ... × [0, y (s-1))`. -/
noncomputable def inCorner (s N : Nat) (x : Nat → Nat → ℝ) (y : Nat → ℝ) : Nat := ((Finset.range N).filter fun i => ∀ d < s, x i d < y d).card

/-- By how many points the number in a box may differ from its share in a `(t,m,s)`-net in base `b`: `b^t` times the sum over `i < s` of
`C(m-t, i) (b-1)^i`; all `b^m` points if there are fewer than `b^t`. -/
def netBound (b t s m : Nat) : Nat := if m < t then b ^ m else b ^ t * ∑ i ∈ Finset.range s, (m - t).choose i * (b - 1) ^ i

/-- The same for the first `N < b^w` points of a sequence: they are as many nets of `b^j` points as digit `j` of `N` says, for each `j`. -/
def sequenceBound (b t s w N : Nat) : Nat := ∑ j ∈ Finset.range w, N / b ^ j % b * netBound b t s j

end Boost.Random.Spec
