import Verif.Spec.LaggedFibonacci
import Verif.Spec.MtPeriod
import Mathlib.Algebra.Polynomial.Basic
import Mathlib.Data.ZMod.Defs

/-!
# Specification of the period of the lagged Fibonacci engines
-/

namespace Boost.Random.Spec

/-- The table holds multiples of `2^v`, and not only multiples of `2^(v+1)`. -/
def TwoAdic (v : Nat) (x : List Nat) : Prop := (∀ a ∈ x, 2 ^ v ∣ a) ∧ ∃ a ∈ x, ¬ 2 ^ (v + 1) ∣ a

/-- The period for such a table. -/
def lagPeriod (w p v : Nat) : Nat := 2 ^ (w - 1 - v) * (2 ^ p - 1)

/-- The "length of cycle" that the documentation gives for `lagged_fibonacci607` ... `lagged_fibonacci44497`: the lag, and the
exponent of the power of 2; doc/generators.qbk:67-75. -/
def lagDocumented : List (Nat × Nat) := [(607, 32000), (1279, 67000), (2281, 120000), (3217, 170000), (4423, 230000), (9689, 510000), (19937, 1050000),
  (23209, 1200000), (44497, 2300000)]

end Boost.Random.Spec
