import Verif.Spec.Arith
import Mathlib.Algebra.BigOperators.Intervals
import Mathlib.Data.Nat.Choose.Basic

/-!
# What the generators of `extra/haertel.hpp` should compute
-/

namespace Boost.Random.Spec

/-- Element `i` of an ACORN generator after `n` calls, before reduction: `sum over j <= i of C(n + i - j - 1, i - j) * y_j`. -/
def acornValue (ys : List Nat) (n i : Nat) : Nat := ∑ j ∈ Finset.range (i + 1), ys.getD j 0 * Nat.multichoose n (i - j)

/-- Moduli for which the sum of two residues does not overflow: `m = 0` stands for all values of an unsigned type. -/
def SumOK (T : IntTy) (m : Nat) : Prop := AnyTy T ∧ ((m = 0 ∧ T.signed = false) ∨ (0 < m ∧ 2 * (m - 1) ≤ T.maxv))

/-- The sequence with the initial values `init` and `x_n = x_(n-r) + x_(n-s) mod M`. -/
def lagSeq (r s M : Nat) (init : List Nat) (n : Nat) : Nat :=
  if n < r ∨ r = 0 ∨ s = 0 then init.getD n 0
  else (lagSeq r s M init (n - r) + lagSeq r s M init (n - s)) % M
termination_by n
decreasing_by all_goals omega

end Boost.Random.Spec
