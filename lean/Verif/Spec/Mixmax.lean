import Mathlib.Data.ZMod.Basic
import Mathlib.LinearAlgebra.Matrix.Defs
import Mathlib.Data.Matrix.Mul
import Verif.Model.Mixmax

/-!
# Specification of MIXMAX

The published recurrence: the state vector is multiplied by a fixed matrix modulo `p = 2^61 - 1`.
-/

namespace Boost.Random.Spec

/-- The Mersenne prime `2^61 - 1`. -/
abbrev mixP : Nat := 2 ^ 61 - 1

/-- Entry `(i, j)` (from 0) of the MIXMAX matrix `A(N, m, s = 0)`: the first row and column are ones, as is
everything above the diagonal; on and below the diagonal the entries are `2, m + 2, 2m + 2, ...`. -/
def mixEntry (m i j : Nat) : Nat := if j = 0 ∨ i < j then 1 else (i - j) * m + 2

/-- The MIXMAX matrix. -/
def mixMatrix (N m : Nat) : Matrix (Fin N) (Fin N) (ZMod mixP) := fun i j => (mixEntry m i j : ZMod mixP)

/-- The state vector modulo `p`. -/
def mixVec (N : Nat) (V : List Nat) : Fin N → ZMod mixP := fun i => ((V.getD i 0 : Nat) : ZMod mixP)

/-- Well-formed states: `N` elements, none above `2^61 + 1`; the stored sum is the sum of the elements
modulo `p`; the counter is in `1 .. N`. -/
structure MixOK (N : Nat) (S : Mixmax.State) : Prop where
  len : S.V.length = N
  bound : ∀ v ∈ S.V, v ≤ 2 ^ 61 + 1
  sum_le : S.sumtot ≤ 2 ^ 61
  sum_eq : (S.sumtot : ZMod mixP) = ((S.V.sum : Nat) : ZMod mixP)
  counter_pos : 1 ≤ S.counter
  counter_le : S.counter ≤ N

end Boost.Random.Spec
