import Verif.Spec.UniformInt

/-!
# Specification of an alias table
-/

namespace Boost.Random.Spec

/-- The value an alias table of columns `(threshold, alias)` gives for column `i` and test value `t`. -/
def aliasPick (table : List (Nat × Nat)) (i t : Nat) : Option Nat :=
  table[i]?.map fun c => if t < c.1 then i else c.2

/-- The number of pairs of a column and a test value, out of columns of the sizes `size i`, for which the table gives `v`. -/
def aliasMass (table : List (Nat × Nat)) (size : Nat → Nat) (v : Nat) : Nat :=
  ∑ i ∈ Finset.range table.length, ((Finset.range (size i)).filter fun t => aliasPick table i t = some v).card

/-- The weight of `v`; values outside the list have no weight. -/
def weightOf (ws : List Nat) (v : Nat) : Nat := ws.getD v 0

end Boost.Random.Spec
