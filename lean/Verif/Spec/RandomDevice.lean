import Verif.Model.RandomDevice

/-!
# Specification of `random_device`
-/

namespace Boost.Random.Spec

/-- The number whose bytes in memory are these, on a machine that puts the lowest byte first (`little`) or last. -/
def wordOf (little : Bool) (a b c d : Fin 256) : Nat :=
  if little then a + b * 2 ^ 8 + c * 2 ^ 16 + d * 2 ^ 24 else d + c * 2 ^ 8 + b * 2 ^ 16 + a * 2 ^ 24

/-- Four bytes of the device from a position on make the number `v`. -/
def WordAt (little : Bool) (data : Nat → Option (Fin 256)) (pos v : Nat) : Prop :=
  ∃ a b c d, data pos = some a ∧ data (pos + 1) = some b ∧ data (pos + 2) = some c ∧ data (pos + 3) = some d ∧ v = wordOf little a b c d

end Boost.Random.Spec
