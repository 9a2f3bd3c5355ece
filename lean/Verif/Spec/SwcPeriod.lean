import Verif.Spec.Swc

/-!
# The period of a subtract-with-carry engine
-/

namespace Boost.Random.Spec

/-- The modulus `b^r - b^s + 1` of the linear congruential sequence behind a subtract-with-carry engine, `b = 2^w` (Tezuka, L'Ecuyer and Couture). -/
def swcModulus (w s r : Nat) : Nat := 2 ^ (w * r) - 2 ^ (w * s) + 1

/-- `T` is the period of the sequence `V`: it repeats after `P` steps exactly if `P` is a multiple of `T`. -/
def HasPeriod {α : Type} (V : Nat → α) (T : Nat) : Prop := 0 < T ∧ ∀ P, (∀ n, V (n + P) = V n) ↔ T ∣ P

end Boost.Random.Spec
