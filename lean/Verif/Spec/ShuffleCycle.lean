/-!
# Specification of cycles that are entered after a while
-/

namespace Boost.Random.Spec

/-- The sequence goes through `P` different values again and again. -/
def DistinctCycle {α : Type} (X : Nat → α) (P : Nat) : Prop := 0 < P ∧ ∀ m n, X m = X n ↔ m % P = n % P

/-- `C` is the length of the cycle that the sequence enters: from some place on it repeats after `T` steps exactly if `T` is a multiple of `C`. -/
def HasCycle {α : Type} (out : Nat → α) (C : Nat) : Prop := 0 < C ∧ ∀ T, (∃ N, ∀ n, N ≤ n → out (n + T) = out n) ↔ C ∣ T

end Boost.Random.Spec
