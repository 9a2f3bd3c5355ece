import Verif.Spec.UniformInt
import Mathlib.Data.Rat.Defs
import Mathlib.Algebra.Order.Field.Rat
import Mathlib.Algebra.Order.Group.Abs

/-!
# Specification of random results and random running times

An ideal engine returns each of its values with the same probability, independently of the others. So the probability
of an event that is decided by `n` engine values is the fraction of the lists of `n` engine values for which it holds.
-/

namespace Boost.Random.Spec
variable {α : Type}

/-- The number of values of the engine. -/
def engValues (E : EngInfo) : Nat := (E.max - E.min).toNat + 1

/-- The number of engine values that a call uses if it is given `xs`: all of them if they do not suffice. -/
def usedOf (q : List Int → Draw α) (xs : List Int) : Nat :=
  match q xs with
  | .done _ rest => xs.length - rest.length
  | _ => xs.length

/-- The mean number of engine values used by a call that is stopped after `n` values. -/
def meanUsed (E : EngInfo) (q : List Int → Draw α) (n : Nat) : ℚ :=
  (((tuples E n).map (usedOf q)).sum : ℚ) / (engValues E : ℚ) ^ n

/-- The probability that a call has not returned after `n` engine values. -/
def stillRunning [DecidableEq α] (E : EngInfo) (q : List Int → Draw α) (n : Nat) : ℚ :=
  ((tuples E n).countP fun t => decide (q t = Draw.more) : ℚ) / (engValues E : ℚ) ^ n

/-- The call has returned `v`. -/
def returns [DecidableEq α] (v : α) : Draw α → Bool
  | .done a _ => decide (a = v)
  | _ => false

/-- The probability that a call has returned `v` after at most `n` engine values. -/
def returned [DecidableEq α] (E : EngInfo) (q : List Int → Draw α) (n : Nat) (v : α) : ℚ :=
  ((tuples E n).countP fun t => returns v (q t) : ℚ) / (engValues E : ℚ) ^ n

/-- `f n` tends to `l`. -/
def Tends (f : Nat → ℚ) (l : ℚ) : Prop := ∀ ε : ℚ, 0 < ε → ∃ m, ∀ n, m ≤ n → |f n - l| < ε

end Boost.Random.Spec
