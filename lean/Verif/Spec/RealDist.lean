import Verif.Spec.UniformInt
import Mathlib.Algebra.Order.Field.Basic
import Mathlib.Algebra.Order.Ring.Rat
import Mathlib.Algebra.Order.Field.Power
import Mathlib.Data.Rat.Floor

/-!
# Floating-point rounding; engines whose differences can be computed without conversion
-/

namespace Boost.Random.Spec

/-- A number with `digits` significant bits; exponents are not bounded. -/
def Representable (digits : Nat) (y : ℚ) : Prop := ∃ m e : ℤ, |m| < 2 ^ digits ∧ y = (m : ℚ) * 2 ^ e

/-- A rounding mode: to nearest, or in one direction. -/
structure Rounding (digits : Nat) (fl : ℚ → ℚ) : Prop where
  repr : ∀ x, Representable digits (fl x)
  exact : ∀ y, Representable digits y → fl y = y
  mono : ∀ x y, x ≤ y → fl x ≤ fl y

/-- Rounding to nearest, ties broken in any way. -/
structure Nearest (digits : Nat) (fl : ℚ → ℚ) : Prop where
  repr : ∀ x, Representable digits (fl x)
  nearest : ∀ x y, Representable digits y → |x - fl x| ≤ |x - y|

/-- The differences of the values of an engine are values of its type. -/
def DiffOK (E : EngInfo) : Prop := E.ty.signed → E.max - E.min < 2 ^ (E.ty.bits - 1)

/-- The number of random bits in one value of an engine. -/
def engineBits (E : EngInfo) : Nat := Nat.log2 (E.max - E.min + 1).toNat

/-- A distribution has no undefined behaviour, and its values lie in `[lo, hi)`. -/
def DrawsIn (E : EngInfo) (q : List Int → Draw ℚ) (lo hi : ℚ) : Prop :=
  ∀ xs, Outputs E xs → q xs ≠ .ub ∧ ∀ v rest, q xs = .done v rest → lo ≤ v ∧ v < hi ∧ rest <:+ xs

end Boost.Random.Spec
