import Verif.Spec.MtPeriod
import Mathlib.Data.ZMod.Basic

/-!
# The period of an inversive congruential engine
-/

namespace Boost.Random.Spec

/-- The Lucas sequence `u 0 = 0`, `u 1 = 1`, `u (n + 2) = b u (n + 1) + a u n`. -/
def lucas {R : Type} [Semiring R] (a b : R) : Nat → R
  | 0 => 0
  | 1 => 1
  | n + 2 => b * lucas a b (n + 1) + a * lucas a b n

/-- The condition for the full period (Chou): no power `X^n`, `0 < n ≤ p`, is a constant modulo `X^2 - b X - a`. As `X^n = u n X + a u (n - 1)`
this means that no `u n` is zero modulo `p`. -/
def InversiveMaximal (p a b : Nat) : Prop := ∀ n, 0 < n → n ≤ p → ¬ p ∣ lucas a b n

end Boost.Random.Spec
