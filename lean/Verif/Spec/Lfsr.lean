import Mathlib.Init

/-!
# Specification of Tausworthe generators

A word of `w` bits is read from the top: bit `i` of the sequence is the `i`-th most significant bit.
-/

namespace Boost.Random.Spec

/-- The `i`-th bit from the top of a word of `w` bits. -/
def topBit (w v i : Nat) : Bool := v.testBit (w - 1 - i)

/-- A sequence over GF(2) with `u (n+k) = u (n+q) + u n`. -/
def Tausworthe (k q : Nat) (u : Nat → Bool) : Prop := ∀ n, u (n + k) = (u (n + q) ^^ u n)

/-- The `k` significant bits are not all zero. -/
def Significant (w k v : Nat) : Prop := ∃ i, i < k ∧ topBit w v i = true

/-- The `w - k` low bits of a word continue the sequence begun by the `k` significant bits. -/
def Continues (w k q v : Nat) : Prop := ∀ i, k ≤ i → i < w → topBit w v i = (topBit w v (i - k) ^^ topBit w v (i - k + q))

end Boost.Random.Spec
