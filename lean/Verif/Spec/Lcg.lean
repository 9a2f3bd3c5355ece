import Verif.Spec.Arith
import Verif.Model.Lcg
import Mathlib.Logic.Function.Iterate
import Mathlib.Data.Nat.Prime.Basic

/-!
# Specification of the congruential engines
-/

namespace Boost.Random.Spec

/-- The textbook linear congruential step. -/
def lcgStep (a c M x : Nat) : Nat := (a * x + c) % M

/-- Run a partial step function `n` times (`none` = undefined behaviour on the way). -/
def calls (f : Nat → Option Nat) : (n x : Nat) → Option Nat
  | 0, x => some x
  | n + 1, x => (f x).bind (calls f n)

/-- Parameters covered: a standard integer type (unsigned if `m = 0`), `m` fits the type,
`a, c < m` as the static assertions demand, and a modulus for which modular multiplication is exact. -/
structure LcgValid (E : Lcg) : Prop where
  ty : ArithTy E.T E.m
  m_fits : E.m ≤ E.T.maxv
  m_zero : E.m = 0 → E.T.signed = false
  a_lt : E.a < modulus E.T E.m
  c_lt : E.c < modulus E.T E.m
  wide : WideOK E.m
  m_gt : 1 < modulus E.T E.m

/-- The condition on the multiplier under which the closed form of `discard` is right. -/
def DiscardOK (E : Lcg) : Prop :=
  let M := modulus E.T E.m
  1 < E.a ∧ (E.c = 0 ∨ Nat.Coprime ((E.a - 1) / Nat.gcd (E.a - 1) M) M) ∧
  (Nat.gcd (E.a - 1) M ≠ 1 ∨ Nat.Coprime E.a M ∨ (E.T.signed = false ∧ ∃ k, M = 2 ^ k))

/-- The conditions of Hull and Dobell for a full period of `x ↦ (a x + c) mod M`. -/
structure HullDobell (a c M : Nat) : Prop where
  cop : Nat.Coprime c M
  primes : ∀ p, p.Prime → p ∣ M → (p : Int) ∣ (a : Int) - 1
  four : 4 ∣ M → (4 : Int) ∣ (a : Int) - 1

end Boost.Random.Spec
