import Mathlib.Algebra.Polynomial.Div
import Mathlib.Algebra.Field.ZMod

/-!
# Polynomials over GF(2) from their bits
-/

namespace Boost.Random.Spec
open Polynomial

/-- The polynomial whose coefficients are the bits of a number. -/
noncomputable def ofNat (n : Nat) : (ZMod 2)[X] := ∑ i ∈ Finset.range n, if n.testBit i then X ^ i else 0

/-- The polynomial of an array of digits of `B` bits, the lowest first. -/
noncomputable def ofDigits (B : Nat) : List Nat → (ZMod 2)[X]
  | [] => 0
  | d :: ds => ofNat d + X ^ B * ofDigits B ds

/-- All digits have `B` bits. -/
def IsDigits (B : Nat) (ds : List Nat) : Prop := ∀ d ∈ ds, d < 2 ^ B

/-- An array and a number of bits stand for the polynomial `p`: the digits have `B` bits, there are enough of them, no bit from `size` on
is set, and the bits are the coefficients of `p`. -/
structure Represents (B : Nat) (storage : List Nat) (size : Nat) (p : (ZMod 2)[X]) : Prop where
  digits : IsDigits B storage
  enough : size ≤ B * storage.length
  below : ∀ j, size ≤ j → p.coeff j = 0
  value : ofDigits B storage = p

/-- `g` is the distance from the term `X^rb` of `M` to the next one below it (`rb + 1` when there is none). -/
structure IsGap (M : (ZMod 2)[X]) (rb g : Nat) : Prop where
  pos : 1 ≤ g
  zero : ∀ i, i < rb → rb < i + g → M.coeff i = 0
  last : g = rb + 1 ∨ (g ≤ rb ∧ M.coeff (rb - g) = 1)

/-- The blocks of `g` bits in which `sparse_mod` reduces a polynomial with `2*rb + 1` bits modulo one of degree `rb`: a block that
does not begin at a digit boundary must not need, with the one digit more that `add_shifted_inplace` touches, digits past the
`2*(rb/B + 1)` of the array. -/
def Fits (B rb g : Nat) : Prop :=
  ∀ k, let hi := max (2 * rb + 1 - k * g) rb
       let lo := max (2 * rb + 1 - (k + 1) * g) rb
       rb < hi → lo % B ≠ 0 → lo / B + (hi - lo + B - 1) / B < 2 * (rb / B + 1)

end Boost.Random.Spec
