import Verif.Spec.Qrng
import Verif.Spec.Polynomial
import Mathlib.Algebra.BigOperators.Group.Finset.Basic
import Mathlib.Algebra.Order.BigOperators.Group.Finset

/-!
# Specification of low discrepancy sequences in base 2
-/

namespace Boost.Random.Spec

/-- Coordinate `d` of point `n` of the sequence whose coordinates are `vs`, with the point zero, which the engines leave out, put back in front. -/
def pointOf (dim : Nat) (vs : List Nat) (n d : Nat) : Nat := if n = 0 then 0 else vs.getD ((n - 1) * dim + d) 0

/-- The points `c*2^M, ..., (c+1)*2^M - 1` whose coordinate `d`, of `w` bits, has the `bits d` leading bits `a d`. -/
def inBox (w dim : Nat) (vs : List Nat) (M c : Nat) (bits a : Nat → Nat) : Finset Nat :=
  (Finset.range (2 ^ M)).filter fun n => ∀ d < dim, pointOf dim vs (c * 2 ^ M + n) d / 2 ^ (w - bits d) = a d

/-- A `(t,s)`-sequence in base 2 with the degrees `e d` of the coordinates (`t` is the sum of the `e d - 1`), as far as `2^w` points of `w` bits go:
in every aligned block of `2^M` points every box, whose side in coordinate `d` is a multiple `k d * e d` of the degree, in total no more than `M`
bits, holds the share of the points that corresponds to its volume. -/
def IsDigitalSequence (w dim : Nat) (e : Nat → Nat) (vs : List Nat) : Prop :=
  ∀ (k a : Nat → Nat) (M c : Nat), M ≤ w → (c + 1) * 2 ^ M ≤ 2 ^ w → ∑ d ∈ Finset.range dim, k d * e d ≤ M → (∀ d < dim, a d < 2 ^ (k d * e d)) →
    (inBox w dim vs M c (fun d => k d * e d) a).card = 2 ^ (M - ∑ d ∈ Finset.range dim, k d * e d)

/-- A `(t,s)`-sequence in base 2 as usually defined, as far as `2^w` points of `w` bits go: in every aligned block of `2^M` points every box whose
sides take `2^bits d`-th parts of the coordinates, of a volume not below `2^(t-M)`, holds the share of the points that corresponds to its volume. -/
def IsTsSequence (w dim t : Nat) (vs : List Nat) : Prop :=
  ∀ (bits a : Nat → Nat) (M c : Nat), M ≤ w → (c + 1) * 2 ^ M ≤ 2 ^ w → t + ∑ d ∈ Finset.range dim, bits d ≤ M → (∀ d < dim, a d < 2 ^ bits d) →
    (inBox w dim vs M c bits a).card = 2 ^ (M - ∑ d ∈ Finset.range dim, bits d)

end Boost.Random.Spec
