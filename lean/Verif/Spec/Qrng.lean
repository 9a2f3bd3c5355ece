import Verif.Model.Qrng

/-!
# Specification of quasi-random engines

A quasi-random engine of dimension `d` over a sequence of points `pt 0, pt 1, ..., pt (last-1)` in `d` dimensions returns the coordinates
of these points one after the other, from its position on.
-/

namespace Boost.Random.Spec
open Qrng

/-- What is returned at position `p`, if the sequence is that long. -/
def qAt {α : Type} (pt : Nat → List α) (last dimension p : Nat) : Option α :=
  if p / dimension < last then (pt (p / dimension))[p % dimension]? else none

/-- The values of `n` calls; an exception ends them. -/
def qCalls {L α : Type} (D : Derived L α) : Nat → Q L α → Res (List α × Q L α)
  | 0, q => .ok ([], q)
  | n + 1, q => (Qrng.next D q).bind fun r => (qCalls D n r.2).bind fun s => .ok (r.1 :: s.1, s.2)

/-- The values of up to `n` calls, up to the first exception; `none` if there is undefined behaviour. -/
def qOutputs {L α : Type} (D : Derived L α) : Nat → Q L α → Option (List α)
  | 0, _ => some []
  | n + 1, q =>
    match Qrng.next D q with
    | .ok r => (qOutputs D n r.2).map (r.1 :: ·)
    | .throw => some []
    | .ub => none

/-- Two engines have the same future. -/
def QSameFuture {L α : Type} (D : Derived L α) (q q' : Q L α) : Prop := ∀ n, qOutputs D n q ≠ none ∧ qOutputs D n q = qOutputs D n q'

/-- The position in the sequence: how many values come before the next one. -/
def qPosition {L α : Type} (q : Q L α) : Nat := q.seq * q.quasi.length + q.curr

/-- The Gray code of `n`. -/
def grayCode (n : Nat) : Nat := n ^^^ (n / 2)

/-- The exclusive or of the `v r` for the bits `r < w` of `code` that are set. -/
def xorSelect (v : Nat → Nat) (code : Nat) : Nat → Nat
  | 0 => 0
  | w + 1 => xorSelect v code w ^^^ if code.testBit w then v w else 0

/-- Point `i` of the sequence with `w` direction numbers per coordinate, in a lattice with element `dimension*r + d` the `r`-th direction
number of coordinate `d`. The zero point is left out. -/
def grayPoint (w : Nat) (l : List Nat) (dimension i : Nat) : List Nat :=
  (List.range dimension).map fun d => xorSelect (fun r => l.getD (dimension * r + d) 0) (grayCode (i + 1)) w

/-- `bit_count` is `w`, `size_type` has `digits` bits, a lattice of dimension `dim` has `w*dim` elements. -/
structure LatticeClass (w digits : Nat) (resize : Nat → Res (List Nat)) : Prop where
  one_le : 1 ≤ w
  le : w ≤ digits
  le64 : digits ≤ 64
  length : ∀ dim l, resize dim = .ok l → l.length = w * dim

/-- A state of a Gray-coded engine of dimension `dim`: the lattice is that of the dimension, the vector held is point `seq`. -/
structure GrayState (w : Nat) (resize : Nat → Res (List Nat)) (dim : Nat) (q : Q (List Nat) Nat) : Prop where
  pos : 0 < dim
  lt : dim < 2 ^ 63
  lattice : resize dim = .ok q.lattice
  seq : q.seq < 2 ^ w - 1
  curr : q.curr ≤ dim
  quasi : q.quasi = grayPoint w q.lattice dim q.seq

end Boost.Random.Spec
