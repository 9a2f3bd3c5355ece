import Verif.Model.Qrng

/-!
# The Niederreiter base 2 lattice

Model of `include/boost/random/niederreiter_base2.hpp`. A `dynamic_bitset` of `size` bits is a number below `2^size`; `v` of
`calculate_v`, which is read bit by bit, is a list of bits.
-/

namespace Boost.Random
namespace Qrng

/-- `bitset_log2`; niederreiter_base2.hpp:25-36. -/
def bitsetLog2 (v : Nat) : Res Nat := if v = 0 then .throw else .ok v.log2

/-- The loop of `modulo2_multiply`: `P` has at most `fuel` bits; niederreiter_base2.hpp:44-45. `v <<= 1` keeps the size. -/
def mod2Loop (size : Nat) : (fuel P v pt : Nat) → Nat
  | 0, _, _, pt => pt
  | f + 1, P, v, pt =>
    if P = 0 then pt
    else mod2Loop size f (P / 2) ((v <<< 1) % 2 ^ size) (if P % 2 = 1 then pt ^^^ v else pt)

/-- `modulo2_multiply`: the new `v`; niederreiter_base2.hpp:40-47. -/
def modulo2Multiply (size P v : Nat) : Nat := mod2Loop size (P.log2 + 1) P v 0

/-- `v[r]` from the bits before it, `r = v.length`; niederreiter_base2.hpp:77-83. -/
def nbTerm (pb pbDegree : Nat) (v : List Bool) : Bool :=
  (List.range pbDegree).foldl (fun term k => term ^^ (pb.testBit k && v.getD (v.length + k - pbDegree) false)) false

/-- `calculate_v` for a bitset of `size` bits; niederreiter_base2.hpp:54-85. Bits past the end are undefined behaviour. -/
def calculateV (pb kj pbDegree size : Nat) : Res (List Bool) :=
  if kj > size ∨ pbDegree > size then .ub
  else
    let v := List.replicate kj false ++ List.replicate (pbDegree - kj) true
    .ok (Nat.iterate (fun v => v ++ [nbTerm pb pbDegree v]) (size - v.length) v)

/-- `num = (num & ~j) | (-v[r + u] & j)`; niederreiter_base2.hpp:184. -/
def nbSet (digits num j : Nat) (b : Bool) : Nat := (num &&& (2 ^ digits - 1 - j)) ||| if b then j else 0

/-- The loop over `u`, `count = degree - u`: the new `j` and the column of the dimension; niederreiter_base2.hpp:173-186. As in the model
of the Sobol lattice the column is a list of its own. `r + u < bit_count + degree - 1`, the size of `v`. -/
def nbRows (digits : Nat) (v : List Bool) : (count u j : Nat) → (col : List Nat) → Nat × List Nat
  | 0, _, j, col => (j, col)
  | c + 1, u, j, col =>
    if j = 0 then (j, col)
    else nbRows digits v c (u + 1) (j / 2) (col.mapIdx fun r num => nbSet digits num j (v.getD (r + u) false))

/-- The `do` loop of one dimension; niederreiter_base2.hpp:145-187. `j` has at most `fuel` bits. -/
def nbLoop (w digits poly degree space : Nat) : (fuel pb pbDegree j : Nat) → (col : List Nat) → Res (List Nat)
  | 0, _, _, _, _ => .ub
  | f + 1, pb, pbDegree, j, col =>
    let kj := pbDegree
    let pb := modulo2Multiply space poly pb
    (if pbDegree + degree ≥ space then bitsetLog2 pb else .ok (pbDegree + degree)).bind fun pbDegree =>
      (calculateV pb kj pbDegree (degree + w - 1)).bind fun v =>
        let (j, col) := nbRows digits v degree 0 j col
        if j ≠ 0 then nbLoop w digits poly degree space f pb pbDegree j col else .ok col

/-- The column of a dimension; niederreiter_base2.hpp:121-187. The constant 1 as a polynomial would be a division by zero. -/
def nbColumn (w digits poly : Nat) : Res (List Nat) :=
  if poly > 2 ^ digits - 1 then .throw
  else if poly = 0 then .throw
  else
    let degree := poly.log2
    if degree = 0 then .ub
    else nbLoop w digits poly degree (degree * (w / degree + 1)) w 1 0 (2 ^ (w - 1)) (List.replicate w 0)

/-- The polynomials of a table `Nb2Table`; detail/niederreiter_base2_table.hpp:28-43. -/
structure NbTable where
  maxDimension : Nat
  polynomial : Nat → Nat

/-- The columns of the dimensions `dim, ..., dim + n - 1`. -/
def nbColumns (w digits : Nat) (T : NbTable) : (n dim : Nat) → Res (List (List Nat))
  | 0, _ => .ok []
  | n + 1, dim =>
    (nbColumn w digits (T.polynomial dim)).bind fun c => (nbColumns w digits T n (dim + 1)).bind fun cs => .ok (c :: cs)

/-- `niederreiter_base2_lattice::resize`; niederreiter_base2.hpp:106-191. -/
def nbLattice (w digits : Nat) (T : NbTable) (dimension : Nat) : Res (List Nat) :=
  if dimension = 0 ∨ dimension > T.maxDimension then .throw
  else (nbColumns w digits T dimension 0).bind fun cols => .ok ((List.range w).flatMap fun r => cols.map fun c => c.getD r 0)

/-- `niederreiter_base2_engine<UIntType, w, Nb2Table>`; niederreiter_base2.hpp:234-249. -/
def niederreiter (w digits : Nat) (T : NbTable) : Derived (List Nat) Nat := gray w digits (nbLattice w digits T)

end Qrng
end Boost.Random
