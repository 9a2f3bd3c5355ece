import Verif.Model.Lcg

/-!
# The generators of `extra/haertel.hpp`

Model of the two class templates in `extra/haertel.hpp`, "a collection of ideas": `additive_congruential` (ACORN) and
`lagged_fibonacci_int`. Values are numbers of the integer type `T`; negative ones are outside the model.
-/

namespace Boost.Random
namespace Haertel

/-- `tmp`: the sum of two elements, less `m` if it is not below `m`; haertel.hpp:57-59, 106-108. -/
def sum (T : IntTy) (m x y : Nat) : Option Nat := (T.add x y).bind fun tmp => if tmp ≥ m then T.sub tmp m else some tmp

/-! ## `additive_congruential` -/

/-- Template parameters of `additive_congruential`; haertel.hpp:29, 66. The array has `k + 1` elements. -/
structure Acorn where
  T : IntTy
  k : Nat
  m : Nat
  deriving DecidableEq, Repr

namespace Acorn

/-- `seed(start)`: the first `k + 1` elements from the iterator, as they are; reading past the end is undefined;
haertel.hpp:48-52. -/
def seed (A : Acorn) (start : List Nat) : Option (List Nat) := if A.k + 1 ≤ start.length then some (start.take (A.k + 1)) else none

/-- The loop of `operator()`, from the element after `prev`; haertel.hpp:56-61. -/
def loop (A : Acorn) : (prev : Nat) → List Nat → Option (List Nat)
  | _, [] => some []
  | prev, v :: vs => do
    let tmp ← sum A.T A.m prev v
    let rest ← loop A tmp vs
    some (tmp :: rest)

/-- `operator()`; haertel.hpp:54-63. -/
def next (A : Acorn) : List Nat → Option (Nat × List Nat)
  | [] => none
  | v :: vs => (A.loop v vs).map fun ws => ((v :: ws).getLastD 0, v :: ws)

end Acorn

/-- `MRG_Acorn7`; haertel.hpp:150-151. -/
def mrgAcorn7 : Acorn := ⟨⟨32, true⟩, 6, 2 ^ 30 - 35⟩

/-! ## `lagged_fibonacci_int` -/

/-- Template parameters of `lagged_fibonacci_int`; haertel.hpp:70. -/
structure LagInt where
  T : IntTy
  r : Nat
  s : Nat
  m : Nat
  deriving DecidableEq, Repr

/-- Data members; haertel.hpp:120-121. An element that has not been assigned is `none`. -/
structure LagState where
  values : List (Option Nat)
  current : Nat
  lag : Nat
  deriving DecidableEq, Repr

namespace LagInt

/-- The next `n` values of a generator. -/
def take {σ : Type} (gen : σ → Option (Nat × σ)) : Nat → σ → Option (List Nat)
  | 0, _ => some []
  | n + 1, s => (gen s).bind fun p => (take gen n p.2).map fun vs => p.1 :: vs

/-- `seed(gen)`: 607 elements are assigned whatever `r` is: beyond the array this is undefined, and elements after them stay
unassigned; haertel.hpp:94-102. The `assert` of line 97 counts as undefined. -/
def seedGen {σ : Type} (L : LagInt) (gen : σ → Option (Nat × σ)) (s : σ) : Option LagState :=
  if L.s < L.r ∧ 607 ≤ L.r then
    (take gen 607 s).map fun vs => ⟨vs.map some ++ List.replicate (L.r - 607) none, 0, L.r - L.s⟩
  else none

/-- The generator `init` in `seed(start)`; haertel.hpp:91. -/
def initLcg : Lcg := ⟨⟨32, false⟩, 299375077, 0, 0⟩

/-- `seed(start)`, which does not look at `start`: `init` is constructed with its default seed 1;
haertel.hpp:89-93, linear_congruential.hpp:66, 88. -/
def seed (L : LagInt) (_start : Nat) : Option LagState :=
  L.seedGen (fun x : Nat => (initLcg.next x).map fun y => (y, y)) (initLcg.seed 1).toNat

/-- `operator()`; haertel.hpp:104-117. Reading outside the array or an unassigned element is undefined. -/
def next (L : LagInt) (st : LagState) : Option (Nat × LagState) := do
  let a ← (st.values[st.current]?).join
  let b ← (st.values[st.lag]?).join
  let tmp ← sum L.T L.m a b
  let values := st.values.set st.current (some tmp)
  let current := if st.current + 1 ≥ L.r then 0 else st.current + 1
  let lag := if st.lag + 1 ≥ L.r then 0 else st.lag + 1
  some (tmp, ⟨values, current, lag⟩)

end LagInt

/-- `MRG_Fib2`; haertel.hpp:152-153. -/
def mrgFib2 : LagInt := ⟨⟨32, false⟩, 607, 273, 0⟩

end Haertel
end Boost.Random
