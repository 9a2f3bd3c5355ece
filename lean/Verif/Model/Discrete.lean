import Verif.Model.UniformInt
import Mathlib.Data.Rat.Defs
import Mathlib.Algebra.Order.Ring.Rat

/-!
# `discrete_distribution`

Model of `include/boost/random/discrete_distribution.hpp`. Weights are non-negative, as documented. `IntType` is `T`, an integral
`WeightType` is `WT`; their arithmetic is checked (`none` = signed overflow, or access outside a table) and wraps for unsigned
types. Floating-point weights are modelled by rationals.
-/

namespace Boost.Random
namespace Discrete

/-! ## Construction of an alias table -/

section Build
variable {α : Type} [LT α] [DecidableLT α] (sub : α → α → Option α) (gw : Nat → Option α) (na : α)

/-- `while(b_iter != b_end && a_iter != a_end)`; discrete_distribution.hpp:601-610. The lists are what the iterators have in front of
them; each iteration makes them one shorter in total, so that their total length is enough as first argument. -/
def pairLoop : (fuel : Nat) → (below above table : List (α × Nat)) → Option (List (α × Nat) × List (α × Nat) × List (α × Nat))
  | k + 1, (bv, bi) :: b, (av, ai) :: a, t =>
    if bi < t.length then
      (gw bi).bind fun g => (sub g bv).bind fun d => (sub av d).bind fun av =>
        if av < na then pairLoop k ((av, ai) :: b) a (t.set bi (bv, ai)) else pairLoop k b ((av, ai) :: a) (t.set bi (bv, ai))
    else none
  | _, b, a, t => some (b, a, t)

/-- The loops that give the columns left their full weight; discrete_distribution.hpp:611-618. `.second` is left as it is. -/
def fillRest : (left table : List (α × Nat)) → Option (List (α × Nat))
  | [], t => some t
  | (_, i) :: r, t =>
    match t[i]? with
    | some e => (gw i).bind fun g => fillRest r (t.set i (g, e.2))
    | none => none

/-- `init(first, last, forward_iterator_tag)` after the calls of `init_average` and `get_weight(0)`, for normalized weights `vals`;
discrete_distribution.hpp:584-618. -/
def build (vals : List α) (t : List (α × Nat)) : Option (List (α × Nat)) :=
  let entries := vals.zipIdx
  let below := entries.filter fun e => e.1 < na
  let above := entries.filter fun e => ¬ e.1 < na
  (pairLoop sub gw na vals.length below above t).bind fun r => (fillRest gw r.1 r.2.2).bind fun t => fillRest gw r.2.1 t

/-- The loop of `probabilities()` from entry `i` on; discrete_distribution.hpp:500-508. -/
def probLoop (add : α → α → Option α) : (i : Nat) → (table : List (α × Nat)) → (result : List α) → Option (List α)
  | _, [], result => some result
  | i, (first, second) :: t, result =>
    result[i]?.bind fun x => (add x first).bind fun x =>
      let result := result.set i x
      result[second]?.bind fun y => (gw i).bind fun g => (sub g first).bind fun d => (add y d).bind fun y =>
        probLoop add (i + 1) t (result.set second y)

/-- `_alias_table.resize(n)`: elements already there stay, new ones are zero; discrete_distribution.hpp:77, 148. -/
def resize (z : α) (n : Nat) (t : List (α × Nat)) : List (α × Nat) := t.take n ++ List.replicate (n - t.length) (z, 0)

end Build

/-! ## Integer weights -/

/-- `integer_alias_table`; discrete_distribution.hpp:131-134. -/
structure IntAlias where
  table : List (Nat × Nat)
  average : Nat
  excess : Nat
  deriving DecidableEq, Repr

/-- `init_empty()`; discrete_distribution.hpp:82-89. -/
def IntAlias.empty : IntAlias := ⟨[(1, 0)], 1, 0⟩

/-- `get_weight(bin)`; discrete_distribution.hpp:43-47. -/
def getWeight (WT : IntTy) (average excess bin : Nat) : Option Nat := if bin < excess then WT.add average 1 else some average

/-- The loop of `init_average`: average, excess and number of weights so far; discrete_distribution.hpp:55-76. The operands of `/` and
`%` are non-negative, so that the common type of the operands does not matter. -/
def averageLoop (WT T : IntTy) : List Nat → (avg excess n : Nat) → Option (Nat × Nat × Nat)
  | [], avg, excess, n => some (avg, excess, n)
  | x :: xs, avg, excess, n =>
    (T.add n 1).bind fun n =>
      if x < avg then
        (WT.sub avg x).bind fun diff => (WT.sub avg (diff / n)).bind fun avg =>
          if diff % n > excess then
            (WT.sub avg 1).bind fun avg => (T.add excess (n - diff % n)).bind fun excess => averageLoop WT T xs avg excess n
          else (T.sub excess (diff % n)).bind fun excess => averageLoop WT T xs avg excess n
      else
        (WT.sub x avg).bind fun diff => (WT.add avg (diff / n)).bind fun avg => (T.sub n excess).bind fun room =>
          if diff % n < room then (T.add excess (diff % n)).bind fun excess => averageLoop WT T xs avg excess n
          else (WT.add avg 1).bind fun avg => (T.sub excess (n - diff % n)).bind fun excess => averageLoop WT T xs avg excess n

/-- `init(first, last)` on a distribution holding `old`; discrete_distribution.hpp:50-81, 572-627. `normalize` does nothing. -/
def IntAlias.init (WT T : IntTy) (old : IntAlias) (ws : List Nat) : Option IntAlias :=
  if ws = [] then some IntAlias.empty
  else
    (averageLoop WT T ws 0 0 0).bind fun r =>
      let gw := getWeight WT r.1 r.2.1
      (gw 0).bind fun na => (build WT.sub gw na ws (resize 0 r.2.2 old.table)).map fun t => ⟨t, r.1, r.2.1⟩

/-- The constructors; the table starts empty; discrete_distribution.hpp:348-420. -/
def IntAlias.make (WT T : IntTy) (ws : List Nat) : Option IntAlias := IntAlias.init WT T ⟨[], 0, 0⟩ ws

/-- `probabilities()`; discrete_distribution.hpp:496-511. -/
def IntAlias.probabilities (WT : IntTy) (d : IntAlias) : Option (List Nat) :=
  probLoop WT.sub (getWeight WT d.average d.excess) WT.add 0 d.table (List.replicate d.table.length 0)

/-- `operator()(urng)`; discrete_distribution.hpp:428-442. The loop ends after an iteration that reads nothing only if it is endless, so
that `xs.length + 1` iterations are enough; an endless loop is shown as `more`. -/
def IntAlias.loop (E : EngInfo) (WT T : IntTy) (d : IntAlias) : (fuel : Nat) → List Int → Draw Nat
  | 0, _ => .more
  | f + 1, xs =>
    match UniformInt.generate E T 0 ((d.table.length : Int) - 1) xs with
    | .ub => .ub
    | .more => .more
    | .done result xs =>
      match UniformInt.generate E WT 0 d.average xs with
      | .ub => .ub
      | .more => .more
      | .done test xs =>
        if result.toNat < d.excess ∨ test.toNat < d.average then
          match d.table[result.toNat]? with
          | none => .ub
          | some e => .done (if test.toNat < e.1 then result.toNat else e.2) xs
        else IntAlias.loop E WT T d f xs

/-- `operator()(urng)`: the loop with enough iterations; discrete_distribution.hpp:428-442. -/
def IntAlias.next (E : EngInfo) (WT T : IntTy) (d : IntAlias) (xs : List Int) : Draw Nat := IntAlias.loop E WT T d (xs.length + 1) xs

/-- `try_get_sum(weights)` from `result` on; discrete_distribution.hpp:109-122. -/
def tryGetSum (WT : IntTy) : List Nat → (result : Nat) → Option Nat
  | [], result => some result
  | x :: xs, result => if WT.maxv - result > x then some 0 else (WT.add result x).bind fun result => tryGetSum WT xs result

/-- The loop of `operator()(urng, parm)`: the first index whose partial sum exceeds `val`; discrete_distribution.hpp:455-464. -/
def scan (WT : IntTy) (val : Nat) : List Nat → (sum result : Nat) → Option (Option Nat)
  | [], _, _ => some none
  | x :: xs, sum, result => (WT.add sum x).bind fun sum => if sum > val then some (some result) else scan WT val xs sum (result + 1)

/-- `operator()(urng, parm)` with integer weights; discrete_distribution.hpp:449-474. -/
def callWith (E : EngInfo) (WT T : IntTy) (ws : List Nat) (xs : List Int) : Draw Nat :=
  match tryGetSum WT ws 0 with
  | none => .ub
  | some 0 =>
    match IntAlias.make WT T ws with
    | none => .ub
    | some d => IntAlias.next E WT T d xs
  | some limit =>
    match UniformInt.generate E WT 0 ((limit : Int) - 1) xs with
    | .ub => .ub
    | .more => .more
    | .done val xs =>
      match scan WT val.toNat ws 0 0 with
      | none => .ub
      | some (some result) => .done result xs
      | some none => .done (ws.length - 1) xs

/-! ## Real weights -/

/-- `real_alias_table::init_average`, `normalize` and `init`; discrete_distribution.hpp:142-150, 161-164, 572-627. A table is all there is. -/
def realInit (old : List (ℚ × Nat)) (ws : List ℚ) : Option (List (ℚ × Nat)) :=
  if ws = [] then some [(1, 0)]
  else
    let avg := ws.sum / ws.length
    build (fun x y => some (x - y)) (fun _ => some 1) 1 (ws.map (· / avg)) (resize 0 ws.length old)

/-- `normalize(weights)`; discrete_distribution.hpp:165-177. -/
def realNormalize (ws : List ℚ) : List ℚ := ws.map (· / ws.sum)

/-- `probabilities()` with real weights; discrete_distribution.hpp:496-511. -/
def realProbabilities (t : List (ℚ × Nat)) : Option (List ℚ) :=
  (probLoop (fun x y => some (x - y)) (fun _ => some 1) (fun x y => some (x + y)) 0 t (List.replicate t.length 0)).map realNormalize

/-- `operator()(urng)` with real weights, given the values of the two distributions it draws from; discrete_distribution.hpp:428-442. -/
def realPick (t : List (ℚ × Nat)) (result : Nat) (test : ℚ) : Option Nat :=
  t[result]?.map fun e => if test < e.1 then result else e.2

/-- `operator()(urng, parm)` with real weights, given the value of `uniform_01`: `IntType` is signed; discrete_distribution.hpp:449-474. -/
def realCallWith (val : ℚ) : (probs : List ℚ) → (sum : ℚ) → (result : Nat) → Int
  | [], _, n => (n : Int) - 1
  | p :: ps, sum, result => if sum + p > val then result else realCallWith val ps (sum + p) (result + 1)

end Discrete
end Boost.Random
