import Verif.Model.UniformInt
import Mathlib.Data.Finset.Card
import Mathlib.Algebra.BigOperators.Group.Finset.Basic
import Mathlib.Algebra.BigOperators.Intervals

/-!
# Specification of uniform integer distributions

Uniformity is stated by counting: among all tuples of `n` engine values, the number that make the
distribution read exactly all of them and return `v`.
-/

namespace Boost.Random.Spec

/-- A legal engine description (an engine has at least two values). -/
structure EngOK (E : EngInfo) : Prop where
  bits : 1 ≤ E.ty.bits
  min_ty : InTy E.ty E.min
  max_ty : InTy E.ty E.max
  lt : E.min < E.max

/-- All values were produced by the engine. -/
def Outputs (E : EngInfo) (xs : List Int) : Prop := ∀ x ∈ xs, E.min ≤ x ∧ x ≤ E.max

/-- Legal parameters of a distribution over the integer type `T`. -/
structure ParamOK (T : IntTy) (mn mx : Int) : Prop where
  bits : 1 ≤ T.bits
  min_ty : InTy T mn
  max_ty : InTy T mx
  le : mn ≤ mx

/-- All lists of `n` engine values. -/
def tuples (E : EngInfo) : Nat → List (List Int)
  | 0 => [[]]
  | n + 1 => (List.range ((E.max - E.min).toNat + 1)).flatMap fun (d : Nat) =>
      (tuples E n).map fun t => (E.min + (d : Int)) :: t

/-- The number of `n`-tuples of engine values from which the distribution `p` returns `v`, having read
exactly those `n` values. -/
def count {α : Type} [DecidableEq α] (E : EngInfo) (p : List Int → Draw α) (n : Nat) (v : α) : Nat :=
  (tuples E n).countP fun t => decide (p t = Draw.done v [])

/-- The size of `[mn, mx]` is a power `k ≥ 2` of the number of engine values. -/
def ExactPower (E : EngInfo) (mn mx : Int) : Prop :=
  ∃ k : Nat, 2 ≤ k ∧ mx - mn + 1 = (E.max - E.min + 1) ^ k

/-- `[mn, mx]` is the whole type. -/
def FullRange (T : IntTy) (mn mx : Int) : Prop := mx - mn + 1 = 2 ^ T.bits

end Boost.Random.Spec
