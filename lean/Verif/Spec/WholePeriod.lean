import Verif.Spec.Expected
import Verif.Spec.MtPeriod

/-!
# Specification of the use of an engine over its whole period

A call of a distribution made after `t` calls of the engine reads `out t, out (t + 1), ...`.
-/

namespace Boost.Random.Spec

/-- The `k` engine values that follow after `t` calls. -/
def window (out : Nat → Nat) (k t : Nat) : List Int := (List.range k).map fun j => (out (t + j) : Int)

/-- The mean of `g` over all lists of `k` engine values: its expectation with an ideal engine. -/
def idealMean (E : EngInfo) (g : List Int → ℚ) (k : Nat) : ℚ := ((tuples E k).map g).sum / (engValues E : ℚ) ^ k

/-- The mean of `g` over the `N` successive positions of an engine. -/
def periodMean (out : Nat → Nat) (N : Nat) (g : List Int → ℚ) (k : Nat) : ℚ :=
  ((List.range N).map fun t => g (window out k t)).sum / N

/-- The number of positions from which a call that may use `k` engine values returns `v`. -/
def timesReturned {α : Type} [DecidableEq α] (out : Nat → Nat) (N : Nat) (q : List Int → Draw α) (k : Nat) (v : α) : Nat :=
  (List.range N).countP fun t => returns v (q (window out k t))

/-- The Mersenne Twister as the distributions see it: unsigned values from `min()` to `max()`, mersenne_twister.hpp:181-186. -/
def mtInfo (P : Mt.Params) : EngInfo := ⟨⟨P.w, false⟩, Mt.minv, Mt.maxv P⟩

end Boost.Random.Spec
