import Verif.Spec.MersenneTwister
import Verif.Spec.SwcPeriod

/-!
# Specification of the period and of the equidistribution of the Mersenne Twister
-/

namespace Boost.Random.Spec

/-- The period that the parameters were chosen for: the number of states in which some significant bit is 1. -/
def mtPeriod (P : Mt.Params) : Nat := 2 ^ (P.w * P.n - P.r) - 1

/-- All bits of the array but the lower `r` bits of element 0 are 0. -/
def MtDegenerate (P : Mt.Params) (st : BlockEng Nat) : Prop :=
  (∃ v, st.x[0]? = some v ∧ v < 2 ^ P.r) ∧ ∀ j, 1 ≤ j → j < P.n → st.x[j]? = some 0

/-- The engine returns `out 0, out 1, ...` for ever. -/
def Returns {σ α : Type} (next : σ → Option (α × σ)) (st : σ) (out : Nat → α) : Prop :=
  ∀ k, ∃ st', run next k st = some ((List.range k).map out, st')

end Boost.Random.Spec
