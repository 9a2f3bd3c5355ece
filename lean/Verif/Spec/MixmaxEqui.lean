import Verif.Spec.Mixmax
import Verif.Spec.Run
import Mathlib.Data.Set.Card

/-!
# Specification of the equidistribution of MIXMAX
-/

namespace Boost.Random.Spec

/-- The vectors modulo `p` from which calls number `n .. n + k - 1` return `t 0 .. t (k - 1)`, up to multiples of
`p`: the vectors of well-formed states that have not returned anything of their vector yet. -/
def mixHits (next : Mixmax.State → Option (Nat × Mixmax.State)) (N n k : Nat) (t : Nat → ZMod mixP) :
    Set (Fin N → ZMod mixP) :=
  { x | ∃ S, MixOK N S ∧ S.counter = 1 ∧ mixVec N S.V = x ∧ ∃ vs S', run next (n + k) S = some (vs, S') ∧
    ∀ i, i < k → ((vs.getD (n + i) 0 : Nat) : ZMod mixP) = t i }

end Boost.Random.Spec
