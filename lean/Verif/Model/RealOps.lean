import Mathlib.Algebra.Order.Floor.Ring
import Mathlib.Algebra.Field.Defs
import Verif.Model.SignedUnsigned

/-!
# Operations of a floating-point type

The distributions that call functions of `<cmath>` are modelled over an ordered field `K` that holds the values of `RealType`. Every
operation is the exact one followed by `fl`; the functions of `<cmath>` are parameters. Over `ℝ` with `fl = id` and the mathematical
functions this is exact arithmetic, over `ℚ` with a rounding function it is floating-point arithmetic without bounds on the exponents.
The literals of the code have the type `double`: the model is of `RealType` = `double` wherever a definition uses a literal other than a
small integer or one half.

The input of a distribution is the list of the results of `uniform_01<RealType>()(urng)`, which is modelled in `Verif.Model.RealDist`.
-/

namespace Boost.Random

/-- Rounding and the functions of `<cmath>`, in a type with values in `K`. -/
structure RealOps (K : Type) where
  fl : K → K
  sqrt : K → K
  exp : K → K
  log : K → K
  pow : K → K → K

/-- The outcome of drawing from a distribution: a value and the remaining results of `uniform_01`, not enough results in the list, or
undefined behaviour. -/
inductive Draws (K α : Type) where
  | done (v : α) (rest : List K)
  | more
  | ub
  deriving DecidableEq, Repr

/-- Using the value of one distribution in another. -/
def Draws.bind {K α β : Type} (r : Draws K α) (f : α → List K → Draws K β) : Draws K β :=
  match r with
  | .done v rest => f v rest
  | .more => .more
  | .ub => .ub

/-- `static_cast<IntType>(x)` for a signed `IntType` of `bits` bits: the fraction is discarded; a value that does not fit is undefined
behaviour. -/
def castSigned {K : Type} [Field K] [LinearOrder K] [FloorRing K] (bits : Nat) (x : K) : Option Int :=
  let n := if 0 ≤ x then ⌊x⌋ else ⌈x⌉
  if InSigned bits n then some n else none

end Boost.Random
