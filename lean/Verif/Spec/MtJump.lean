import Verif.Spec.MersenneTwister
import Verif.Spec.Polynomial

/-!
# The characteristic polynomial of the Mersenne Twister
-/

namespace Boost.Random.Spec
open Polynomial

/-- The number of bits of the state: all but the lower `r` bits of one word. -/
def mtBits (P : Mt.Params) : Nat := P.w * P.n - P.r

/-- `T^n + T^m`, divided by `T` for the bits that are taken from the following word. -/
noncomputable def mtFactor (P : Mt.Params) (i : Nat) : (ZMod 2)[X] :=
  if i < P.r then X ^ (P.n - 1) + X ^ (P.m - 1) else X ^ P.n + X ^ P.m

/-- The product of the first factors and the sums with the coefficients `a` of the matrix. -/
noncomputable def mtPoly (P : Mt.Params) : Nat → (ZMod 2)[X]
  | 0 => 1
  | i + 1 => mtFactor P i * mtPoly P i + if P.a.testBit i then 1 else 0

/-- The characteristic polynomial (Matsumoto and Nishimura, 1998, appendix A). -/
noncomputable def mtChar (P : Mt.Params) : (ZMod 2)[X] := mtPoly P P.w

end Boost.Random.Spec
