import Verif.Spec.Swc
import Verif.Spec.RealDist
import Verif.Model.Swc01

/-!
# Specification of the floating-point subtract-with-carry engine

The states are those of the integer engine divided by `2^w`.
-/

namespace Boost.Random.Spec

/-- Template arguments covered: `0 < s < r`, and the type has at least `w` digits. -/
structure Swc01Valid (E : Swc01) : Prop where
  s_pos : 0 < E.s
  s_lt : E.s < E.r
  w_le : E.w ≤ E.digits
  digits_pos : 1 ≤ E.digits

/-- An integer engine with the same word size and lags. -/
def swcOf (E : Swc01) : Swc := ⟨E.w + 1, E.w, E.s, E.r⟩

/-- The fractions `v / 2^w`. -/
def fractions (w : Nat) (x : List Nat) : List ℚ := x.map fun v : Nat => (v : ℚ) / 2 ^ w

/-- The state of the floating-point engine that corresponds to a state of the integer engine. -/
def asFractions (w : Nat) (st : SwcState) : Swc01State := ⟨fractions w st.x, (st.carry : ℚ) / 2 ^ w, st.k⟩

end Boost.Random.Spec
