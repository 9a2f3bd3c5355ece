import Verif.Spec.Lcg
import Verif.Spec.UniformInt

/-!
# Specification for integer types narrower than `int`
-/

namespace Boost.Random.Spec

/-- `std::uint16_t`. -/
def u16 : IntTy := ⟨16, false⟩

/-- `linear_congruential_engine<std::uint16_t, a, c, 0>`: modulus `2^16`. -/
def lcg16 (a c : Nat) : Lcg := ⟨u16, a, c, 0⟩

/-- A type narrower than `int`. -/
def Narrow (T : IntTy) : Prop := 2 ≤ T.bits ∧ T.bits ≤ 16

/-- Two descriptions of an engine with the same values, perhaps in different integer types. -/
def SameValues (E E' : EngInfo) : Prop := E.min = E'.min ∧ E.max = E'.max

end Boost.Random.Spec
