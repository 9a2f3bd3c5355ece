import Verif.Spec.RealDist

/-!
# Engines for the deprecated form of `uniform_01`
-/

namespace Boost.Random.Spec

/-- The result type is narrower than `int`, or it holds the differences of the engine values. -/
def OldOK (E : EngInfo) : Prop := E.ty.bits < 32 ∨ DiffOK E

end Boost.Random.Spec
