import Verif.Spec.MersenneTwister

/-! # Mersenne Twister on a type narrower than `int` -/

namespace Boost.Random.Spec

/-- A Mersenne Twister on an unsigned type of at most 16 bits, with template arguments that fit in it. -/
structure MtNarrow (P : Mt.Params) : Prop extends MtValid P where
  narrow : P.bits ≤ 16
  f_lt : P.f < 2 ^ P.bits

end Boost.Random.Spec
