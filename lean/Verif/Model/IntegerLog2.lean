/-!
# `integer_log2`

Model of `include/boost/random/detail/integer_log2.hpp`.
-/

namespace Boost.Random

/-- `integer_log2_impl<2^j>::apply(t, accum)`; detail/integer_log2.hpp:35-68.
`j = 0` is the specialisation for `Shift = 1` (lines 60-68), `j + 1` the general template
(`apply`/`apply2`, lines 46-56). The C++ template argument `Shift` is the power of two `2^j`. -/
def integerLog2Impl : (j : Nat) → (t accum : Nat) → Nat
  | 0, t, accum => (t >>> 1) + accum
  | j + 1, t, accum =>
    let update := if t >>> 2 ^ (j + 1) ≠ 0 then 2 ^ (j + 1) else 0
    integerLog2Impl j (t >>> update) (accum + update)

/-- Exponent of `boost::detail::max_pow2_less<digits, 4>::value` (used at
detail/integer_log2.hpp:74-76): starting with `4 = 2^2`, double while `2*S < digits`.
The helper template itself belongs to Boost.Integer; its recursion is bounded by `fuel`. -/
def maxPow2LessExp (digits : Nat) : (fuel j : Nat) → Nat
  | 0, j => j
  | fuel + 1, j => if 2 * 2 ^ j < digits then maxPow2LessExp digits fuel (j + 1) else j

/-- `integer_log2(t)` for an unsigned type with `digits` value bits;
detail/integer_log2.hpp:70-78. -/
def integerLog2 (digits t : Nat) : Nat :=
  integerLog2Impl (maxPow2LessExp digits digits 2) t 0

end Boost.Random
