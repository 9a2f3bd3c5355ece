import Verif.Model.RealDist
import Verif.Model.Ziggurat

/-!
# Distributions fed by an engine with floating-point results

Model of `include/boost/random/detail/uniform_int_float.hpp`, and of the parts of
`include/boost/random/uniform_int_distribution.hpp`, `include/boost/random/uniform_smallint.hpp`,
`include/boost/random/uniform_01.hpp`, `include/boost/random/uniform_real_distribution.hpp`,
`include/boost/random/generate_canonical.hpp`, `include/boost/random/bernoulli_distribution.hpp` and
`include/boost/random/detail/int_float_pair.hpp` that are selected when `Engine::result_type` is not integral.
Such engines are `lagged_fibonacci_01_engine`, `subtract_with_carry_01_engine` and `discard_block_engine` on them
(lagged_fibonacci.hpp, subtract_with_carry.hpp, ranlux.hpp); for all of them `min()` is 0 and `max()` is 1.

An engine is the list of the values its next calls return, rationals of `[0, 1)`. `flb` rounds to `Engine::result_type`, `fl` to
`RealType`. `eb` is `generator_bits<Engine>::value()`, the word size of the engine (lagged_fibonacci.hpp:462-475,
subtract_with_carry.hpp:595-606, discard_block.hpp:222-233). As in `Model/RealDist.lean` exponents are not bounded. `BOOST_ASSERT`s are disabled.
-/

namespace Boost.Random
namespace FloatEngine

/-- Conversion of the floating-point number `y` to the unsigned type of `W` bits: truncation; undefined if the truncated value is not
one of the type. -/
def toUnsigned (W : Nat) (y : ℚ) : Option Nat := if -1 < y ∧ y < 2 ^ W then some ⌊y⌋.toNat else none

/-! ## `uniform_int_float` -/

/-- `uniform_int_float::max()` with a `result_type` of `W ≥ 32` bits; uniform_int_float.hpp:49-56. -/
def maxInt (W eb : Nat) : Nat :=
  let digits := if eb < W then eb else W
  ((2 <<< (digits - 1)) % 2 ^ W + 2 ^ W - 1) % 2 ^ W

/-- `uniform_int_float::operator()` on the engine value `x`; uniform_int_float.hpp:60-64. -/
def next (flb : ℚ → ℚ) (W eb : Nat) (x : ℚ) : Option Nat :=
  let range := flb (flb (maxInt W eb) + 1)
  toUnsigned W (flb (x * range))

/-- `uniform_int_float` as an engine; uniform_int_float.hpp:37-56. -/
def info (W eb : Nat) : EngInfo := ⟨⟨W, false⟩, 0, maxInt W eb⟩

/-- The values of the wrapper until the first conversion that is undefined. -/
def convert (flb : ℚ → ℚ) (W eb : Nat) : List ℚ → List Int
  | [] => []
  | x :: xs =>
    match next flb W eb x with
    | none => []
    | some k => (k : Int) :: convert flb W eb xs

/-- `uniform_int_distribution<T>(mn, mx)(eng)`; uniform_int_distribution.hpp:234-241. The wrapper converts a value when it is asked for one,
so that an undefined conversion only matters if the values before it were not enough. -/
def uniformInt (flb : ℚ → ℚ) (W eb : Nat) (T : IntTy) (mn mx : Int) (xs : List ℚ) : Run (List ℚ) Int :=
  let ks := convert flb W eb xs
  match UniformInt.generate (info W eb) T mn mx ks with
  | .done v rest => .done v (xs.drop (ks.length - rest.length))
  | .more => if ks.length = xs.length then .more else .ub
  | .ub => .ub

/-! ## The other distributions -/

/-- `new_uniform_01::operator()`; uniform_01.hpp:91-102. -/
def uniform01 (fl flb : ℚ → ℚ) : List ℚ → Run (List ℚ) ℚ
  | [] => .more
  | x :: xs =>
    let factor := fl (1 / fl (fl (flb (1 - 0)) + fl 0))
    let result := fl (fl (flb (x - 0)) * factor)
    if result < 1 then .done result xs else uniform01 fl flb xs

/-- `uniform_smallint<T>(mn, mx)(eng)`; uniform_smallint.hpp:275-293. -/
def smallint (flb : ℚ → ℚ) (T : IntTy) (mn mx : Int) (xs : List ℚ) : Run (List ℚ) Int :=
  match subtractT T mx mn with
  | none => .ub
  | some range =>
    (uniform01 flb flb xs).bind fun val xs =>
      match toUnsigned T.bits (flb (val * flb (flb range + 1))) with
      | none => .ub
      | some offset =>
        if offset > range then .done mx xs
        else
          match addT T.bits T offset mn with
          | none => .ub
          | some r => .done r xs

/-- `generate_uniform_real(eng, min_value, max_value, false_type)`; uniform_real_distribution.hpp:32-46. As in `RealDist.uniformReal` the case
of lines 68-69 does not arise. -/
def uniformReal (fl flb : ℚ → ℚ) (lo hi : ℚ) : List ℚ → Run (List ℚ) ℚ
  | [] => .more
  | x :: xs =>
    let numerator := fl (flb (x - 0))
    let divisor := fl (flb (1 - 0))
    let result := fl (fl (fl (numerator / divisor) * fl (hi - lo)) + lo)
    if result < hi then .done result xs else uniformReal fl flb lo hi xs

/-- The loop of `generate_canonical_impl`; generate_canonical.hpp:64-69. Each round reads a value, so that the list ends the recursion. -/
def canonicalLoop (fl : ℚ → ℚ) (R limit : ℚ) : (xs : List ℚ) → (S mult : ℚ) → Run (List ℚ) ℚ
  | [], S, mult => if mult < limit then .more else .done (fl (S / mult)) []
  | x :: xs, S, mult =>
    if mult < limit then
      let inc : ℚ := ⌊fl (fl (fl x - fl 0) * R)⌋
      canonicalLoop fl R limit xs (fl (S + fl (inc * mult))) (fl (mult * R))
    else .done (fl (S / mult)) (x :: xs)

/-- `generate_canonical_impl<RealType, bits>(g, false_type)` with a `RealType` of `digits` bits; generate_canonical.hpp:50-70. `pow` is exact
on powers of two. -/
def canonicalImpl (fl flb : ℚ → ℚ) (digits bits eb : Nat) : List ℚ → Run (List ℚ) ℚ
  | [] => .more
  | x :: xs =>
    let b := Nat.min bits digits
    let R : ℚ := 2 ^ eb
    canonicalLoop fl R (2 ^ b) xs (fl (flb (x - 0))) R

/-- `generate_canonical<RealType, bits>(g)`; generate_canonical.hpp:78-90. -/
def canonical (fl flb : ℚ → ℚ) (digits bits eb : Nat) (xs : List ℚ) : Run (List ℚ) ℚ :=
  (canonicalImpl fl flb digits bits eb xs).bind fun result xs =>
    .done (if result = 1 then fl (result - 1 / 2 ^ (digits - 1) / 2) else result) xs

/-- `bernoulli_distribution::operator()`; bernoulli_distribution.hpp:138-144. -/
def bernoulli (fl flb : ℚ → ℚ) (p : ℚ) (xs : List ℚ) : Run (List ℚ) Bool :=
  if p = 0 then .done false xs
  else
    match xs with
    | [] => .more
    | x :: xs => .done (decide (fl (flb (x - 0)) ≤ fl (p * fl (flb (1 - 0))))) xs

/-- `generate_int_float_pair<RealType, w>(eng, false_type)`; int_float_pair.hpp:100-106. -/
def intFloatPair (fl flb : ℚ → ℚ) (W eb w : Nat) (xs : List ℚ) : Run (List ℚ) (ℚ × Int) :=
  match RealDist.shlInt 1 w with
  | none => .ub
  | some s =>
    (uniformInt flb W eb ⟨32, true⟩ 0 (s - 1) xs).bind fun bucket xs =>
      (uniform01 fl flb xs).bind fun r xs => .done (r, bucket) xs

end FloatEngine
end Boost.Random
