import Verif.Model.UniformInt

/-!
# `independent_bits_engine`

Model of `operator()` of `include/boost/random/independent_bits.hpp`. The rest of the class hands everything over to
the base engine. The base engine is seen as in the distributions: through its description and the list of its next
values. `base_unsigned` has `W = E.ty.bits >= 32` bits, the result type `D` bits, `std::size_t` is unbounded.
-/

namespace Boost.Random
namespace IndependentBits

/-- The variables set by `calc_params`. -/
structure Params where
  w0 : Nat
  n0 : Nat
  y0 : Nat
  y1 : Nat
  mask0 : Nat
  mask1 : Nat
  deriving DecidableEq, Repr

/-- `calc_params(n, range, ...)`; independent_bits.hpp:255-269. `none` = the assertion `w >= n` fails, in which case
(with assertions off) the shift by `w0 - 1` is undefined; or a division by zero. -/
def calcParams (W w n range : Nat) : Option Params :=
  if n = 0 ∨ w < n then none
  else
    let w0 := w / n
    let n0 := n - w % n
    let mask0 := ((2 <<< (w0 - 1)) % 2 ^ W + 2 ^ W - 1) % 2 ^ W
    let mask1 := ((mask0 <<< 1) % 2 ^ W) ||| 1
    let y0 := (range + 1) % 2 ^ W &&& ((2 ^ W - 1) ^^^ mask0)
    let y1 := (range + 1) % 2 ^ W &&& ((2 ^ W - 1) ^^^ mask1)
    some ⟨w0, n0, y0, y1, mask0, mask1⟩

/-- `m`: the number of bits of one base value; independent_bits.hpp:144-147. -/
def baseBits (W range : Nat) : Nat := if range = 2 ^ W - 1 then W else integerLog2 W ((range + 1) % 2 ^ W)

/-- The choice of `n` and of the parameters; independent_bits.hpp:144-156. -/
def choose (W w range : Nat) : Option (Nat × Params) :=
  let m := baseBits W range
  if m = 0 then none
  else
    let n := (w + m - 1) / m
    (calcParams W w n range).bind fun p =>
      if (range + 2 ^ W - p.y0 + 1) % 2 ^ W > p.y0 / n then (calcParams W w (n + 1) range).map fun p => (n + 1, p)
      else some (n, p)

/-- `do { u = ... } while(u > base_unsigned(y - 1)); u & mask`; independent_bits.hpp:166-169. -/
def pick (E : EngInfo) (y mask : Nat) : List Int → Draw Nat
  | [] => .more
  | x :: xs =>
    match E.diff x with
    | none => .ub
    | some u => if u > (y + 2 ^ E.ty.bits - 1) % 2 ^ E.ty.bits then pick E y mask xs else .done (u &&& mask) xs

/-- `k` rounds of `S = (S << sh) + (u & mask)`; independent_bits.hpp:174-187. The shift is undefined from `D` bits on. -/
def rounds (E : EngInfo) (D sh y mask : Nat) : (k S : Nat) → List Int → Draw Nat
  | 0, S, xs => .done S xs
  | k + 1, S, xs =>
    match pick E y mask xs with
    | .done u xs => if sh < D then rounds E D sh y mask k (((S <<< sh) % 2 ^ D + u) % 2 ^ D) xs else .ub
    | .more => .more
    | .ub => .ub

/-- `operator()`; independent_bits.hpp:137-189. -/
def next (E : EngInfo) (D w : Nat) (xs : List Int) : Draw Nat :=
  match E.brange with
  | none => .ub
  | some range =>
    match choose E.ty.bits w range with
    | none => .ub
    | some (n, p) =>
      if n = 1 then
        match pick E p.y0 p.mask0 xs with
        | .done u xs => .done (u % 2 ^ D) xs
        | r => r
      else
        match rounds E D p.w0 p.y0 p.mask0 p.n0 0 xs with
        | .done S xs => rounds E D (p.w0 + 1) p.y1 p.mask1 (n - p.n0) S xs
        | r => r

/-- `min()` and `max()`; independent_bits.hpp:52-57, 244-247. -/
def minv : Nat := 0

/-- `max()`; independent_bits.hpp:56-57, 244-247. -/
def maxv (w : Nat) : Nat := 2 ^ w - 1

end IndependentBits
end Boost.Random
