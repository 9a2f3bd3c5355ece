import Verif.Model.DrawBind
import Verif.Model.IntegerLog2
import Verif.Model.Discrete
import Mathlib.Data.Rat.Floor

/-!
# Distributions with floating-point results

Model of `include/boost/random/uniform_01.hpp`, `include/boost/random/uniform_real_distribution.hpp`,
`include/boost/random/generate_canonical.hpp`, `include/boost/random/bernoulli_distribution.hpp`,
`include/boost/random/detail/int_float_pair.hpp` (all for integral engines) and
`include/boost/random/piecewise_constant_distribution.hpp`.

A floating-point number is the rational it stands for. `fl` rounds a rational to the floating-point type: every conversion and every
operation is the exact one followed by `fl`. Exponents are not bounded; there are no infinities and no NaN.
-/

namespace Boost.Random
namespace RealDist

section
variable (fl : ℚ → ℚ) (E : EngInfo)

/-- `x - y` in the type `T`, not narrower than `int`: overflow of a signed type is undefined. -/
def subTy (T : IntTy) (x y : Int) : Option Int :=
  if T.signed then (if InSigned T.bits (x - y) then some (x - y) else none) else some ((x - y) % 2 ^ T.bits)

/-- `new_uniform_01::operator()`; uniform_01.hpp:91-102. -/
def uniform01 : List Int → Draw ℚ
  | [] => .more
  | x :: xs =>
    match subTy E.ty E.max E.min, subTy E.ty x E.min with
    | some r, some d =>
      let factor := fl (1 / fl (fl r + fl 1))
      let result := fl (fl d * factor)
      if result < 1 then .done result xs else uniform01 xs
    | _, _ => .ub

/-- `generate_uniform_real(eng, min_value, max_value, true_type)`; uniform_real_distribution.hpp:48-63. The case of lines 68-69, for
bounds so far apart that their difference is infinite, does not arise without bounds on the exponents. -/
def uniformReal (lo hi : ℚ) : List Int → Draw ℚ
  | [] => .more
  | x :: xs =>
    match E.brange, E.diff x with
    | some r, some d =>
      let result := fl (fl (fl (fl d / fl (fl r + fl 1)) * fl (hi - lo)) + lo)
      if result < hi then .done result xs else uniformReal lo hi xs
    | _, _ => .ub

/-- The loop of `generate_canonical_impl`; generate_canonical.hpp:42-47. Each round reads a value, so that the list ends the recursion. -/
def canonicalLoop (R limit : ℚ) : (xs : List Int) → (S mult : ℚ) → Draw ℚ
  | [], S, mult => if mult < limit then .more else .done (fl (S / mult)) []
  | x :: xs, S, mult =>
    if mult < limit then
      match E.diff x with
      | none => .ub
      | some d => canonicalLoop R limit xs (fl (S + fl (fl d * mult))) (fl (mult * R))
    else .done (fl (S / mult)) (x :: xs)

/-- `generate_canonical_impl<RealType, bits>(g)`; generate_canonical.hpp:30-48. `pow` is exact on powers of two. -/
def canonicalImpl (digits bits : Nat) : List Int → Draw ℚ
  | [] => .more
  | x :: xs =>
    match E.diff x with
    | none => .ub
    | some d =>
      let R := fl (fl (fl E.max - fl E.min) + 1)
      canonicalLoop fl E R (2 ^ Nat.min bits digits) xs (fl d) R

/-- `generate_canonical<RealType, bits>(g)`; generate_canonical.hpp:78-90, its assertions disabled. -/
def canonical (digits bits : Nat) (xs : List Int) : Draw ℚ :=
  (canonicalImpl fl E digits bits xs).bind fun result xs =>
    .done (if result = 1 then fl (result - 1 / 2 ^ (digits - 1) / 2) else result) xs

/-- `bernoulli_distribution::operator()`; bernoulli_distribution.hpp:138-144. -/
def bernoulli (p : ℚ) (xs : List Int) : Draw Bool :=
  if p = 0 then .done false xs
  else
    match xs with
    | [] => .more
    | x :: xs =>
      match subTy E.ty x E.min, subTy E.ty E.max E.min with
      | some d, some r => .done (decide (fl d ≤ fl (p * fl r))) xs
      | _, _ => .ub

/-! ## An integer and a fraction -/

/-- The mask of `bits` bits in the unsigned type of `wb` bits; int_float_pair.hpp:41, 93. -/
def digitMask (wb bits : Nat) : Nat := ((2 <<< (bits - 1)) % 2 ^ wb + 2 ^ wb - 1) % 2 ^ wb

/-- `generate_one_digit(eng, bits)`; int_float_pair.hpp:32-48. -/
def oneDigit (bits : Nat) : List Int → Draw Nat
  | [] => .more
  | x :: xs =>
    match E.brange, E.diff x with
    | some range, some u =>
      let y0 := ((range + 1) % 2 ^ E.ty.bits) &&& (2 ^ E.ty.bits - 1 - digitMask E.ty.bits bits)
      if y0 ≠ 0 ∧ u > y0 - 1 then oneDigit bits xs else .done (u &&& digitMask E.ty.bits bits) xs
    | _, _ => .ub

/-- `bucket << k` for an `int`. -/
def shlInt (bucket k : Nat) : Option Nat := if k < 32 ∧ bucket * 2 ^ k < 2 ^ 31 then some (bucket * 2 ^ k) else none

/-- `base_unsigned(1) << k`: narrower types are promoted to `int`. -/
def shl1 (wb k : Nat) : Option Nat := if k < (if wb < 32 then 31 else wb) then some (2 ^ k) else none

/-- The loop over the full digits of the integer; int_float_pair.hpp:66-69. -/
def bucketDigits (m : Nat) : (n bucket : Nat) → List Int → Draw Nat
  | 0, bucket, xs => .done bucket xs
  | n + 1, bucket, xs => (oneDigit E m xs).bind fun u xs =>
    match shlInt bucket m with
    | none => .ub
    | some b => bucketDigits m n (b ||| u) xs

/-- The loop over the full digits of the fraction; int_float_pair.hpp:84-88. It is entered at most `digits` times. -/
def fractionDigits (digits m : Nat) : (fuel i : Nat) → (r : ℚ) → List Int → Draw ℚ
  | 0, _, r, xs => .done r xs
  | f + 1, i, r, xs =>
    if i + m < digits then
      (oneDigit E m xs).bind fun u xs =>
        match shl1 E.ty.bits (m - 1) with
        | none => .ub
        | some s => fractionDigits digits m f (i + m) (fl (fl (r + fl u) * fl (fl (1 / 2) / fl s))) xs
    else .done r xs

/-- The last digit of the fraction; int_float_pair.hpp:89-96. -/
def lastDigit (digits w m : Nat) (r : ℚ) (xs : List Int) : Draw ℚ :=
  if m - w % m < digits then
    let remaining := (digits + w % m - m) % m
    (oneDigit E m xs).bind fun u xs =>
      if remaining = 0 then .ub
      else
        match shl1 E.ty.bits (remaining - 1) with
        | none => .ub
        | some s => .done (fl (fl (r + fl (u &&& digitMask E.ty.bits remaining : Nat)) * fl (fl (1 / 2) / fl s))) xs
  else .done r xs

/-- `generate_int_float_pair<RealType, w>(eng, true_type)` with a `RealType` of `digits` bits; int_float_pair.hpp:50-98. -/
def intFloatPair (digits w : Nat) (xs : List Int) : Draw (ℚ × Nat) :=
  match E.brange with
  | none => .ub
  | some range =>
    let m := if range = 2 ^ E.ty.bits - 1 then E.ty.bits else integerLog2 E.ty.bits (range + 1)
    if m = 0 then .ub
    else
      (bucketDigits E m (w / m) 0 xs).bind fun bucket xs =>
        (oneDigit E m xs).bind fun u xs =>
          match shl1 E.ty.bits (w % m), shlInt bucket (w % m), shl1 E.ty.bits (m - w % m) with
          | some s, some b, some t =>
            let bucket := b ||| ((s - 1) &&& u)
            let mult := fl (1 / fl t)
            let u := if m - w % m > digits ∧ u.testBit (m - digits) then u - 2 ^ (m - digits) else u
            let r := fl (fl (u >>> (w % m) : Nat) * mult)
            (fractionDigits fl E digits m digits (m - w % m) r xs).bind fun r xs =>
              (lastDigit fl E digits w m r xs).bind fun r xs => .done (r, bucket) xs
          | _, _, _ => .ub

end

/-! ## `piecewise_constant_distribution` -/

/-- `piecewise_constant_distribution::param_type`; piecewise_constant_distribution.hpp:213-217. -/
structure PcParam where
  intervals : List ℚ
  weights : List ℚ

/-- `param_type()`; piecewise_constant_distribution.hpp:53-58. -/
def PcParam.default : PcParam := ⟨[0, 1], [1]⟩

/-- `param_type(intervals_first, intervals_last, weight_first)`; piecewise_constant_distribution.hpp:70-86. `none`: the weights are read past
their end. -/
def PcParam.ofIters (intervals weights : List ℚ) : Option PcParam :=
  if intervals.length < 2 then some .default
  else if intervals.length - 1 ≤ weights.length then some ⟨intervals, weights.take (intervals.length - 1)⟩
  else none

/-- The midpoints of neighbouring boundaries; piecewise_constant_distribution.hpp:111-114, 298-301. -/
def midpoints : List ℚ → List ℚ
  | a :: b :: l => (a + b) / 2 :: midpoints (b :: l)
  | _ => []

/-- `param_type(il, f)`; piecewise_constant_distribution.hpp:100-116. -/
def PcParam.ofList (il : List ℚ) (f : ℚ → ℚ) : PcParam := if il.length < 2 then .default else ⟨il, (midpoints il).map f⟩

/-- `param_type(intervals_arg, weights_arg)`; piecewise_constant_distribution.hpp:127-139. -/
def PcParam.ofRanges (intervals weights : List ℚ) : PcParam :=
  if intervals.length < 2 then ⟨[0, 1], weights ++ [1]⟩ else ⟨intervals, weights⟩

/-- The boundaries and the points where the function is called, for `n` intervals; piecewise_constant_distribution.hpp:151-158, 343-349,
discrete_distribution.hpp:404-411. -/
def gridBounds (n : Nat) (xmin xmax : ℚ) : List ℚ := ((List.range n).map fun k : Nat => xmin + k * ((xmax - xmin) / n)) ++ [xmax]

/-- The points where the function is called; discrete_distribution.hpp:406-411. -/
def gridPoints (n : Nat) (xmin xmax : ℚ) : List ℚ := (List.range n).map fun k : Nat => xmin + k * ((xmax - xmin) / n) + (xmax - xmin) / n / 2

/-- `param_type(nw, xmin, xmax, f)`; piecewise_constant_distribution.hpp:148-159. -/
def PcParam.ofFunc (nw : Nat) (xmin xmax : ℚ) (f : ℚ → ℚ) : PcParam :=
  let n := if nw = 0 then 1 else nw
  ⟨gridBounds n xmin xmax, (gridPoints n xmin xmax).map f⟩

/-- `piecewise_constant_distribution` with real weights; piecewise_constant_distribution.hpp:459-460. -/
structure Pc where
  bins : List (ℚ × Nat)
  intervals : List ℚ

/-- `_bins.param(bins_param)` after `bins_param(weights)`, the bins being default constructed. -/
def binsParam (old : List (ℚ × Nat)) (weights : List ℚ) : Option (List (ℚ × Nat)) := Discrete.realInit old (Discrete.realNormalize weights)

/-- `piecewise_constant_distribution()`; piecewise_constant_distribution.hpp:224-228. -/
def Pc.default : Pc := ⟨[(1, 0)], [0, 1]⟩

/-- `piecewise_constant_distribution(first_interval, last_interval, first_weight)`; piecewise_constant_distribution.hpp:253-273. -/
def Pc.ofIters (intervals weights : List ℚ) : Option Pc :=
  if intervals.length < 2 then some .default
  else if intervals.length - 1 ≤ weights.length then
    (binsParam [(1, 0)] (weights.take (intervals.length - 1))).map fun b => ⟨b, intervals⟩
  else none

/-- `piecewise_constant_distribution(il, f)`; piecewise_constant_distribution.hpp:287-306. -/
def Pc.ofList (il : List ℚ) (f : ℚ → ℚ) : Option Pc :=
  if il.length < 2 then some .default else (binsParam [(1, 0)] ((midpoints il).map f)).map fun b => ⟨b, il⟩

/-- `piecewise_constant_distribution(intervals_arg, weights_arg)`; piecewise_constant_distribution.hpp:317-328. -/
def Pc.ofRanges (intervals weights : List ℚ) : Option Pc :=
  (Discrete.realInit [] weights).map fun b => ⟨b, if intervals.length < 2 then [0, 1] else intervals⟩

/-- `piecewise_constant_distribution(nw, xmin, xmax, f)`; piecewise_constant_distribution.hpp:336-350. -/
def Pc.ofFunc (nw : Nat) (xmin xmax : ℚ) (f : ℚ → ℚ) : Option Pc :=
  let n := if nw = 0 then 1 else nw
  (Discrete.realInit [] ((gridPoints n xmin xmax).map f)).map fun b => ⟨b, gridBounds n xmin xmax⟩

/-- `piecewise_constant_distribution(parm)`; piecewise_constant_distribution.hpp:354-358. -/
def Pc.ofParam (p : PcParam) : Option Pc := (Discrete.realInit [] p.weights).map fun b => ⟨b, p.intervals⟩

/-- `param(parm)`; piecewise_constant_distribution.hpp:409-416. -/
def Pc.setParam (d : Pc) (p : PcParam) : Option Pc := (binsParam d.bins p.weights).map fun b => ⟨b, p.intervals⟩

/-- `param()`; piecewise_constant_distribution.hpp:404-407. -/
def Pc.getParam (d : Pc) : Option PcParam := (Discrete.realProbabilities d.bins).map fun w => PcParam.ofRanges d.intervals w

/-- `operator()(urng)`; piecewise_constant_distribution.hpp:365-369, discrete_distribution.hpp:428-442. -/
def Pc.next (fl : ℚ → ℚ) (E : EngInfo) (d : Pc) (xs : List Int) : Draw ℚ :=
  (UniformInt.generate E ⟨64, false⟩ 0 ((d.bins.length : Int) - 1) xs).bind fun i xs =>
    (uniform01 fl E xs).bind fun t xs =>
      match Discrete.realPick d.bins i.toNat t with
      | none => .ub
      | some i =>
        match d.intervals[i]?, d.intervals[i + 1]? with
        | some a, some b => uniformReal fl E a b xs
        | _, _ => .ub

end RealDist
end Boost.Random
