import Verif.Model.IntegerLog2

/-!
# `muldivmod`

Model of `include/boost/random/detail/large_arithmetic.hpp` for a 64-bit `uintmax_t` and 32-bit
digits. All wrap-around of the C++ unsigned types is explicit (`% 2^64`, `% 2^32`).
-/

namespace Boost.Random

/-- One inner product step `temp = a_[i]*b_[j] + carry + product[i+j]`;
large_arithmetic.hpp:54-57. Returns (new `product[i+j]`, new `carry`). -/
def mulDigit (ai bj carry prod : Nat) : Nat × Nat :=
  let temp := (ai * bj + carry + prod) % 2 ^ 64
  (temp % 2 ^ 32, temp / 2 ^ 32 % 2 ^ 32)

/-- The four digits of `a * b` (least significant first); large_arithmetic.hpp:45-62.
The two loops are unrolled; `product[i+2] += carry` is on a zero digit. -/
def mulDigits (a b : Nat) : Nat × Nat × Nat × Nat :=
  let a0 := a % 2 ^ 32
  let a1 := a / 2 ^ 32 % 2 ^ 32
  let b0 := b % 2 ^ 32
  let b1 := b / 2 ^ 32 % 2 ^ 32
  -- i = 0
  let (p0, c) := mulDigit a0 b0 0 0
  let (p1, c) := mulDigit a0 b1 c 0
  let p2 := c
  -- i = 1
  let (p1, c) := mulDigit a1 b0 0 p1
  let (p2, c) := mulDigit a1 b1 c p2
  let p3 := c
  (p0, p1, p2, p3)

/-- One division step (the loop body for index `i`); large_arithmetic.hpp:76-100.
`hi, mid, lo` are `product[i], product[i-1], product[i-2]`. Returns the quotient digit and the
new two-digit remainder `rem`. The `|` of disjoint bit ranges is written as `+`. -/
def divStep (m hi mid lo : Nat) : Nat × Nat :=
  let m0 := m % 2 ^ 32
  let m1 := m / 2 ^ 32
  let temp := hi * 2 ^ 32 + mid
  let q := if hi = m1 then 4294967295 else temp / m1 % 2 ^ 32
  let rem := ((temp + 2 ^ 64 - q * m1) % 2 ^ 64 * 2 ^ 32 + lo) % 2 ^ 64
  let diff := m0 * q
  let error := if diff > rem then (if diff - rem > m then 2 else 1) else 0
  ((q + 2 ^ 32 - error) % 2 ^ 32, (rem + error * m % 2 ^ 64 + 2 ^ 64 - diff) % 2 ^ 64)

/-- `muldivmod(a, b, m)`: (quotient, remainder); large_arithmetic.hpp:32-108. -/
def muldivmod (a b m : Nat) : Nat × Nat :=
  let shift := 63 - integerLog2 64 m
  let a := a * 2 ^ shift % 2 ^ 64
  let m := m * 2 ^ shift % 2 ^ 64
  let (p0, p1, p2, p3) := mulDigits a b
  if m = 0 then
    (p3 * 2 ^ 32 + p2, (p1 * 2 ^ 32 + p0) / 2 ^ shift)
  else
    let (q1, rem) := divStep m p3 p2 p1
    let (q0, rem) := divStep m (rem / 2 ^ 32) (rem % 2 ^ 32) p0
    (q1 * 2 ^ 32 + q0, rem / 2 ^ shift)

/-- `muldiv(a, b, m)`; large_arithmetic.hpp:110-111. -/
def muldiv (a b m : Nat) : Nat := (muldivmod a b m).1

/-- `mulmod(a, b, m)`; large_arithmetic.hpp:113-114. -/
def mulmod (a b m : Nat) : Nat := (muldivmod a b m).2

end Boost.Random
