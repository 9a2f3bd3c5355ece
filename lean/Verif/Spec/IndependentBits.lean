import Verif.Spec.UniformInt

/-!
# Specification of `independent_bits_engine`

The algorithm of the C++ standard, [rand.adapt.ibits], for a base engine of `R` values.
-/

namespace Boost.Random.Spec

/-- The parameters of the standard for a given `n`: the sequence of pairs of a bound `y` (the largest multiple of
`2^b` not above `R`) and a number `b` of bits, one for each base value used. -/
def ibStages (R w n : Nat) : List (Nat × Nat) :=
  List.replicate (n - w % n) (2 ^ (w / n) * (R / 2 ^ (w / n)), w / n) ++
    List.replicate (w % n) (2 ^ (w / n + 1) * (R / 2 ^ (w / n + 1)), w / n + 1)

/-- The number of base values used: `ceil(w / log2 R)`, or one more if too many would be rejected. -/
def ibCount (R w : Nat) : Nat :=
  let n := (w + Nat.log2 R - 1) / Nat.log2 R
  let y0 := 2 ^ (w / n) * (R / 2 ^ (w / n))
  if R - y0 ≤ y0 / n then n else n + 1

/-- For each pair: discard base values until one is below the bound; append its low bits to the result. -/
def ibRun (E : EngInfo) : List Int → List (Nat × Nat) → Nat → Draw Nat
  | xs, [], S => .done S xs
  | [], _ :: _, _ => .more
  | x :: xs, (y, b) :: ss, S =>
    let u := (x - E.min).toNat
    if u < y then ibRun E xs ss (2 ^ b * S + u % 2 ^ b) else ibRun E xs ((y, b) :: ss) S

end Boost.Random.Spec
