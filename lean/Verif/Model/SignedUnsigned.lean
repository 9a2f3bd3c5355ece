/-!
# `subtract` and `add`

Model of `include/boost/random/detail/signed_unsigned_tools.hpp`. A value of a `w`-bit signed type
is an `Int`; every signed operation is checked and yields `none` when it would overflow. Conversion to
the unsigned type of the same width is reduction modulo `2^w`. Operands of a type narrower than `int`
(8 or 16 bits) are promoted: the operation is then done in `int`, and its result is converted where it is
cast or returned. For unsigned operands of such a type the sums and differences below do not overflow `int`,
so that converted they are the same as those computed modulo `2^w`.
-/

namespace Boost.Random

/-- `v` is representable in a `w`-bit signed (two's complement) type. -/
def InSigned (w : Nat) (v : Int) : Prop := -(2 : Int) ^ (w - 1) ≤ v ∧ v < (2 : Int) ^ (w - 1)

instance (w v) : Decidable (InSigned w v) := by unfold InSigned; infer_instance

/-- The result of a signed operation: undefined when not representable. -/
def signedResult (w : Nat) (v : Int) : Option Int := if InSigned w v then some v else none

/-- The result of a signed operation on operands of `w` bits: done in `int` when the type is narrower. -/
def signedArith (w : Nat) (v : Int) : Option Int := signedResult (if w ≤ 16 then 32 else w) v

/-- Conversion to the `w`-bit unsigned type. -/
def toUnsigned (w : Nat) (v : Int) : Nat := (v % 2 ^ w).toNat

/-- Conversion of an unsigned value to the `w`-bit signed type (two's complement, as all supported
compilers define it). -/
def toSigned (w : Nat) (v : Nat) : Int :=
  let r := v % 2 ^ w
  if r < 2 ^ (w - 1) then (r : Int) else (r : Int) - 2 ^ w

/-- Conversion to the `w`-bit signed type (two's complement). -/
def wrapSigned (w : Nat) (v : Int) : Int :=
  let r := v % 2 ^ w
  if r < 2 ^ (w - 1) then r else r - 2 ^ w

/-- `subtract<T, false>::operator()(x, y)` for an unsigned `w`-bit `T`;
signed_unsigned_tools.hpp:30-35. -/
def subtractUnsigned (w : Nat) (x y : Nat) : Nat := (x + 2 ^ w - y) % 2 ^ w

/-- `subtract<T, true>::operator()(x, y)` for a signed `w`-bit `T`;
signed_unsigned_tools.hpp:37-51. -/
def subtractSigned (w : Nat) (x y : Int) : Option Nat :=
  if 0 ≤ y then some ((toUnsigned w x + 2 ^ w - toUnsigned w y) % 2 ^ w)
  else if 0 ≤ x then do
    let y1 ← signedArith w (y + 1)
    let ny1 ← signedArith w (-y1)
    some ((toUnsigned w x + toUnsigned w ny1 + 1) % 2 ^ w)
  else do
    let d ← signedArith w (x - y)
    some (toUnsigned w d)

/-- `add<T1, T2, true>::operator()(x, y)` for an unsigned `w1`-bit `T1` and a signed `w2`-bit `T2`;
signed_unsigned_tools.hpp:67-82. -/
def addSigned (w1 w2 : Nat) (x : Nat) (y : Int) : Option Int :=
  if 0 ≤ y then (signedArith w2 (toSigned w2 x + y)).map (wrapSigned w2)
  else do
    let y1 ← signedArith w2 (y + 1)
    let ny1 ← signedArith w2 (-y1)
    if x > toUnsigned w1 ny1 then
      some (toSigned w2 ((x + 2 ^ w1 - toUnsigned w1 ny1 + 2 ^ w1 - 1) % 2 ^ w1))
    else (signedArith w2 (toSigned w2 x + y)).map (wrapSigned w2)

/-- `add<T1, T2, false>::operator()(x, y)` with `T2` unsigned of `w2` bits;
signed_unsigned_tools.hpp:60-65. -/
def addUnsigned (w2 : Nat) (x y : Nat) : Nat := (x % 2 ^ w2 + y) % 2 ^ w2

/-- `add<T1, T2, false>::operator()(x, y)` with `T2` signed and having more digits than `T1`;
signed_unsigned_tools.hpp:60-65. -/
def addWide (w2 : Nat) (x : Nat) (y : Int) : Option Int :=
  (signedArith w2 (toSigned w2 x + y)).map (wrapSigned w2)

end Boost.Random
