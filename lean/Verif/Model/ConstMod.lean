import Verif.Model.LargeArithmetic

/-!
# `const_mod<IntType, m>`

Model of `include/boost/random/detail/const_mod.hpp`. `IntType` is described by its width and
signedness. All values the engines pass are non-negative, so values are `Nat`; the operators
below return `none` when the C++ operation on a *signed* type would overflow (undefined behaviour)
or produce a negative number (outside the model), and wrap for unsigned types.
Operands of a type narrower than `int` (8 or 16 bits) are promoted: the operation is done in `int`, its overflow
is undefined behaviour whatever the signedness of `IntType`, and only the value stored in a variable or
returned is converted back (`IntTy.arith`, `ConstMod.masked`).
`BOOST_ASSERT`s are not modelled (they do not change the result).
-/

namespace Boost.Random

/-- A built-in integer type: `bits` is its width, `signed` its signedness. -/
structure IntTy where
  bits : Nat
  signed : Bool
  deriving DecidableEq, Repr

namespace IntTy

/-- `std::numeric_limits<T>::max()`. -/
def maxv (T : IntTy) : Nat := if T.signed then 2 ^ (T.bits - 1) - 1 else 2 ^ T.bits - 1

/-- Store a mathematical result in `T`: unsigned types wrap, signed overflow is undefined. -/
def fit (T : IntTy) (v : Nat) : Option Nat :=
  if T.signed then (if v ≤ T.maxv then some v else none) else some (v % 2 ^ T.bits)

/-- The value `v` of a sum or product of operands of type `T`, before it is stored: in `T` itself, or in
`int` when `T` is narrower than `int` (integral promotion). -/
def arith (T : IntTy) (v : Nat) : Option Nat :=
  if T.bits ≤ 16 then (if v < 2 ^ 31 then some v else none) else T.fit v

/-- `x + y`, stored in `T`. -/
def add (T : IntTy) (x y : Nat) : Option Nat := (T.arith (x + y)).bind T.fit

/-- `x * y`, stored in `T`. -/
def mul (T : IntTy) (x y : Nat) : Option Nat := (T.arith (x * y)).bind T.fit

/-- `x - y`, stored in `T` (a negative result of a signed subtraction is outside the model). In `int` a
difference of two values of a narrower type does not overflow, and converted to an unsigned type it is
the same as the difference computed there. -/
def sub (T : IntTy) (x y : Nat) : Option Nat :=
  if T.signed then (if y ≤ x then some (x - y) else none)
  else some ((x + 2 ^ T.bits - y) % 2 ^ T.bits)

/-- `x / y` in `T`; division by zero is undefined. -/
def div (_T : IntTy) (x y : Nat) : Option Nat := if y = 0 then none else some (x / y)

/-- `x % y` in `T`; division by zero is undefined. -/
def mod (_T : IntTy) (x y : Nat) : Option Nat := if y = 0 then none else some (x % y)

end IntTy

namespace ConstMod

variable (T : IntTy) (m : Nat)

/-- `unsigned_m()`; const_mod.hpp:149-156. The value lives in the unsigned type of the same width. -/
def unsignedM : Nat := if m = 0 then (T.maxv + 1) % 2 ^ T.bits else m

/-- `unsigned_m() - 1` with unsigned wrap-around. -/
def maskM : Nat := (unsignedM T m + 2 ^ T.bits - 1) % 2 ^ T.bits

/-- The test `((unsigned_m() - 1) & unsigned_m()) == 0`, const_mod.hpp:36, 47, 59, 75. -/
def isMask : Bool := (maskM T m) &&& (unsignedM T m) == 0

/-- `v & (unsigned_m() - 1)` for the sum or product `v` of values of `unsigned_type`, converted to
`IntType`; const_mod.hpp:48, 60, 76. `unsigned_type` wraps, unless it is narrower than `int`: then `v` is
computed in `int`, where an overflow is undefined. (The mask is then computed in `int` too: `-1` instead of
the largest value when `unsigned_m()` is 0, with the same result after the conversion.) -/
def masked (v : Nat) : Option Nat :=
  if T.bits ≤ 16 ∧ 2 ^ 31 ≤ v then none else some (v % 2 ^ T.bits &&& maskM T m)

/-- `apply(x)`; const_mod.hpp:34-43. -/
def apply (x : Nat) : Option Nat :=
  if isMask T m then some (x &&& maskM T m) else T.mod x m

/-- `add(x, c)`; const_mod.hpp:45-55. -/
def add (x c : Nat) : Option Nat :=
  if isMask T m then masked T m (x + c)
  else if c = 0 then some x
  else do
    let mc ← T.sub m c
    if x < mc then T.add x c else T.sub x mc

/-- `sub(a, b)`; const_mod.hpp:141-147. -/
def sub (a b : Nat) : Option Nat :=
  if a < b then do
    let d ← T.sub b a
    T.sub m d
  else T.sub a b

/-- `mult_small(a, x)`; const_mod.hpp:109-114. -/
def multSmall (a x : Nat) : Option Nat := do
  let p ← T.arith (a * x)
  T.mod p m

/-- `mult_schrage(a, value)`; const_mod.hpp:116-124. -/
def multSchrage (a value : Nat) : Option Nat := do
  let q ← T.div m a
  let r ← T.mod m a
  let vm ← T.mod value q
  let vd ← T.div value q
  let s ← T.mul a vm
  let t ← T.mul r vd
  sub T m s t

/-- `mult_general(a, b)`; const_mod.hpp:126-139 (64-bit `uintmax_t`). The final
`static_cast<IntType>` is of a value below `m`, hence the identity. -/
def multGeneral (a b : Nat) : Option Nat :=
  if m = 0 then none
  else if m ≤ (2 ^ 64 - 1) / m then some ((a * b) % 2 ^ 64 % m)
  else some (mulmod a b m)

/-- `mult(a, x)`; const_mod.hpp:57-71. -/
def mult (a x : Nat) : Option Nat :=
  if isMask T m then masked T m (a * x)
  else if a = 0 then some 0
  else if a = 1 then some x
  else if m ≤ T.maxv / a then multSmall T m a x
  else if T.signed ∧ m % a < m / a then multSchrage T m a x
  else multGeneral m a x

/-- `mult_add(a, x, c)`; const_mod.hpp:73-85. -/
def multAdd (a x c : Nat) : Option Nat :=
  if isMask T m then masked T m (a * x + c)
  else if a = 0 then some c
  else if m ≤ (T.maxv - c) / a then do
    let p ← T.arith (a * x)
    let s ← T.arith (p + c)
    T.mod s m
  else do
    let p ← mult T m a x
    add T m p c

/-- The loop of `pow`; const_mod.hpp:90-96. -/
def powLoop (result a exponent : Nat) : Option Nat :=
  if exponent = 0 then some result
  else do
    let result ← if exponent % 2 = 1 then mult T m result a else some result
    let a ← mult T m a a
    powLoop result a (exponent / 2)
termination_by exponent
decreasing_by omega

/-- `pow(a, exponent)`; const_mod.hpp:87-98. -/
def pow (a exponent : Nat) : Option Nat := powLoop T m 1 a exponent

/-- The loop of `invert_euclidian` (const_mod.hpp:167-178). `n` and `p` are the remainders,
`l1` and `l2` the cofactors. Termination is by the first argument (`n` decreases at each turn); the
arithmetic is that of `IntType` (`none` on overflow or division by zero). The same loop, entered
after its first half, is the loop of `invert_euclidian0` (lines 196-207). For types narrower than `int`
the products `q * l2` are stored here before they are added, which changes a result that is stored itself
only by a multiple of `2^bits`, that is, not at all. -/
def euclidLoop : (fuel l1 l2 n p : Nat) → Option Nat
  | 0, _, _, _, _ => none
  | fuel + 1, l1, l2, n, p => do
    let q ← T.div p n
    let t ← T.mul q l2
    let l1 ← T.add l1 t
    let u ← T.mul q n
    let p ← T.sub p u
    if p = 0 then some l2
    else do
      let q2 ← T.div n p
      let t ← T.mul q2 l1
      let l2 ← T.add l2 t
      let u ← T.mul q2 p
      let n ← T.sub n u
      if n = 0 then T.sub m l1
      else euclidLoop fuel l1 l2 n p

/-- `invert_euclidian(c)`; const_mod.hpp:159-179. `c + 1` iterations always suffice
(`euclidLoop_spec`), so `none` means undefined behaviour only. -/
def invertEuclidian (c : Nat) : Option Nat := euclidLoop T m (c + 1) 0 1 c m

/-- `invert_euclidian0(c)`; const_mod.hpp:182-208, for `m = 0`. The first half-iteration
(lines 191-195) uses `max` to divide `max + 1` by `c`; the rest of the loop (lines 196-207) does the
`n`-half first. -/
def invertEuclidian0 (c : Nat) : Option Nat :=
  if c = 1 then some 1
  else do
    let q ← T.div T.maxv c
    let t ← T.mul q 1
    let l1 ← T.add 0 t
    let u ← T.mul q c
    let d ← T.sub T.maxv u
    let p ← T.add d 1
    if p = 0 then some 1
    else do
      let q2 ← T.div c p
      let t ← T.mul q2 l1
      let l2 ← T.add 1 t
      let u ← T.mul q2 p
      let n ← T.sub c u
      if n = 0 then T.sub m l1
      else euclidLoop T m (c + 1) l1 l2 n p

/-- `invert(x)`; const_mod.hpp:100-101. -/
def invert (x : Nat) : Option Nat :=
  if x = 0 then some 0
  else if m = 0 then invertEuclidian0 T m x
  else invertEuclidian T m x

end ConstMod
end Boost.Random
