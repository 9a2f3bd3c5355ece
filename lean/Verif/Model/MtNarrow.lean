import Verif.Model.MersenneTwister

/-!
# Mersenne Twister on a type narrower than `int`

Model of `include/boost/random/mersenne_twister.hpp` for `UIntType` of at most 16 bits. The operands of every operator are
promoted to `int` (of 32 bits, two's complement), and only what is stored in a variable of type `UIntType` is converted
back. `none` = undefined behaviour: overflow of a product in `int`, a shift that the language version does not define,
access outside an array. `cpp20` says which version: from C++20 on a shift to the left is defined for every value.
Words are natural numbers; where an operator can only have non-negative operands below `2^16` its `int` value is a natural
number, too.
-/

namespace Boost.Random
namespace MtNarrow

/-- `v << k` on `int`: before C++20 undefined for a negative `v` and if the value does not fit in 32 bits. -/
def shl (cpp20 : Bool) (v : Int) (k : Nat) : Option Int :=
  if 32 ≤ k then none
  else if cpp20 = true ∨ (0 ≤ v ∧ v * 2 ^ k < 2 ^ 32) then some (Int.bmod (v * 2 ^ k) (2 ^ 32))
  else none

/-- Conversion of an `int` to `UIntType`. -/
def conv (bits : Nat) (v : Int) : Nat := (v % 2 ^ bits).toNat

variable (P : Mt.Params) (cpp20 : Bool)

/-- `upper_mask = (~static_cast<UIntType>(0)) << r` and `lower_mask = ~upper_mask`; mersenne_twister.hpp:315-316, 348-349,
507-508, 539-540. `~0` is the `int` -1. -/
def masks : Option (Nat × Nat) :=
  (shl cpp20 (-1) P.r).map fun u => (conv P.bits u, conv P.bits (-(conv P.bits u : Int) - 1))

/-- The new element; mersenne_twister.hpp:549-550 and the other loops. All values are non-negative and below `2^16`. -/
def word (up low x0 x1 x2 : Nat) : Nat :=
  let y := (x0 &&& up) ||| (x1 &&& low)
  (x2 ^^^ (y >>> 1)) ^^^ ((x1 &&& 1) * P.a)

/-- The body of the loops. -/
def body (up low j j1 j2 : Nat) (x : List Nat) : Option Nat :=
  x[j]?.bind fun x0 => x[j1]?.bind fun x1 => x[j2]?.map fun x2 => word P up low x0 x1 x2

/-- `twist()`; mersenne_twister.hpp:536-575. -/
def twist (x : List Nat) : Option (List Nat) :=
  let e1 := (P.n - P.m) % 6
  let e2 := (P.m - 1) % 6
  (masks P cpp20).bind fun (up, low) =>
  (sweep (fun j => body P up low j (j + 1) (j + P.m)) (P.n - P.m - e1) 0 x).bind fun x =>
  (sweep (fun j => body P up low j (j + 1) (j + P.m)) e1 (P.n - P.m - e1) x).bind fun x =>
  (sweep (fun j => body P up low j (j + 1) (j - (P.n - P.m))) (P.n - 1 - e2 - (P.n - P.m)) (P.n - P.m) x).bind fun x =>
  (sweep (fun j => body P up low j (j + 1) (j - (P.n - P.m))) e2 (P.n - 1 - e2) x).bind fun x =>
  (body P up low (P.n - 1) 0 (P.m - 1) x).map fun v => x.set (P.n - 1) v

/-- `z ^= ((z << k) & q)`; mersenne_twister.hpp:592-593. The shifted value is non-negative, `int` or not. -/
def temperLeft (k q z : Nat) : Option Nat :=
  (shl cpp20 z k).map fun v => z ^^^ (conv 32 v &&& q)

/-- The tempering; mersenne_twister.hpp:591-594. -/
def temper (z : Nat) : Option Nat :=
  (temperLeft cpp20 P.s P.b (z ^^^ ((z >>> P.u) &&& P.d))).bind fun z =>
  (temperLeft cpp20 P.t P.c z).map fun z => z ^^^ (z >>> P.l)

/-- `operator()`; mersenne_twister.hpp:584-596. -/
def next (st : BlockEng Nat) : Option (Nat × BlockEng Nat) :=
  (if st.i = P.n then (twist P cpp20 st.x).map fun x => (⟨x, 0⟩ : BlockEng Nat) else some st).bind fun st =>
    st.x[st.i]?.bind fun z => (temper P cpp20 z).map fun v => (v, ⟨st.x, st.i + 1⟩)

/-- `y0 & (1 << (w-1)) ? ((y0 ^ a) << 1) | 1 : y0 << 1`, stored in `y0`; mersenne_twister.hpp:317-322, 350-355. -/
def untwist (y : Nat) : Option Nat :=
  (shl cpp20 1 (P.w - 1)).bind fun bit =>
    if y &&& conv 32 bit ≠ 0 then
      (shl cpp20 ((y ^^^ P.a : Nat) : Int) 1).map fun v => conv P.bits ((conv 32 v ||| 1 : Nat) : Int)
    else (shl cpp20 y 1).map fun v => conv P.bits v

/-- `normalize_state()`; mersenne_twister.hpp:346-363. -/
def normalize (x : List Nat) : Option (List Nat) :=
  (masks P cpp20).bind fun (up, low) =>
  x[P.m - 1]?.bind fun a => x[P.n - 1]?.bind fun b => (untwist P cpp20 (a ^^^ b)).bind fun y => x[0]?.bind fun x0 =>
    let x := x.set 0 ((x0 &&& up) ||| (y &&& low))
    if x.any (· ≠ 0) then some x else (shl cpp20 1 (P.w - 1)).map fun v => x.set 0 (conv P.bits v)

/-- The loop of `seed(value)`; mersenne_twister.hpp:149-153. The product is computed in `int`; the sum with `i`, a
`std::size_t`, and the mask are not (a 64-bit `std::size_t`). -/
def seedLoop : (k i prev : Nat) → Option (List Nat)
  | 0, _, _ => some []
  | k + 1, i, prev =>
    let p := P.f * (prev ^^^ (prev >>> (P.w - 2)))
    if 2 ^ 31 ≤ p then none
    else
      let v := ((p + i) % 2 ^ 64 &&& Mt.maxv P) % 2 ^ P.bits
      (seedLoop k (i + 1) v).map fun vs => v :: vs

/-- `seed(value)`; mersenne_twister.hpp:141-156. -/
def seed (value : Nat) : Option (BlockEng Nat) :=
  let x0 := value &&& Mt.maxv P
  (seedLoop P (P.n - 1) 1 x0).bind fun vs => (normalize P cpp20 (x0 :: vs)).map fun x => ⟨x, P.n⟩

/-- `seed(seq)` and `seed(first, last)` after the array has been filled; mersenne_twister.hpp:161-178. -/
def seedWords (ws : List Nat) : Option (BlockEng Nat) := (normalize P cpp20 ws).map fun x => ⟨x, P.n⟩

end MtNarrow
end Boost.Random
