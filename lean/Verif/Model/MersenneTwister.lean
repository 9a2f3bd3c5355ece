import Verif.Model.LaggedFibonacci

/-!
# Mersenne Twister

Model of `include/boost/random/mersenne_twister.hpp`. Words are natural numbers; `UIntType` has `bits` bits
and shifts to the left drop what does not fit. `none` = access outside an array.
-/

namespace Boost.Random

/-- Template arguments of `mersenne_twister_engine`; mersenne_twister.hpp:67-72. `bits` is the width of
`UIntType`. -/
structure Mt.Params where
  bits : Nat
  w : Nat
  n : Nat
  m : Nat
  r : Nat
  a : Nat
  u : Nat
  d : Nat
  s : Nat
  b : Nat
  t : Nat
  c : Nat
  l : Nat
  f : Nat
  deriving DecidableEq, Repr

namespace Mt
variable (P : Params)

/-- `upper_mask = (~static_cast<UIntType>(0)) << r`; mersenne_twister.hpp:539. -/
def upperMask : Nat := ((2 ^ P.bits - 1) <<< P.r) % 2 ^ P.bits

/-- `lower_mask = ~upper_mask`; mersenne_twister.hpp:540. -/
def lowerMask : Nat := (2 ^ P.bits - 1) ^^^ upperMask P

/-- The new element `x2 ^ (y >> 1) ^ ((x1&1) * a)` with `y = (x0 & upper_mask) | (x1 & lower_mask)`;
mersenne_twister.hpp:549-550, 555-556, 561-562, 567-568, 572-573. -/
def word (x0 x1 x2 : Nat) : Nat :=
  let y := (x0 &&& upperMask P) ||| (x1 &&& lowerMask P)
  (x2 ^^^ (y >>> 1)) ^^^ ((x1 &&& 1) * P.a % 2 ^ P.bits)

/-- The body of the loops: the elements read are at `j`, `j1`, `j2`. -/
def body (j j1 j2 : Nat) (x : List Nat) : Option Nat :=
  x[j]?.bind fun x0 => x[j1]?.bind fun x1 => x[j2]?.map fun x2 => word P x0 x1 x2

/-- `twist()`: four loops and the last iteration; mersenne_twister.hpp:536-575. -/
def twist (x : List Nat) : Option (List Nat) :=
  let e1 := (P.n - P.m) % 6
  let e2 := (P.m - 1) % 6
  (sweep (fun j => body P j (j + 1) (j + P.m)) (P.n - P.m - e1) 0 x).bind fun x =>
  (sweep (fun j => body P j (j + 1) (j + P.m)) e1 (P.n - P.m - e1) x).bind fun x =>
  (sweep (fun j => body P j (j + 1) (j - (P.n - P.m))) (P.n - 1 - e2 - (P.n - P.m)) (P.n - P.m) x).bind fun x =>
  (sweep (fun j => body P j (j + 1) (j - (P.n - P.m))) e2 (P.n - 1 - e2) x).bind fun x =>
  (body P (P.n - 1) 0 (P.m - 1) x).map fun v => x.set (P.n - 1) v

/-- The tempering of the output; mersenne_twister.hpp:591-594. -/
def temper (z : Nat) : Nat :=
  let z := z ^^^ ((z >>> P.u) &&& P.d)
  let z := z ^^^ (((z <<< P.s) % 2 ^ P.bits) &&& P.b)
  let z := z ^^^ (((z <<< P.t) % 2 ^ P.bits) &&& P.c)
  z ^^^ (z >>> P.l)

/-- `operator()`; mersenne_twister.hpp:584-596. -/
def next (st : BlockEng Nat) : Option (Nat × BlockEng Nat) :=
  (if st.i = P.n then (twist P st.x).map fun x => (⟨x, 0⟩ : BlockEng Nat) else some st).bind fun st =>
    st.x[st.i]?.map fun z => (temper P z, ⟨st.x, st.i + 1⟩)

/-- `min()`, `max()`; mersenne_twister.hpp:181-186. -/
def minv : Nat := 0

/-- `max()`; mersenne_twister.hpp:183-184. -/
def maxv : Nat := 2 ^ P.w - 1

/-- `y0 & (1 << (w-1)) ? ((y0 ^ a) << 1) | 1 : y0 << 1`; mersenne_twister.hpp:318-322, 326-330, 351-355. -/
def untwist (y : Nat) : Nat :=
  if y &&& ((1 <<< (P.w - 1)) % 2 ^ P.bits) ≠ 0 then (((y ^^^ P.a) <<< 1) % 2 ^ P.bits) ||| 1
  else (y <<< 1) % 2 ^ P.bits

/-- `(y0 & upper_mask) | (y1 & lower_mask)`. -/
def mix (y0 y1 : Nat) : Nat := (y0 &&& upperMask P) ||| (y1 &&& lowerMask P)

/-- `normalize_state()`; mersenne_twister.hpp:346-363. -/
def normalize (x : List Nat) : Option (List Nat) :=
  x[P.m - 1]?.bind fun a => x[P.n - 1]?.bind fun b => x[0]?.map fun x0 =>
    let x := x.set 0 (mix P x0 (untwist P (a ^^^ b)))
    if x.any (· ≠ 0) then x else x.set 0 ((1 <<< (P.w - 1)) % 2 ^ P.bits)

/-- The loop of `seed(value)` from element `i`, `prev` being element `i - 1`; mersenne_twister.hpp:149-153.
The arithmetic is modulo `2^bits` (of at least 32, so that nothing is promoted to `int`). -/
def seedLoop : (k i prev : Nat) → List Nat
  | 0, _, _ => []
  | k + 1, i, prev =>
    let v := (P.f * (prev ^^^ (prev >>> (P.w - 2))) + i) % 2 ^ P.bits &&& maxv P
    v :: seedLoop k (i + 1) v

/-- `seed(value)`; mersenne_twister.hpp:141-156. -/
def seed (value : Nat) : Option (BlockEng Nat) :=
  let x0 := value &&& maxv P
  (normalize P (x0 :: seedLoop P (P.n - 1) 1 x0)).map fun x => ⟨x, P.n⟩

/-- `seed(seq)` and `seed(first, last)`, the array having been filled with `ws` by `seed_array_int` or
`fill_array_int`; mersenne_twister.hpp:161-178. -/
def seedWords (ws : List Nat) : Option (BlockEng Nat) := (normalize P ws).map fun x => ⟨x, P.n⟩

/-- `rewind_find`; mersenne_twister.hpp:370-379. `back` is the part of the rewind array already written, first
element first, so that `*(last - k)` is element `size - 1 - k`. -/
def rewindFind (x back : List Nat) (j : Nat) : Option Nat :=
  let size := back.length
  let index := (j + P.n - size + P.n - 1) % P.n
  if index < P.n - size then x[index]?
  else if P.n - 1 - index < size then back[size - 1 - (P.n - 1 - index)]? else none

/-- The loop of `rewind`; mersenne_twister.hpp:323-333. -/
def rewindLoop (x : List Nat) : (z y0 : Nat) → (back : List Nat) → Option (List Nat)
  | 0, _, back => some back
  | z + 1, y0, back =>
    (rewindFind P x back (P.m - 1)).bind fun a => (rewindFind P x back (P.n - 1)).bind fun b =>
      let y1 := untwist P (a ^^^ b)
      rewindLoop x z y1 (mix P y0 y1 :: back)

/-- `rewind(last, z)`: the `z` elements preceding `x[0]`; mersenne_twister.hpp:313-334. -/
def rewind (x : List Nat) (z : Nat) : Option (List Nat) :=
  x[P.m - 1]?.bind fun a => x[P.n - 1]?.bind fun b => rewindLoop P x z (untwist P (a ^^^ b)) []

/-- `equal_imp`; mersenne_twister.hpp:275-287. The comparisons that return early are modelled by a conjunction. -/
def equalImp (a b : BlockEng Nat) : Option Bool :=
  let offset := b.i - a.i
  (rewind P a.x offset).map fun back =>
    ((List.range (P.n - offset)).all fun j => a.x[j]? == b.x[j + offset]?) &&
      ((List.range offset).all fun j => back[j]? == b.x[j]?)

/-- `operator==`; mersenne_twister.hpp:248-253. -/
def eq (a b : BlockEng Nat) : Option Bool := if a.i < b.i then equalImp P a b else equalImp P b a

/-- `operator<<` and `print`; mersenne_twister.hpp:219-225, 294-307. -/
def write (st : BlockEng Nat) : Option (List Tok) :=
  (if st.i ≠ P.n then rewind P st.x (P.n - st.i) else some []).map fun back =>
    (back ++ st.x.take st.i).map fun v : Nat => Tok.num v

/-- `operator>>`; mersenne_twister.hpp:229-241. -/
def read (s : IStream) (st : BlockEng Nat) : IStream × BlockEng Nat :=
  let t := readList ⟨P.bits, false⟩ s (st.x.map fun v : Nat => (v : Int))
  (t.1, ⟨t.2.map Int.toNat, P.n⟩)

end Mt

/-- `mt11213b`; mersenne_twister.hpp:609-610. -/
def mt11213b : Mt.Params := ⟨32, 32, 351, 175, 19, 0xccab8ee7, 11, 0xffffffff, 7, 0x31b6ab00, 15, 0xffe50000, 17, 1812433253⟩

/-- `mt19937`; mersenne_twister.hpp:623-624. -/
def mt19937 : Mt.Params := ⟨32, 32, 624, 397, 31, 0x9908b0df, 11, 0xffffffff, 7, 0x9d2c5680, 15, 0xefc60000, 18, 1812433253⟩

/-- `mt19937_64`; mersenne_twister.hpp:627-630. -/
def mt19937_64 : Mt.Params := ⟨64, 64, 312, 156, 31, 0xb5026f5aa96619e9, 29, 0x5555555555555555, 17, 0x71d67fffeda60000,
  37, 0xfff7eee000000000, 43, 6364136223846793005⟩

end Boost.Random
