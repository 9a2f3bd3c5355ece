import Verif.Model.Stream

/-!
# Congruential engines

Model of `include/boost/random/linear_congruential.hpp` and
`include/boost/random/inversive_congruential.hpp`. The engine state is the single value `_x`.
`none` means undefined behaviour (see `Model/ConstMod.lean`).
-/

namespace Boost.Random

/-- Template arguments of `linear_congruential_engine<IntType, a, c, m>`;
linear_congruential.hpp:60-76. -/
structure Lcg where
  T : IntTy
  a : Nat
  c : Nat
  m : Nat

namespace Lcg
variable (E : Lcg)

/-- `min()`; linear_congruential.hpp:171-172. -/
def min : Nat := if E.c = 0 then 1 else 0

/-- `max()`: `modulus - 1`; linear_congruential.hpp:177-178. For `m = 0` and an unsigned type this
wraps to the largest value (a signed type would give -1: outside the model, see `Lcg.Valid`). -/
def max : Nat := if E.m = 0 then E.T.maxv else E.m - 1

/-- `operator()`; linear_congruential.hpp:181-185. The new state is also the returned value. -/
def next (x : Nat) : Option Nat := ConstMod.multAdd E.T E.m E.a x E.c

/-- `seed(x0)`; linear_congruential.hpp:125-147. `x0` may be negative for signed types; `%` of
C++ truncates towards zero. -/
def seed (x0 : Int) : Int :=
  let x := if E.m = 0 then x0 else Int.tmod x0 E.m
  let x := if x < 0 then x + E.m else x
  if E.c = 0 ∧ x = 0 then 1 else x

/-- The binary loop of `discard`; linear_congruential.hpp:208-221. -/
def discardLoop (g azm1 akm1 exponent : Nat) : Option Nat :=
  if exponent = 0 then some azm1
  else do
    let azm1 ← if exponent % 2 = 1 then do
        let p ← ConstMod.mult E.T E.m azm1 akm1
        let s ← ConstMod.add E.T E.m azm1 akm1
        ConstMod.multAdd E.T E.m g p s
      else some azm1
    let p ← ConstMod.mult E.T E.m akm1 akm1
    let s ← ConstMod.add E.T E.m akm1 akm1
    let akm1 ← ConstMod.multAdd E.T E.m g p s
    discardLoop g azm1 akm1 (exponent / 2)
termination_by exponent
decreasing_by omega

/-- `discard(z)`; linear_congruential.hpp:193-228. Returns the new state. -/
def discard (z x : Nat) : Option Nat := do
  let b ← E.T.sub E.a 1
  let bInv ← ConstMod.invert E.T E.m b
  let g ← ConstMod.mult E.T E.m b bInv
  if g = 1 then do
    let az ← ConstMod.pow E.T E.m E.a z
    let t ← ConstMod.mult E.T E.m E.c bInv
    let az1 ← E.T.sub az 1
    let u ← ConstMod.mult E.T E.m t az1
    ConstMod.multAdd E.T E.m az x u
  else do
    let k ← E.T.div b g
    let azm1 ← E.discardLoop g 0 k z
    let az ← ConstMod.multAdd E.T E.m g azm1 1
    let num ← ConstMod.mult E.T E.m E.c azm1
    let k' ← E.T.div b g
    let bInv ← ConstMod.invert E.T E.m k'
    let u ← ConstMod.mult E.T E.m bInv num
    ConstMod.multAdd E.T E.m az x u

/-- `operator<<`; linear_congruential.hpp:239-245: one token. -/
def write (x : Nat) : List Tok := [Tok.num x]

/-- `operator>>` / `read`; linear_congruential.hpp:248-272. -/
def read (s : IStream) (x : Nat) : IStream × Nat :=
  match s.readInt E.T with
  | (some v, s') =>
    if (E.min : Int) ≤ v ∧ v ≤ E.max then (s', v.toNat) else ({ s' with ok := false }, x)
  | (none, s') => (s', x)

end Lcg

/-- `minstd_rand0`; linear_congruential.hpp:325. -/
def minstdRand0 : Lcg := ⟨⟨32, false⟩, 16807, 0, 2147483647⟩

/-- `minstd_rand`; linear_congruential.hpp:335. -/
def minstdRand : Lcg := ⟨⟨32, false⟩, 48271, 0, 2147483647⟩

/-- The engine inside `rand48`; linear_congruential.hpp:446-449. -/
def rand48Lcg : Lcg := ⟨⟨64, false⟩, 0xDEECE66D ||| (0x5 <<< 32), 0xB, 1 <<< 48⟩

namespace Rand48

/-- `cnv(x)`; linear_congruential.hpp:452-453. -/
def cnv (x : Nat) : Nat := (x <<< 16) ||| 0x330e

/-- `seed(x0)`; linear_congruential.hpp:390-391. -/
def seed (x0 : Nat) : Int := rand48Lcg.seed (cnv x0)

/-- `operator()`; linear_congruential.hpp:404: (value, new state). -/
def next (x : Nat) : Option (Nat × Nat) := do
  let x' ← rand48Lcg.next x
  some ((x' >>> 17) % 2 ^ 32, x')

/-- `discard(z)`; linear_congruential.hpp:407. -/
def discard (z x : Nat) : Option Nat := rand48Lcg.discard z x

end Rand48

/-- Template arguments of `inversive_congruential_engine<IntType, a, b, p>`;
inversive_congruential.hpp:65-75. -/
structure Icg where
  T : IntTy
  a : Nat
  b : Nat
  p : Nat

namespace Icg
variable (E : Icg)

/-- `min()`; inversive_congruential.hpp:77. -/
def min : Nat := if E.b = 0 then 1 else 0

/-- `max()`; inversive_congruential.hpp:78 (`p ≠ 0`). -/
def max : Nat := E.p - 1

/-- `operator()`; inversive_congruential.hpp:161-166. -/
def next (x : Nat) : Option Nat := do
  let i ← ConstMod.invert E.T E.p x
  ConstMod.multAdd E.T E.p E.a i E.b

/-- `seed(x0)`; inversive_congruential.hpp:123-141. -/
def seed (x0 : Int) : Int :=
  let x := if E.p = 0 then x0 else Int.tmod x0 E.p
  let x := if x < 0 then x + E.p else x
  if E.b = 0 ∧ x = 0 then 1 else x

/-- `discard(z)`; inversive_congruential.hpp:174-179: the plain loop. -/
def discard : (z x : Nat) → Option Nat
  | 0, x => some x
  | z + 1, x => do
    let x' ← E.next x
    discard z x'

end Icg

/-- `hellekalek1995`; inversive_congruential.hpp:255-256. -/
def hellekalek1995 : Icg := ⟨⟨32, false⟩, 9102, 2147483647 - 36884165, 2147483647⟩

end Boost.Random
