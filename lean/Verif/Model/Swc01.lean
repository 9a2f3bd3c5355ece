import Verif.Model.SeedEngines
import Verif.Model.Adaptors
import Mathlib.Algebra.Order.Ring.Rat
import Mathlib.Data.Rat.Floor

/-!
# Floating-point subtract-with-carry engine

Model of `subtract_with_carry_01_engine<RealType, w, s, r>` of `include/boost/random/subtract_with_carry.hpp`.
`none` means an out-of-bounds access of the state array. `fl` rounds to `RealType`; exponents are not bounded. `_modulus` is `2^w`, the value
of `pow(RealType(2), RealType(word_size))` (subtract_with_carry.hpp:380), which is exact.
-/

namespace Boost.Random

/-- Template arguments of `subtract_with_carry_01_engine<RealType, w, s, r>`, `RealType` having `digits` digits;
subtract_with_carry.hpp:337-346. -/
structure Swc01 where
  digits : Nat
  w : Nat
  s : Nat
  r : Nat

/-- Data members `x`, `carry`, `k`; subtract_with_carry.hpp:514-516. -/
structure Swc01State where
  x : List ℚ
  carry : ℚ
  k : Nat
  deriving DecidableEq, Repr

namespace Swc01
variable (E : Swc01) (fl : ℚ → ℚ)

/-- `do_update(current, short_index, carry)`; subtract_with_carry.hpp:501-512: new table and carry. -/
def doUpdate (x : List ℚ) (cur sh : Nat) (c : ℚ) : Option (List ℚ × ℚ) := do
  let a ← x[cur]?
  let b ← x[sh]?
  let delta := fl (fl (b - a) - c)
  if delta < 0 then some (x.set cur (fl (delta + 1)), fl (1 / 2 ^ E.w))
  else some (x.set cur delta, 0)

/-- `operator()`; subtract_with_carry.hpp:431-443. -/
def next (st : Swc01State) : Option (ℚ × Swc01State) := do
  let sh := if st.k < E.s then st.k + E.r - E.s else st.k - E.s
  let (x, carry) ← E.doUpdate fl st.x st.k sh st.carry
  let result ← x[st.k]?
  let k := st.k + 1
  some (result, ⟨x, carry, if k ≥ E.r then 0 else k⟩)

/-- A loop `for(j = a; j < a + n; ++j) carry = eng.do_update(j, sh(j), carry)`;
subtract_with_carry.hpp:60-62, 67-69, 77-82, 87-92. -/
def updLoop (sh : Nat → Nat) : (n a : Nat) → (x : List ℚ) → (c : ℚ) → Option (List ℚ × ℚ)
  | 0, _, x, c => some (x, c)
  | n + 1, a, x, c => do
    let (x, c) ← E.doUpdate fl x a (sh a) c
    updLoop sh n (a + 1) x c

/-- The loop over full blocks; subtract_with_carry.hpp:76-83. -/
def blockLoop : (n : Nat) → (x : List ℚ) → (c : ℚ) → Option (List ℚ × ℚ)
  | 0, x, c => some (x, c)
  | n + 1, x, c => do
    let (x, c) ← E.updLoop fl (fun j => j + E.r - E.s) E.s 0 x c
    let (x, c) ← E.updLoop fl (fun j => j - E.s) (E.r - E.s) E.s x c
    blockLoop n x c

/-- The first part of `discard(z)`, for `k != 0`; subtract_with_carry.hpp:54-71. -/
def finishRound (z : Nat) (st : Swc01State) : Option (List ℚ × ℚ) :=
  let k := st.k
  let low :=
    if k < E.s then
      let limit := if E.s - k < z then E.s else k + z
      E.updLoop fl (fun j => j + E.r - E.s) (limit - k) k st.x st.carry
    else some (st.x, st.carry)
  low.bind fun p =>
    let limit := if E.r - k < z then E.r else k + z
    let start := if k < E.s then E.s else k
    E.updLoop fl (fun j => j - E.s) (limit - start) start p.1 p.2

/-- The second part of `discard(z)`; subtract_with_carry.hpp:76-92. -/
def mainLoop (q k : Nat) (x : List ℚ) (c : ℚ) : Option (List ℚ × ℚ) :=
  (E.blockLoop fl q x c).bind fun p =>
    let limit := if E.s < k then E.s else k
    (E.updLoop fl (fun j => j + E.r - E.s) limit 0 p.1 p.2).bind fun p =>
      E.updLoop fl (fun j => j - E.s) (k - E.s) E.s p.1 p.2

/-- `discard(z)`, the same function template as for the integer engine; subtract_with_carry.hpp:46-96, 446-447. -/
def discard (z : Nat) (st : Swc01State) : Option Swc01State :=
  (if st.k ≠ 0 then E.finishRound fl z st else some (st.x, st.carry)).bind fun p =>
    let k := (z % E.r + st.k) % E.r
    (if k < z then E.mainLoop fl ((z - k) / E.r) k p.1 p.2 else some p).bind fun p =>
      some ⟨p.1, p.2, k⟩

/-- `seed(...)` once the table has been filled; subtract_with_carry.hpp:405-406, 419-420. -/
def ofTable (x : List ℚ) : Option Swc01State := do
  let last ← x[E.r - 1]?
  some ⟨x, if last ≠ 0 then 0 else fl (1 / 2 ^ E.w), 0⟩

/-- `seed(first, last)`; subtract_with_carry.hpp:415-421. -/
def seedRange (ws : List Nat) : SeedImpl.Got Swc01State :=
  match SeedImpl.fillArrayReal E.digits E.w E.r ws with
  | .ok xs rest => match E.ofTable fl xs with
    | some st => .ok st rest
    | none => .ub
  | .throws => .throws
  | .ub => .ub

/-- `compute(index)`; subtract_with_carry.hpp:494-497. -/
def compute (st : Swc01State) (i : Nat) : Option ℚ := st.x[(st.k + i) % E.r]?

/-- `operator==`; subtract_with_carry.hpp:481-487. -/
def eq (a b : Swc01State) : Bool := (List.range E.r).all fun j => E.compute a j == E.compute b j

/-- `operator<<`; subtract_with_carry.hpp:455-464. The products are written in fixed notation with a fraction of zeros when they are
integers; the token is the number before the point. -/
def write (st : Swc01State) : List Tok :=
  (List.range E.r).map (fun j => Tok.num (fl ((E.compute st j).getD 0 * 2 ^ E.w)).floor) ++ [Tok.num (fl (st.carry * 2 ^ E.w)).floor]

/-- `is >> value` for a real `value`, for tokens that are integers. -/
def readReal (s : IStream) : Option ℚ × IStream :=
  match s.ok, s.toks with
  | true, Tok.num v :: rest => (some (v : ℚ), ⟨rest, true⟩)
  | _, toks => (none, ⟨toks, false⟩)

/-- The reading loop of `operator>>`; subtract_with_carry.hpp:470-473. After a failure the element is left unchanged here (in the code an
unspecified value is stored). -/
def readLoop : (n j : Nat) → (s : IStream) → (x : List ℚ) → IStream × List ℚ
  | 0, _, s, x => (s, x)
  | n + 1, j, s, x =>
    match readReal s with
    | (some v, s') => readLoop n (j + 1) s' (x.set j (fl (fl v / 2 ^ E.w)))
    | (none, s') => readLoop n (j + 1) s' x

/-- `operator>>`; subtract_with_carry.hpp:467-478. -/
def read (s : IStream) (st : Swc01State) : IStream × Swc01State :=
  let (s, x) := E.readLoop fl E.r 0 s st.x
  match readReal s with
  | (some v, s') => (s', ⟨x, fl (fl v / 2 ^ E.w), 0⟩)
  | (none, s') => (s', ⟨x, st.carry, 0⟩)

/-- `min()`, `max()`; subtract_with_carry.hpp:423-428. -/
def minv : ℚ := 0

/-- `max()`; subtract_with_carry.hpp:427-428. -/
def maxv : ℚ := 1

end Swc01

/-- `ranlux_base_01`: `subtract_with_carry_01_engine<float, 24, 10, 24>`; ranlux.hpp:49. -/
def ranluxBase01 : Swc01 := ⟨24, 24, 10, 24⟩

/-- `ranlux64_base_01`: `subtract_with_carry_01_engine<double, 48, 10, 24>`; ranlux.hpp:50. -/
def ranlux64Base01 : Swc01 := ⟨53, 48, 10, 24⟩

/-- `ranlux64_base`: `subtract_with_carry_engine<uint64_t, 48, 10, 24>`; ranlux.hpp:69. -/
def ranlux64Base : Swc := ⟨64, 48, 10, 24⟩

/-- `subtract_with_carry_engine` as a base engine; subtract_with_carry.hpp:110-306. -/
def Swc.engine (E : Swc) : Engine SwcState := ⟨fun st => (E.next st).map fun p => ((p.1 : Int), p.2), E.write, E.read, E.eq⟩

/-- `subtract_with_carry_01_engine` as a base engine; subtract_with_carry.hpp:337-518. -/
def Swc01.engine (E : Swc01) (fl : ℚ → ℚ) : Engine Swc01State ℚ := ⟨E.next fl, E.write fl, E.read fl, E.eq⟩

/-- The engines on an integer base: base, `p`, `r` of `ranlux3`, `ranlux4`, `ranlux64_3`, `ranlux64_4`, `ranlux24`, `ranlux48`;
ranlux.hpp:54, 56, 71, 73, 80, 82. -/
def ranluxInt : List (Swc × Nat × Nat) :=
  [(ranluxBase, 223, 24), (ranluxBase, 389, 24), (ranlux64Base, 223, 24), (ranlux64Base, 389, 24), (ranluxBase, 223, 23), (ranlux48Base, 389, 11)]

/-- The engines on a floating-point base: `ranlux3_01`, `ranlux4_01`, `ranlux64_3_01`, `ranlux64_4_01`; ranlux.hpp:59, 61, 64, 66. -/
def ranlux01 : List (Swc01 × Nat × Nat) :=
  [(ranluxBase01, 223, 24), (ranluxBase01, 389, 24), (ranlux64Base01, 223, 24), (ranlux64Base01, 389, 24)]

end Boost.Random
