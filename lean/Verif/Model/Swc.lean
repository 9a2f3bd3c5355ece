import Verif.Model.Stream

/-!
# Subtract-with-carry engine

Model of `include/boost/random/subtract_with_carry.hpp` (the integer engine; the floating-point
`subtract_with_carry_01_engine` is modelled in `Model/Swc01.lean`).
`none` means an out-of-bounds access of the state array. `IntType` is an unsigned type of `bits`
bits (for signed types the same values result as long as `w < bits - 1`).
-/

namespace Boost.Random

/-- Template arguments of `subtract_with_carry_engine<IntType, w, s, r>`;
subtract_with_carry.hpp:108-125. -/
structure Swc where
  bits : Nat
  w : Nat
  s : Nat
  r : Nat

/-- Data members `x`, `carry`, `k`; subtract_with_carry.hpp:303-305. -/
structure SwcState where
  x : List Nat
  carry : Nat
  k : Nat
  deriving DecidableEq, Repr

namespace Swc
variable (E : Swc)

/-- `do_update(current, short_index, carry)`; subtract_with_carry.hpp:271-287: new table and carry. -/
def doUpdate (x : List Nat) (cur sh c : Nat) : Option (List Nat × Nat) := do
  let a ← x[cur]?
  let b ← x[sh]?
  let temp := (a + c) % 2 ^ E.bits
  if temp ≤ b then some (x.set cur (b - temp), 0)
  else some (x.set cur ((2 ^ E.w + 2 ^ E.bits - temp + b) % 2 ^ E.bits), 1)

/-- `operator()`; subtract_with_carry.hpp:199-212. -/
def next (st : SwcState) : Option (Nat × SwcState) := do
  let sh := if st.k < E.s then st.k + E.r - E.s else st.k - E.s
  let (x, carry) ← E.doUpdate st.x st.k sh st.carry
  let result ← x[st.k]?
  let k := st.k + 1
  some (result, ⟨x, carry, if k ≥ E.r then 0 else k⟩)

/-- A loop `for(j = a; j < a + n; ++j) carry = eng.do_update(j, sh(j), carry)`;
subtract_with_carry.hpp:60-62, 67-69, 77-82, 87-92. -/
def updLoop (sh : Nat → Nat) : (n a : Nat) → (x : List Nat) → (c : Nat) → Option (List Nat × Nat)
  | 0, _, x, c => some (x, c)
  | n + 1, a, x, c => do
    let (x, c) ← E.doUpdate x a (sh a) c
    updLoop sh n (a + 1) x c

/-- The loop over full blocks; subtract_with_carry.hpp:76-83. -/
def blockLoop : (n : Nat) → (x : List Nat) → (c : Nat) → Option (List Nat × Nat)
  | 0, x, c => some (x, c)
  | n + 1, x, c => do
    let (x, c) ← E.updLoop (fun j => j + E.r - E.s) E.s 0 x c
    let (x, c) ← E.updLoop (fun j => j - E.s) (E.r - E.s) E.s x c
    blockLoop n x c

/-- The first part of `discard(z)`, for `k != 0`: "increment k until it becomes 0";
subtract_with_carry.hpp:54-71. -/
def finishRound (z : Nat) (st : SwcState) : Option (List Nat × Nat) :=
  let k := st.k
  let low :=
    if k < E.s then
      let limit := if E.s - k < z then E.s else k + z
      E.updLoop (fun j => j + E.r - E.s) (limit - k) k st.x st.carry
    else some (st.x, st.carry)
  low.bind fun p =>
    let limit := if E.r - k < z then E.r else k + z
    let start := if k < E.s then E.s else k
    E.updLoop (fun j => j - E.s) (limit - start) start p.1 p.2

/-- The second part of `discard(z)`: full blocks and the last partial block;
subtract_with_carry.hpp:76-92. -/
def mainLoop (q k : Nat) (x : List Nat) (c : Nat) : Option (List Nat × Nat) :=
  (E.blockLoop q x c).bind fun p =>
    let limit := if E.s < k then E.s else k
    (E.updLoop (fun j => j + E.r - E.s) limit 0 p.1 p.2).bind fun p =>
      E.updLoop (fun j => j - E.s) (k - E.s) E.s p.1 p.2

/-- `discard(z)`, i.e. `subtract_with_carry_discard::apply`; subtract_with_carry.hpp:46-96. -/
def discard (z : Nat) (st : SwcState) : Option SwcState :=
  (if st.k ≠ 0 then E.finishRound z st else some (st.x, st.carry)).bind fun p =>
    let k := (z % E.r + st.k) % E.r
    (if k < z then E.mainLoop ((z - k) / E.r) k p.1 p.2 else some p).bind fun p =>
      some ⟨p.1, p.2, k⟩

/-- `seed(...)` once the table has been filled; subtract_with_carry.hpp:169-175, 183-189. -/
def ofTable (x : List Nat) : Option SwcState := do
  let last ← x[E.r - 1]?
  some ⟨x, if last = 0 then 1 else 0, 0⟩

/-- `compute(index)`; subtract_with_carry.hpp:264-267. -/
def compute (st : SwcState) (i : Nat) : Option Nat := st.x[(st.k + i) % E.r]?

/-- `operator==`; subtract_with_carry.hpp:247-253. -/
def eq (a b : SwcState) : Bool := (List.range E.r).all fun j => E.compute a j == E.compute b j

/-- `operator<<`; subtract_with_carry.hpp:225-231. -/
def write (st : SwcState) : List Tok :=
  (List.range E.r).map (fun j => Tok.num ((E.compute st j).getD 0)) ++ [Tok.num st.carry]

/-- The reading loop of `operator>>`; subtract_with_carry.hpp:236-237. After a failure the standard
library stores 0 into the element on which it failed; here it is left unchanged. -/
def readLoop : (n j : Nat) → (s : IStream) → (x : List Nat) → IStream × List Nat
  | 0, _, s, x => (s, x)
  | n + 1, j, s, x =>
    match s.readInt ⟨E.bits, false⟩ with
    | (some v, s') => readLoop n (j + 1) s' (x.set j v.toNat)
    | (none, s') => readLoop n (j + 1) s' x

/-- `operator>>`; subtract_with_carry.hpp:234-241. -/
def read (s : IStream) (st : SwcState) : IStream × SwcState :=
  let (s, x) := E.readLoop E.r 0 s st.x
  match s.readInt ⟨E.bits, false⟩ with
  | (some v, s') => (s', ⟨x, v.toNat, 0⟩)
  | (none, s') => (s', ⟨x, st.carry, 0⟩)

/-- `min()`, `max()`; subtract_with_carry.hpp:192-197. -/
def minv : Nat := 0

/-- `max()`; subtract_with_carry.hpp:195-196. -/
def maxv : Nat := 2 ^ E.w - 1

end Swc

/-- `ranlux24_base`/`ranlux_base`: `subtract_with_carry_engine<uint32_t, 24, 10, 24>`; ranlux.hpp:48, 77. -/
def ranluxBase : Swc := ⟨32, 24, 10, 24⟩

/-- `ranlux48_base`: `subtract_with_carry_engine<uint64_t, 48, 5, 12>`; ranlux.hpp:78. -/
def ranlux48Base : Swc := ⟨64, 48, 5, 12⟩

end Boost.Random
