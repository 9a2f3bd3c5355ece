import Verif.Model.Engine
import Verif.Model.UniformInt
import Verif.Model.Lcg

/-!
# Adaptor engines

Models of `shuffle_order.hpp`, `discard_block.hpp`, `xor_combine.hpp`, `additive_combine.hpp`
(under `include/boost/random/`), over an arbitrary base engine.
`std::size_t` and `uintmax_t` have 64 bits. Result types narrower than `int` are not modelled.
-/

namespace Boost.Random
variable {σ τ : Type}

/-! ## `shuffle_order_engine` -/

/-- The table index `j`; shuffle_order.hpp:139-155. `wb` is the width of the base's result type. -/
def shuffleIndex (wb k brange off : Nat) : Option Nat :=
  if k = 1 then some 0
  else if brange < (2 ^ wb - 1) / k then
    let d := (brange + 1) % 2 ^ wb
    if d = 0 then none else some (k * off % 2 ^ 64 / d % 2 ^ wb)
  else if brange < (2 ^ 64 - 1) / k then
    let d := (brange + 1) % 2 ^ 64
    if d = 0 then none else some (off * k % 2 ^ 64 / d % 2 ^ wb)
  else
    let divisor := (brange + 1) % 2 ^ 64
    some (muldiv off k divisor % 2 ^ wb)

/-- Data members `_rng`, `v`, `y`; shuffle_order.hpp:222-224. -/
structure ShuffleState (σ : Type) where
  rng : σ
  v : List Int
  y : Int
  deriving DecidableEq

namespace ShuffleOrder
variable (E : EngInfo) (k : Nat) (B : Engine σ)

/-- `operator()`; shuffle_order.hpp:130-160. An index outside the table is undefined. -/
def next (st : ShuffleState σ) : Option (Int × ShuffleState σ) := do
  let brange ← E.brange
  let off ← E.diff st.y
  let j ← shuffleIndex E.ty.bits k brange off
  let y ← st.v[j]?
  let (u, rng) ← B.next st.rng
  some (y, ⟨rng, st.v.set j u, y⟩)

/-- The loop of `init`; shuffle_order.hpp:215-216. -/
def fill : (n : Nat) → σ → Option (List Int × σ)
  | 0, s => some ([], s)
  | n + 1, s => (B.next s).bind fun p => (fill n p.2).map fun q => (p.1 :: q.1, q.2)

/-- `init()` after the base has been seeded; shuffle_order.hpp:212-218. -/
def init (rng : σ) : Option (ShuffleState σ) := do
  let (v, rng) ← fill B k rng
  let (y, rng) ← B.next rng
  some ⟨rng, v, y⟩

/-- `operator<<`; shuffle_order.hpp:183-190. -/
def write (st : ShuffleState σ) : List Tok := B.write st.rng ++ (st.v.map Tok.num ++ [Tok.num st.y])

/-- `operator>>`; shuffle_order.hpp:193-200. -/
def read (s : IStream) (st : ShuffleState σ) : IStream × ShuffleState σ :=
  let p := B.read s st.rng
  let q := readList E.ty p.1 st.v
  let r := readInto E.ty q.1 st.y
  (r.1, ⟨p.2, q.2, r.2⟩)

/-- `operator==`; shuffle_order.hpp:203-204. -/
def eq (a b : ShuffleState σ) : Bool := B.eq a.rng b.rng && a.y == b.y && a.v == b.v

/-- `discard(z)`; shuffle_order.hpp:163-168. -/
def discard (z : Nat) (st : ShuffleState σ) : Option (ShuffleState σ) :=
  match z with
  | 0 => some st
  | z + 1 => (next E k B st).bind fun p => discard z p.2

/-- `shuffle_order_engine<Base, k>`. -/
def engine : Engine (ShuffleState σ) := ⟨next E k B, write B, read E B, eq B⟩

end ShuffleOrder

/-! ## `discard_block_engine` -/

/-- Data members `_rng`, `_n`; discard_block.hpp:179-180. -/
structure BlockState (σ : Type) where
  rng : σ
  n : Nat
  deriving DecidableEq

namespace DiscardBlock
variable {β : Type} (p r : Nat) (B : Engine σ β)

/-- `operator()`; discard_block.hpp:108-122. -/
def next (st : BlockState σ) : Option (β × BlockState σ) := do
  let (rng, n) ← if st.n ≥ r then (B.skip ((p + 2 ^ 64 - st.n) % 2 ^ 64) st.rng).map fun s => (s, 0)
    else some (st.rng, st.n)
  let (v, rng) ← B.next rng
  some (v, ⟨rng, (n + 1) % 2 ^ 64⟩)

/-- `operator<<`; discard_block.hpp:150-157. -/
def write (st : BlockState σ) : List Tok := B.write st.rng ++ [Tok.num st.n]

/-- `operator>>`; discard_block.hpp:160-166. -/
def read (s : IStream) (st : BlockState σ) : IStream × BlockState σ :=
  let q := B.read s st.rng
  let u := readInto ⟨64, false⟩ q.1 st.n
  (u.1, ⟨q.2, u.2.toNat⟩)

/-- `operator==`; discard_block.hpp:170-172. -/
def eq (a b : BlockState σ) : Bool := B.eq a.rng b.rng && a.n == b.n

/-- `discard(z)`; discard_block.hpp:124-129. -/
def discard (z : Nat) (st : BlockState σ) : Option (BlockState σ) :=
  match z with
  | 0 => some st
  | z + 1 => (next p r B st).bind fun q => discard z q.2

/-- `discard_block_engine<Base, p, r>`. -/
def engine : Engine (BlockState σ) β := ⟨next p r B, write B, read B, eq B⟩

end DiscardBlock

/-! ## `xor_combine_engine` -/

namespace XorCombine
variable (w1 s1 w2 s2 : Nat) (B1 : Engine σ) (B2 : Engine τ)

/-- The value `(_rng1() << s1) ^ (_rng2() << s2)` for base outputs `a` and `b` of unsigned types of
`w1` and `w2` bits, converted to the result type (that of the first base); xor_combine.hpp:120-123.
A shift by the width or more is undefined. -/
def value (a b : Nat) : Option Nat :=
  if s1 < w1 ∧ s2 < w2 then some (((a <<< s1) % 2 ^ w1 ^^^ (b <<< s2) % 2 ^ w2) % 2 ^ w1) else none

/-- `operator()`; xor_combine.hpp:120-123. -/
def next (st : σ × τ) : Option (Int × (σ × τ)) := do
  let (a, r1) ← B1.next st.1
  let (b, r2) ← B2.next st.2
  let v ← value w1 s1 w2 s2 a.toNat b.toNat
  some ((v : Int), (r1, r2))

/-- `discard(z)`, given the `discard` members of the two bases; xor_combine.hpp:130-134. -/
def discard (d1 : Nat → σ → Option σ) (d2 : Nat → τ → Option τ) (z : Nat) (st : σ × τ) :
    Option (σ × τ) := do
  let r1 ← d1 z st.1
  let r2 ← d2 z st.2
  some (r1, r2)

/-- `min()`; xor_combine.hpp:138-139, from the minima of the bases (a value of the second base's
type is converted to that of the first). -/
def min (min1 min2 : Nat) : Nat := if min1 < min2 then min1 else min2 % 2 ^ w1

/-- `max()`; xor_combine.hpp:141-142. -/
def max (max1 max2 : Nat) : Nat := if max1 > max2 then max1 else max2 % 2 ^ w1

/-- `max()` of the deprecated `xor_combine` template; xor_combine.hpp:204. -/
def maxOld (min1 max2 : Nat) : Nat := if min1 < max2 then max2 else min1

/-- `operator<<`; xor_combine.hpp:147-151. -/
def write (st : σ × τ) : List Tok := B1.write st.1 ++ B2.write st.2

/-- `operator>>`; xor_combine.hpp:156-160. -/
def read (s : IStream) (st : σ × τ) : IStream × (σ × τ) :=
  let p := B1.read s st.1
  let q := B2.read p.1 st.2
  (q.1, (p.2, q.2))

/-- `operator==`; xor_combine.hpp:163-164. -/
def eq (a b : σ × τ) : Bool := B1.eq a.1 b.1 && B2.eq a.2 b.2

/-- `xor_combine_engine<B1, s1, B2, s2>`. -/
def engine : Engine (σ × τ) := ⟨next w1 s1 w2 s2 B1 B2, write B1 B2, read B1 B2, eq B1 B2⟩

end XorCombine

/-! ## `additive_combine_engine` -/

/-- A linear congruential engine as a base engine. -/
def Lcg.engine (E : Lcg) : Engine Nat where
  next x := (E.next x).map fun y : Nat => ((y : Int), y)
  write x := Lcg.write x
  read s x := E.read s x
  eq a b := a == b

namespace AdditiveCombine

/-- The value computed from base outputs; additive_combine.hpp:187-190, in the result type `T` (that
of the first base, assumed wide enough for the second base's values). A negative result of a signed
type is not represented and shows as `none`. For a type that is promoted to `int` nothing overflows, and the
conversion of the final value to the type is the reduction made here. -/
def value (T : IntTy) (m1 : Nat) (val1 val2 : Nat) : Option Nat :=
  if val2 < val1 then T.sub val1 val2
  else if T.signed then
    -- `val1 - val2` is a non-positive number of the type: no overflow; then `+ m1` and `- 1`
    let v : Int := (val1 : Int) - val2 + m1
    if v ≤ T.maxv ∧ 1 ≤ v then some (v - 1).toNat else none
  else some ((val1 + 2 ^ T.bits - val2 + m1 + 2 ^ T.bits - 1) % 2 ^ T.bits)

variable (E1 E2 : Lcg)

/-- `operator()`; additive_combine.hpp:186-191. -/
def next (st : Nat × Nat) : Option (Int × (Nat × Nat)) := do
  let x1 ← E1.next st.1
  let x2 ← E2.next st.2
  let v ← value E1.T E1.m x1 x2
  some ((v : Int), (x1, x2))

/-- `min()`, `max()`; additive_combine.hpp:62-68. -/
def min : Nat := 1

/-- `max()`; additive_combine.hpp:67-68. -/
def max : Nat := E1.m - 1

/-- `discard(z)`; additive_combine.hpp:199-203. -/
def discard (z : Nat) (st : Nat × Nat) : Option (Nat × Nat) := do
  let x1 ← E1.discard z st.1
  let x2 ← E2.discard z st.2
  some (x1, x2)

/-- `operator<<`; additive_combine.hpp:212-213. -/
def write (st : Nat × Nat) : List Tok := Lcg.write st.1 ++ Lcg.write st.2

/-- `operator>>`; additive_combine.hpp:219-220. -/
def read (s : IStream) (st : Nat × Nat) : IStream × (Nat × Nat) :=
  let p := E1.read s st.1
  let q := E2.read p.1 st.2
  (q.1, (p.2, q.2))

/-- `operator==`; additive_combine.hpp:226-227. -/
def eq (a b : Nat × Nat) : Bool := a.1 == b.1 && a.2 == b.2

/-- `additive_combine_engine<MLCG1, MLCG2>`. -/
def engine : Engine (Nat × Nat) := ⟨next E1 E2, write, read E1 E2, eq⟩

end AdditiveCombine

/-- The base of `kreutzer1986`; shuffle_order.hpp:247-249. -/
def kreutzerBase : Lcg := ⟨⟨32, false⟩, 1366, 150889, 714025⟩

/-- The two bases of `ecuyer1988`; additive_combine.hpp:273-276. -/
def ecuyerA : Lcg := ⟨⟨32, false⟩, 40014, 0, 2147483563⟩

/-- The second base of `ecuyer1988`; additive_combine.hpp:274. -/
def ecuyerB : Lcg := ⟨⟨32, false⟩, 40692, 0, 2147483399⟩

end Boost.Random
