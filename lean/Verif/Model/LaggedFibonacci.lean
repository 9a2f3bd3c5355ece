import Verif.Model.Engine
import Mathlib.Data.Rat.Defs

/-!
# Lagged Fibonacci engines

Model of `include/boost/random/lagged_fibonacci.hpp`: `lagged_fibonacci_engine` (integers) and
`lagged_fibonacci_01_engine` (fractions). `none` = access outside the array.
-/

namespace Boost.Random

/-- The loop `for(j = a; j < a + n; ++j) x[j] = f(j, x)` over an array updated in place. -/
def sweep {α : Type} (f : Nat → List α → Option α) : (n a : Nat) → List α → Option (List α)
  | 0, _, x => some x
  | n + 1, a, x => (f a x).bind fun v => sweep f n (a + 1) (x.set a v)

/-- State of an engine that produces its values in blocks: the array `x` and the position `i`;
lagged_fibonacci.hpp:181-182, 400-401, mersenne_twister.hpp:493-494. -/
structure BlockEng (α : Type) where
  x : List α
  i : Nat
  deriving DecidableEq, Repr

namespace Lagged
variable {α : Type} (add : α → α → α) (p q : Nat)

/-- `fill()`; lagged_fibonacci.hpp:200-210 and 420-438, `add` being the addition of the engine. -/
def fill (x : List α) : Option (List α) :=
  (sweep (fun j x => x[j]?.bind fun a => x[j + (p - q)]?.map fun b => add a b) q 0 x).bind
    (sweep (fun j x => x[j]?.bind fun a => x[j - q]?.map fun b => add a b) (p - q) q)

/-- `operator()`; lagged_fibonacci.hpp:121-126 and 329-334. -/
def next (st : BlockEng α) : Option (α × BlockEng α) :=
  (if st.i ≥ p then (fill add p q st.x).map fun x => (⟨x, 0⟩ : BlockEng α) else some st).bind fun st =>
    st.x[st.i]?.map fun v => (v, ⟨st.x, st.i + 1⟩)

/-- `discard(z)`; lagged_fibonacci.hpp:134-139 and 342-347. -/
def discard : (z : Nat) → BlockEng α → Option (BlockEng α)
  | 0, st => some st
  | z + 1, st => (next add p q st).bind fun r => discard z r.2

/-- `operator==`; lagged_fibonacci.hpp:167-168 and 382-383. -/
def eq [BEq α] (a b : BlockEng α) : Bool := a.i == b.i && a.x == b.x

end Lagged

/-- Template arguments of `lagged_fibonacci_engine<UIntType, w, p, q>`, `UIntType` having `bits` bits;
lagged_fibonacci.hpp:45-53. -/
structure Lagged.Params where
  bits : Nat
  w : Nat
  p : Nat
  q : Nat
  deriving DecidableEq, Repr

namespace LaggedInt
variable (L : Lagged.Params)

/-- `(x + y) & low_bits_mask_t<w>::sig_bits`; lagged_fibonacci.hpp:205, 208. -/
def add (a b : Nat) : Nat := (a + b) % 2 ^ L.bits &&& (2 ^ L.w - 1)

/-- `operator()`; lagged_fibonacci.hpp:121-126. -/
def next (st : BlockEng Nat) : Option (Nat × BlockEng Nat) := Lagged.next (add L) L.p L.q st

/-- `min()`, `max()`; lagged_fibonacci.hpp:58-61. -/
def minv : Nat := 0

/-- `max()`; lagged_fibonacci.hpp:60-61. -/
def maxv : Nat := 2 ^ L.w - 1

/-- `operator<<`; lagged_fibonacci.hpp:144-150. -/
def write (st : BlockEng Nat) : List Tok := Tok.num st.i :: st.x.map fun v : Nat => Tok.num v

/-- `operator>>`; lagged_fibonacci.hpp:155-161. -/
def read (s : IStream) (st : BlockEng Nat) : IStream × BlockEng Nat :=
  let r := readInto ⟨32, false⟩ s st.i
  let t := readList ⟨L.bits, false⟩ r.1 (st.x.map fun v : Nat => (v : Int))
  (t.1, ⟨t.2.map Int.toNat, r.2.toNat⟩)

end LaggedInt

namespace Lagged01

/-- The addition modulo 1 of `fill`; lagged_fibonacci.hpp:425-428, 432-435. Floating-point numbers are
modelled by rationals: if `RealType` has more than `w` digits the additions and subtractions of multiples
of `2^-w` below 2 are exact. -/
def add (a b : ℚ) : ℚ :=
  let t := a + b
  if 1 ≤ t then t - 1 else t

/-- `operator()`; lagged_fibonacci.hpp:329-334. -/
def next (p q : Nat) (st : BlockEng ℚ) : Option (ℚ × BlockEng ℚ) := Lagged.next add p q st

/-- `min()`, `max()`; lagged_fibonacci.hpp:323-326. -/
def minv : ℚ := 0

/-- `max()`; lagged_fibonacci.hpp:326. -/
def maxv : ℚ := 1

/-- `operator<<`; lagged_fibonacci.hpp:352-362. The elements are written as `x[j] * 2^w` in fixed notation
with a fraction of zeros; the token is the number before the point. -/
def write (w : Nat) (st : BlockEng ℚ) : List Tok := Tok.num st.i :: st.x.map fun v => Tok.num (v * 2 ^ w).floor

/-- The loop of `operator>>`: `is >> value; x[j] = value / modulus()`; lagged_fibonacci.hpp:370-374. The
stream operation on reals is modelled for tokens that are integers. After a failure the value read is not
stored (in the code an unspecified value is). -/
def readLoop (w : Nat) : IStream → List ℚ → IStream × List ℚ
  | s, [] => (s, [])
  | s, x :: xs =>
    match s.ok, s.toks with
    | true, Tok.num v :: rest => let r := readLoop w ⟨rest, true⟩ xs; (r.1, (v : ℚ) / 2 ^ w :: r.2)
    | _, toks => let r := readLoop w ⟨toks, false⟩ xs; (r.1, x :: r.2)

/-- `operator>>`; lagged_fibonacci.hpp:367-376. -/
def read (w : Nat) (s : IStream) (st : BlockEng ℚ) : IStream × BlockEng ℚ :=
  let r := readInto ⟨32, false⟩ s st.i
  let t := readLoop w r.1 st.x
  (t.1, ⟨t.2, r.2.toNat⟩)

end Lagged01

/-- `lagged_fibonacci607` ... `lagged_fibonacci44497` (with `double`, 48 bits): the lags;
lagged_fibonacci.hpp:505-521. -/
def lagged01Lags : List (Nat × Nat) := [(607, 273), (1279, 418), (2281, 1252), (3217, 576), (4423, 2098),
  (9689, 5502), (19937, 9842), (23209, 13470), (44497, 21034)]

end Boost.Random
