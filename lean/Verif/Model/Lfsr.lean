import Verif.Model.Engine
import Verif.Model.Adaptors

/-!
# `linear_feedback_shift_engine`

Model of `include/boost/random/linear_feedback_shift.hpp` and `include/boost/random/taus88.hpp`.
-/

namespace Boost.Random

/-- Template parameters of `linear_feedback_shift_engine<UIntType, w, k, q, s>`;
linear_feedback_shift.hpp:40-51. `bits` is the width of `UIntType`, an unsigned type not narrower than
`int`. -/
structure Lfsr where
  bits : Nat
  w : Nat
  k : Nat
  q : Nat
  s : Nat
  deriving DecidableEq, Repr

namespace Lfsr
variable (L : Lfsr)

/-- The static assertions of linear_feedback_shift.hpp:60-64, and that the type has `w` bits
(`low_bits_mask_t<w>` in linear_feedback_shift.hpp:171 converts to it) and is at least an `unsigned`. -/
def Valid : Prop := 0 < L.w ∧ 0 < L.q ∧ L.k < L.w ∧ 0 < 2 * L.q ∧ 2 * L.q < L.k ∧ 0 < L.s ∧ L.s ≤ L.k - L.q ∧
  L.w ≤ L.bits ∧ 32 ≤ L.bits

instance : Decidable L.Valid := by unfold Valid; infer_instance

/-- `wordmask()`; linear_feedback_shift.hpp:171. -/
def wordmask : Nat := 2 ^ L.w - 1

/-- `min()`, `max()`; linear_feedback_shift.hpp:55-58. -/
def minv : Nat := 0

/-- `max()`; linear_feedback_shift.hpp:57-58. -/
def maxv : Nat := L.wordmask

/-- `seed(s0)`; linear_feedback_shift.hpp:90-97. `1 << (w-k)` is a shift of an `int`: not defined if the
result does not fit. -/
def seed (s0 : Nat) : Option Nat :=
  if L.w - L.k ≤ 30 then
    let value := s0 &&& L.wordmask
    some (if value < 1 <<< (L.w - L.k) then (value + 1 <<< (L.w - L.k)) % 2 ^ L.bits else value)
  else none

/-- `operator()`; linear_feedback_shift.hpp:117-123. All shift amounts are below the width of the type,
so nothing is undefined. -/
def next (value : Nat) : Option (Int × Nat) :=
  let b := ((((value <<< L.q) % 2 ^ L.bits) ^^^ value) &&& L.wordmask) >>> (L.k - L.s)
  let mask := ((L.wordmask <<< (L.w - L.k)) % 2 ^ L.bits) &&& L.wordmask
  let value := (((value &&& mask) <<< L.s) % 2 ^ L.bits) ^^^ b
  some ((value : Int), value)

/-- `discard(z)`; linear_feedback_shift.hpp:131-136. -/
def discard (z value : Nat) : Option Nat :=
  match z with
  | 0 => some value
  | z + 1 => (L.next value).bind fun p => discard z p.2

/-- `operator<<`; linear_feedback_shift.hpp:141-145. -/
def write (value : Nat) : List Tok := [Tok.num value]

/-- `operator>>`; linear_feedback_shift.hpp:150-154. -/
def read (st : IStream) (value : Nat) : IStream × Nat :=
  let p := readInto ⟨L.bits, false⟩ st value
  (p.1, p.2.toNat)

/-- `operator==`; linear_feedback_shift.hpp:160-161. -/
def eq (x y : Nat) : Bool := x == y

/-- The engine as a base of adaptors. -/
def engine : Engine Nat := ⟨L.next, fun v => write v, fun st v => L.read st v, eq⟩

end Lfsr

/-- The three components of `taus88`; taus88.hpp:33-37. -/
def taus88A : Lfsr := ⟨32, 32, 31, 13, 12⟩

/-- The second component of `taus88`; taus88.hpp:36. -/
def taus88B : Lfsr := ⟨32, 32, 29, 2, 4⟩

/-- The third component of `taus88`; taus88.hpp:37. -/
def taus88C : Lfsr := ⟨32, 32, 28, 3, 17⟩

/-- `taus88`: two nested `xor_combine_engine`s without shifts; taus88.hpp:32-37. -/
def taus88Inner : Engine (Nat × Nat) := XorCombine.engine 32 0 32 0 taus88A.engine taus88B.engine

/-- `taus88`: the outer `xor_combine_engine`; taus88.hpp:33-37. -/
def taus88 : Engine ((Nat × Nat) × Nat) := XorCombine.engine 32 0 32 0 taus88Inner taus88C.engine

end Boost.Random
