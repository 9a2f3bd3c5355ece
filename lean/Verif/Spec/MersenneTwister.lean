import Verif.Spec.Run
import Verif.Model.MersenneTwister

/-!
# Specification of the Mersenne Twister

Matsumoto and Nishimura's recurrence and tempering, on infinite sequences of words.
-/

namespace Boost.Random.Spec

/-- Template arguments covered (all the typedefs are). -/
structure MtValid (P : Mt.Params) : Prop where
  m_two : 2 ≤ P.m
  m_lt : P.m < P.n
  r_pos : 1 ≤ P.r
  r_lt : P.r < P.w
  w_le : P.w ≤ P.bits
  a_lt : P.a < 2 ^ P.w
  a_top : 2 ^ (P.w - 1) ≤ P.a
  b_lt : P.b < 2 ^ P.w
  c_lt : P.c < 2 ^ P.w
  shifts : 1 ≤ P.u ∧ 1 ≤ P.s ∧ 1 ≤ P.t ∧ 1 ≤ P.l ∧ P.u < P.bits ∧ P.s < P.bits ∧ P.t < P.bits ∧ P.l < P.bits

/-- Multiplication by the matrix `A`: shift to the right, and add `a` if the bit shifted out is 1. -/
def mtA (a y : Nat) : Nat := (y / 2) ^^^ (if y % 2 = 1 then a else 0)

/-- The word made of the upper `w - r` bits of `x` and the lower `r` bits of `x'`. -/
def mtJoin (r x x' : Nat) : Nat := x / 2 ^ r * 2 ^ r + x' % 2 ^ r

/-- The recurrence `x(k+n) = x(k+m) + (upper part of x(k) | lower part of x(k+1)) A` over GF(2). -/
def IsMt (P : Mt.Params) (X : Nat → Nat) : Prop :=
  ∀ k, X (k + P.n) = X (k + P.m) ^^^ mtA P.a (mtJoin P.r (X k) (X (k + 1)))

/-- The tempering of a `w`-bit word. -/
def mtTemper (P : Mt.Params) (x : Nat) : Nat :=
  let y := BitVec.ofNat P.w x
  let y := y ^^^ ((y >>> P.u) &&& BitVec.ofNat P.w P.d)
  let y := y ^^^ ((y <<< P.s) &&& BitVec.ofNat P.w P.b)
  let y := y ^^^ ((y <<< P.t) &&& BitVec.ofNat P.w P.c)
  let y := y ^^^ (y >>> P.l)
  y.toNat

/-- An array of `n` words of `w` bits and a position in `0 .. n`. -/
structure MtShape (P : Mt.Params) (st : BlockEng Nat) : Prop where
  len : st.x.length = P.n
  lt : ∀ v ∈ st.x, v < 2 ^ P.w
  i : st.i ≤ P.n

/-- The array occurs somewhere after the start in a sequence of the recurrence: it has a predecessor. -/
def MtReachable (P : Mt.Params) (st : BlockEng Nat) : Prop :=
  ∃ X, IsMt P X ∧ (∀ k, X k < 2 ^ P.w) ∧ ∀ j < P.n, st.x[j]? = some (X (j + 1))

end Boost.Random.Spec
