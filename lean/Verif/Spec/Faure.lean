import Verif.Spec.Qrng
import Mathlib.Algebra.BigOperators.Group.Finset.Basic
import Mathlib.Algebra.Order.BigOperators.Group.Finset
import Mathlib.Data.Nat.Choose.Basic
import Mathlib.Data.Nat.Log
import Mathlib.Data.Nat.Prime.Defs
import Mathlib.Data.Rat.Floor

/-!
# Faure's sequence

H. Faure, Discrepance de suites associees a un systeme de numeration (en dimension s), 1982.
-/

namespace Boost.Random.Spec

/-- Digit `i` after the point of coordinate `d` of point `n` in base `b`: of the digits `a_j` of `n` the sum of the `C(j,i) d^(j-i) a_j` modulo `b`.
`n` has at most `h` digits. -/
def faureDigit (b h n d i : Nat) : Nat := (∑ j ∈ Finset.range h, j.choose i * d ^ (j - i) * (n / b ^ j % b)) % b

/-- Coordinate `d` of point `n`. -/
def faureValue (b n d : Nat) : ℚ := ∑ i ∈ Finset.range (Nat.log b n + 1), (faureDigit b (Nat.log b n + 1) n d i : ℚ) / (b : ℚ) ^ (i + 1)

/-- The first coordinate with every operation rounded: the digits of `n` from the highest on. -/
def faureFirst (fl : ℚ → ℚ) (b n : Nat) : ℚ := (List.range (Nat.log b n + 1)).foldr (fun j r => fl (fl (r + (n / b ^ j % b : Nat)) / b)) 0

/-- The sum over the first `k` digits of another coordinate and the power of `b`, with every operation rounded. -/
def faureSum (fl : ℚ → ℚ) (b n d : Nat) : Nat → ℚ × ℚ
  | 0 => (0, 1)
  | k + 1 =>
    let (v, r) := faureSum fl b n d k
    (fl (v + fl (faureDigit b (Nat.log b n + 1) n d k / fl (r * b))), fl (r * b))

/-- Coordinate `d` of point `n` with every operation rounded. -/
def faureRounded (fl : ℚ → ℚ) (b n d : Nat) : ℚ := if d = 0 then faureFirst fl b n else (faureSum fl b n d (Nat.log b n + 1)).1

/-- The least prime not below `n`. -/
def IsLeastPrime (n p : Nat) : Prop := p.Prime ∧ n ≤ p ∧ ∀ q, q.Prime → n ≤ q → p ≤ q

/-- The states of a quasi-random engine: those that can be reached through its interface. Arguments have the range of their types. -/
inductive QReach {L α : Type} (D : Qrng.Derived L α) : Qrng.Q L α → Prop where
  | make {dim q} : Qrng.make D dim = .ok q → QReach D q
  | next {q v q'} : QReach D q → Qrng.next D q = .ok (v, q') → QReach D q'
  | seed0 {q q'} : QReach D q → Qrng.seed0 D q = .ok q' → QReach D q'
  | seed {q n q'} : QReach D q → n < 2 ^ D.digits → Qrng.seed D q n = .ok q' → QReach D q'
  | discard {q z q'} : QReach D q → z < 2 ^ 64 → Qrng.discard D q z = .ok q' → QReach D q'
  | read {q s q' s'} : QReach D q → Qrng.read D s q = .ok q' s' → QReach D q'
  | readThrew {q s q'} : QReach D q → Qrng.read D s q = .threw q' → QReach D q'

/-- The points `c*b^M, ..., (c+1)*b^M - 1` whose coordinate `d` is in the interval number `a d` of length `1/b^(k d)`. -/
def inFaureBox (b dim : Nat) (vs : List ℚ) (M c : Nat) (k : Nat → Nat) (a : Nat → Int) : Finset Nat :=
  (Finset.range (b ^ M)).filter fun n => ∀ d < dim, ⌊vs.getD ((c * b ^ M + n) * dim + d) 0 * (b : ℚ) ^ k d⌋ = a d

end Boost.Random.Spec
