import Verif.Spec.Run
import Verif.Model.LaggedFibonacci

/-!
# Specification of the lagged Fibonacci engines
-/

namespace Boost.Random.Spec

/-- Template arguments covered: `0 < q < p`, `w` bits fit in the type. -/
structure LaggedValid (L : Lagged.Params) : Prop where
  q_pos : 0 < L.q
  q_lt : L.q < L.p
  w_le : L.w ≤ L.bits
  bits_pos : 1 ≤ L.bits
  p_lt : L.p < 2 ^ 32

/-- A state: `p` words below `2^w`, a position in `0 .. p`. -/
structure LaggedOK (L : Lagged.Params) (st : BlockEng Nat) : Prop where
  len : st.x.length = L.p
  lt : ∀ v ∈ st.x, v < 2 ^ L.w
  i : st.i ≤ L.p

/-- The additive lagged Fibonacci recurrence `X(n) = X(n-p) + X(n-q) mod 2^w`. -/
def IsLagged (w p q : Nat) (X : Nat → Nat) : Prop := ∀ n, X (n + p) = (X n + X (n + p - q)) % 2 ^ w

end Boost.Random.Spec
