import Verif.Spec.Run
import Verif.Model.Swc

/-!
# Specification of the subtract-with-carry engine
-/

namespace Boost.Random.Spec

/-- Template arguments covered: `0 < s < r` and `2^w` representable in the type. -/
structure SwcValid (E : Swc) : Prop where
  s_pos : 0 < E.s
  s_lt : E.s < E.r
  w_lt : E.w < E.bits

/-- A state of the engine: `r` words below `2^w`, a borrow of 0 or 1, a position in the table. -/
structure SwcOK (E : Swc) (st : SwcState) : Prop where
  len : st.x.length = E.r
  lt : ∀ v ∈ st.x, v < 2 ^ E.w
  carry : st.carry ≤ 1
  k : st.k < E.r

/-- The subtract-with-carry recurrence for a sequence `X` with borrows `C`. -/
structure IsSwc (w s r : Nat) (X C : Nat → Nat) : Prop where
  value : ∀ n, (X (n + r) : Int) = ((X (n + r - s) : Int) - X n - C n) % 2 ^ w
  borrow : ∀ n, C (n + 1) = if (X (n + r - s) : Int) - X n - C n < 0 then 1 else 0

/-- The table in order of age: the oldest of the `r` last values first. -/
def swcWindow (st : SwcState) (j : Nat) : Nat := (st.x.drop st.k ++ st.x.take st.k).getD j 0

end Boost.Random.Spec
