import Verif.Proofs.LagSquares.L9689Prime
import Verif.Proofs.LagSquares.L9689P0

/-!
# lagged_fibonacci9689: the power of X

Written by tools/gen_lag_squares.py.
-/

set_option Elab.async false
set_option maxRecDepth 100000
set_option exponentiation.threshold 100000

namespace Boost.Random
namespace Gf2N.L9689
open Tausworthe
theorem r0 : Reach (trinomial 9689 4187) bound 1000 c1 := (Reach.start (trinomial 9689 4187) (by decide +kernel)).next squares s0 rfl
theorem r1 : Reach (trinomial 9689 4187) bound 2000 c2 := (r0).next squares s1 rfl
theorem r2 : Reach (trinomial 9689 4187) bound 3000 c3 := (r1).next squares s2 rfl
theorem r3 : Reach (trinomial 9689 4187) bound 4000 c4 := (r2).next squares s3 rfl
theorem r4 : Reach (trinomial 9689 4187) bound 5000 c5 := (r3).next squares s4 rfl
theorem r5 : Reach (trinomial 9689 4187) bound 6000 c6 := (r4).next squares s5 rfl
theorem r6 : Reach (trinomial 9689 4187) bound 7000 c7 := (r5).next squares s6 rfl
theorem r7 : Reach (trinomial 9689 4187) bound 8000 c8 := (r6).next squares s7 rfl
theorem r8 : Reach (trinomial 9689 4187) bound 9000 c9 := (r7).next squares s8 rfl
theorem r9 : Reach (trinomial 9689 4187) bound 9689 c10 := (r8).next squares s9 rfl
theorem good : Lag.Good 9689 4187 := Gf2N.good (by decide) (by decide) (by decide) prime r9
end Gf2N.L9689
end Boost.Random
