import Verif.Proofs.LagSquares.L23209Prime
import Verif.Proofs.LagSquares.L23209P0
import Verif.Proofs.LagSquares.L23209P1

/-!
# lagged_fibonacci23209: the power of X

Written by tools/gen_lag_squares.py.
-/

set_option Elab.async false
set_option maxRecDepth 100000
set_option exponentiation.threshold 100000

namespace Boost.Random
namespace Gf2N.L23209
open Tausworthe
theorem r0 : Reach (trinomial 23209 9739) bound 1000 c1 := (Reach.start (trinomial 23209 9739) (by decide +kernel)).next squares s0 rfl
theorem r1 : Reach (trinomial 23209 9739) bound 2000 c2 := (r0).next squares s1 rfl
theorem r2 : Reach (trinomial 23209 9739) bound 3000 c3 := (r1).next squares s2 rfl
theorem r3 : Reach (trinomial 23209 9739) bound 4000 c4 := (r2).next squares s3 rfl
theorem r4 : Reach (trinomial 23209 9739) bound 5000 c5 := (r3).next squares s4 rfl
theorem r5 : Reach (trinomial 23209 9739) bound 6000 c6 := (r4).next squares s5 rfl
theorem r6 : Reach (trinomial 23209 9739) bound 7000 c7 := (r5).next squares s6 rfl
theorem r7 : Reach (trinomial 23209 9739) bound 8000 c8 := (r6).next squares s7 rfl
theorem r8 : Reach (trinomial 23209 9739) bound 9000 c9 := (r7).next squares s8 rfl
theorem r9 : Reach (trinomial 23209 9739) bound 10000 c10 := (r8).next squares s9 rfl
theorem r10 : Reach (trinomial 23209 9739) bound 11000 c11 := (r9).next squares s10 rfl
theorem r11 : Reach (trinomial 23209 9739) bound 12000 c12 := (r10).next squares s11 rfl
theorem r12 : Reach (trinomial 23209 9739) bound 13000 c13 := (r11).next squares s12 rfl
theorem r13 : Reach (trinomial 23209 9739) bound 14000 c14 := (r12).next squares s13 rfl
theorem r14 : Reach (trinomial 23209 9739) bound 15000 c15 := (r13).next squares s14 rfl
theorem r15 : Reach (trinomial 23209 9739) bound 16000 c16 := (r14).next squares s15 rfl
theorem r16 : Reach (trinomial 23209 9739) bound 17000 c17 := (r15).next squares s16 rfl
theorem r17 : Reach (trinomial 23209 9739) bound 18000 c18 := (r16).next squares s17 rfl
theorem r18 : Reach (trinomial 23209 9739) bound 19000 c19 := (r17).next squares s18 rfl
theorem r19 : Reach (trinomial 23209 9739) bound 20000 c20 := (r18).next squares s19 rfl
theorem r20 : Reach (trinomial 23209 9739) bound 21000 c21 := (r19).next squares s20 rfl
theorem r21 : Reach (trinomial 23209 9739) bound 22000 c22 := (r20).next squares s21 rfl
theorem r22 : Reach (trinomial 23209 9739) bound 23000 c23 := (r21).next squares s22 rfl
theorem r23 : Reach (trinomial 23209 9739) bound 23209 c24 := (r22).next squares s23 rfl
theorem good : Lag.Good 23209 9739 := Gf2N.good (by decide) (by decide) (by decide) prime r23
end Gf2N.L23209
end Boost.Random
