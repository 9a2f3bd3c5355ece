import Verif.Proofs.LagSquares.L44497Prime
import Verif.Proofs.LagSquares.L44497P0
import Verif.Proofs.LagSquares.L44497P1
import Verif.Proofs.LagSquares.L44497P2
import Verif.Proofs.LagSquares.L44497P3

/-!
# lagged_fibonacci44497: the power of X

Written by tools/gen_lag_squares.py.
-/

set_option Elab.async false
set_option maxRecDepth 100000
set_option exponentiation.threshold 100000

namespace Boost.Random
namespace Gf2N.L44497
open Tausworthe
theorem r0 : Reach (trinomial 44497 23463) bound 1000 c1 := (Reach.start (trinomial 44497 23463) (by decide +kernel)).next squares s0 rfl
theorem r1 : Reach (trinomial 44497 23463) bound 2000 c2 := (r0).next squares s1 rfl
theorem r2 : Reach (trinomial 44497 23463) bound 3000 c3 := (r1).next squares s2 rfl
theorem r3 : Reach (trinomial 44497 23463) bound 4000 c4 := (r2).next squares s3 rfl
theorem r4 : Reach (trinomial 44497 23463) bound 5000 c5 := (r3).next squares s4 rfl
theorem r5 : Reach (trinomial 44497 23463) bound 6000 c6 := (r4).next squares s5 rfl
theorem r6 : Reach (trinomial 44497 23463) bound 7000 c7 := (r5).next squares s6 rfl
theorem r7 : Reach (trinomial 44497 23463) bound 8000 c8 := (r6).next squares s7 rfl
theorem r8 : Reach (trinomial 44497 23463) bound 9000 c9 := (r7).next squares s8 rfl
theorem r9 : Reach (trinomial 44497 23463) bound 10000 c10 := (r8).next squares s9 rfl
theorem r10 : Reach (trinomial 44497 23463) bound 11000 c11 := (r9).next squares s10 rfl
theorem r11 : Reach (trinomial 44497 23463) bound 12000 c12 := (r10).next squares s11 rfl
theorem r12 : Reach (trinomial 44497 23463) bound 13000 c13 := (r11).next squares s12 rfl
theorem r13 : Reach (trinomial 44497 23463) bound 14000 c14 := (r12).next squares s13 rfl
theorem r14 : Reach (trinomial 44497 23463) bound 15000 c15 := (r13).next squares s14 rfl
theorem r15 : Reach (trinomial 44497 23463) bound 16000 c16 := (r14).next squares s15 rfl
theorem r16 : Reach (trinomial 44497 23463) bound 17000 c17 := (r15).next squares s16 rfl
theorem r17 : Reach (trinomial 44497 23463) bound 18000 c18 := (r16).next squares s17 rfl
theorem r18 : Reach (trinomial 44497 23463) bound 19000 c19 := (r17).next squares s18 rfl
theorem r19 : Reach (trinomial 44497 23463) bound 20000 c20 := (r18).next squares s19 rfl
theorem r20 : Reach (trinomial 44497 23463) bound 21000 c21 := (r19).next squares s20 rfl
theorem r21 : Reach (trinomial 44497 23463) bound 22000 c22 := (r20).next squares s21 rfl
theorem r22 : Reach (trinomial 44497 23463) bound 23000 c23 := (r21).next squares s22 rfl
theorem r23 : Reach (trinomial 44497 23463) bound 24000 c24 := (r22).next squares s23 rfl
theorem r24 : Reach (trinomial 44497 23463) bound 25000 c25 := (r23).next squares s24 rfl
theorem r25 : Reach (trinomial 44497 23463) bound 26000 c26 := (r24).next squares s25 rfl
theorem r26 : Reach (trinomial 44497 23463) bound 27000 c27 := (r25).next squares s26 rfl
theorem r27 : Reach (trinomial 44497 23463) bound 28000 c28 := (r26).next squares s27 rfl
theorem r28 : Reach (trinomial 44497 23463) bound 29000 c29 := (r27).next squares s28 rfl
theorem r29 : Reach (trinomial 44497 23463) bound 30000 c30 := (r28).next squares s29 rfl
theorem r30 : Reach (trinomial 44497 23463) bound 31000 c31 := (r29).next squares s30 rfl
theorem r31 : Reach (trinomial 44497 23463) bound 32000 c32 := (r30).next squares s31 rfl
theorem r32 : Reach (trinomial 44497 23463) bound 33000 c33 := (r31).next squares s32 rfl
theorem r33 : Reach (trinomial 44497 23463) bound 34000 c34 := (r32).next squares s33 rfl
theorem r34 : Reach (trinomial 44497 23463) bound 35000 c35 := (r33).next squares s34 rfl
theorem r35 : Reach (trinomial 44497 23463) bound 36000 c36 := (r34).next squares s35 rfl
theorem r36 : Reach (trinomial 44497 23463) bound 37000 c37 := (r35).next squares s36 rfl
theorem r37 : Reach (trinomial 44497 23463) bound 38000 c38 := (r36).next squares s37 rfl
theorem r38 : Reach (trinomial 44497 23463) bound 39000 c39 := (r37).next squares s38 rfl
theorem r39 : Reach (trinomial 44497 23463) bound 40000 c40 := (r38).next squares s39 rfl
theorem r40 : Reach (trinomial 44497 23463) bound 41000 c41 := (r39).next squares s40 rfl
theorem r41 : Reach (trinomial 44497 23463) bound 42000 c42 := (r40).next squares s41 rfl
theorem r42 : Reach (trinomial 44497 23463) bound 43000 c43 := (r41).next squares s42 rfl
theorem r43 : Reach (trinomial 44497 23463) bound 44000 c44 := (r42).next squares s43 rfl
theorem r44 : Reach (trinomial 44497 23463) bound 44497 c45 := (r43).next squares s44 rfl
theorem good : Lag.Good 44497 23463 := Gf2N.good (by decide) (by decide) (by decide) prime r44
end Gf2N.L44497
end Boost.Random
