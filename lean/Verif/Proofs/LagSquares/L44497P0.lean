import Verif.Proofs.LagSquares.L44497

/-!
# lagged_fibonacci44497: repeated squaring

Written by tools/gen_lag_squares.py.
-/

set_option Elab.async false
set_option maxRecDepth 100000
set_option exponentiation.threshold 100000

namespace Boost.Random
namespace Gf2N.L44497
open Tausworthe
theorem s0 : chk stp bound c1 1000 c0 = true := by decide +kernel
theorem s1 : chk stp bound c2 1000 c1 = true := by decide +kernel
theorem s2 : chk stp bound c3 1000 c2 = true := by decide +kernel
theorem s3 : chk stp bound c4 1000 c3 = true := by decide +kernel
theorem s4 : chk stp bound c5 1000 c4 = true := by decide +kernel
theorem s5 : chk stp bound c6 1000 c5 = true := by decide +kernel
theorem s6 : chk stp bound c7 1000 c6 = true := by decide +kernel
theorem s7 : chk stp bound c8 1000 c7 = true := by decide +kernel
theorem s8 : chk stp bound c9 1000 c8 = true := by decide +kernel
theorem s9 : chk stp bound c10 1000 c9 = true := by decide +kernel
theorem s10 : chk stp bound c11 1000 c10 = true := by decide +kernel
end Gf2N.L44497
end Boost.Random
