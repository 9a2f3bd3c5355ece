import Verif.Proofs.LagSquares.L44497

/-!
# lagged_fibonacci44497: repeated squaring

Written by tools/gen_lag_squares.py.
-/

set_option Elab.async false
set_option maxRecDepth 100000
set_option exponentiation.threshold 100000

namespace Boost.Random
namespace Gf2N.L44497
open Tausworthe
theorem s22 : chk stp bound c23 1000 c22 = true := by decide +kernel
theorem s23 : chk stp bound c24 1000 c23 = true := by decide +kernel
theorem s24 : chk stp bound c25 1000 c24 = true := by decide +kernel
theorem s25 : chk stp bound c26 1000 c25 = true := by decide +kernel
theorem s26 : chk stp bound c27 1000 c26 = true := by decide +kernel
theorem s27 : chk stp bound c28 1000 c27 = true := by decide +kernel
theorem s28 : chk stp bound c29 1000 c28 = true := by decide +kernel
theorem s29 : chk stp bound c30 1000 c29 = true := by decide +kernel
theorem s30 : chk stp bound c31 1000 c30 = true := by decide +kernel
theorem s31 : chk stp bound c32 1000 c31 = true := by decide +kernel
theorem s32 : chk stp bound c33 1000 c32 = true := by decide +kernel
end Gf2N.L44497
end Boost.Random
