import Verif.Proofs.LagSquares.L19937

/-!
# lagged_fibonacci19937: repeated squaring

Written by tools/gen_lag_squares.py.
-/

set_option Elab.async false
set_option maxRecDepth 100000
set_option exponentiation.threshold 100000

namespace Boost.Random
namespace Gf2N.L19937
open Tausworthe
theorem s10 : chk stp bound c11 1000 c10 = true := by decide +kernel
theorem s11 : chk stp bound c12 1000 c11 = true := by decide +kernel
theorem s12 : chk stp bound c13 1000 c12 = true := by decide +kernel
theorem s13 : chk stp bound c14 1000 c13 = true := by decide +kernel
theorem s14 : chk stp bound c15 1000 c14 = true := by decide +kernel
theorem s15 : chk stp bound c16 1000 c15 = true := by decide +kernel
theorem s16 : chk stp bound c17 1000 c16 = true := by decide +kernel
theorem s17 : chk stp bound c18 1000 c17 = true := by decide +kernel
theorem s18 : chk stp bound c19 1000 c18 = true := by decide +kernel
theorem s19 : chk stp bound c20 937 c19 = true := by decide +kernel
end Gf2N.L19937
end Boost.Random
