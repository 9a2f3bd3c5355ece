import Verif.Proofs.LagSquares.L44497

/-!
# lagged_fibonacci44497: repeated squaring

Written by tools/gen_lag_squares.py.
-/

set_option Elab.async false
set_option maxRecDepth 100000
set_option exponentiation.threshold 100000

namespace Boost.Random
namespace Gf2N.L44497
open Tausworthe
theorem s33 : chk stp bound c34 1000 c33 = true := by decide +kernel
theorem s34 : chk stp bound c35 1000 c34 = true := by decide +kernel
theorem s35 : chk stp bound c36 1000 c35 = true := by decide +kernel
theorem s36 : chk stp bound c37 1000 c36 = true := by decide +kernel
theorem s37 : chk stp bound c38 1000 c37 = true := by decide +kernel
theorem s38 : chk stp bound c39 1000 c38 = true := by decide +kernel
theorem s39 : chk stp bound c40 1000 c39 = true := by decide +kernel
theorem s40 : chk stp bound c41 1000 c40 = true := by decide +kernel
theorem s41 : chk stp bound c42 1000 c41 = true := by decide +kernel
theorem s42 : chk stp bound c43 1000 c42 = true := by decide +kernel
theorem s43 : chk stp bound c44 1000 c43 = true := by decide +kernel
theorem s44 : chk stp bound c45 497 c44 = true := by decide +kernel
end Gf2N.L44497
end Boost.Random
