import Verif.Proofs.LagNat

/-!
# 2^19937 - 1 is prime

Written by tools/gen_lag_squares.py.
-/

set_option Elab.async false
set_option maxRecDepth 100000
set_option exponentiation.threshold 100000

namespace Boost.Random
namespace Gf2N.L19937
theorem prime : (2 ^ 19937 - 1).Prime := prime19937
end Gf2N.L19937
end Boost.Random
