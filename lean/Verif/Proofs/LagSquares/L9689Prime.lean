import Verif.Proofs.LagNat

/-!
# 2^9689 - 1 is prime

Written by tools/gen_lag_squares.py.
-/

set_option Elab.async false
set_option maxRecDepth 100000
set_option exponentiation.threshold 100000

namespace Boost.Random
namespace Gf2N.L9689
def l0 : Nat := nat_lit 0x4
def l1 : Nat := nat_lit 0x0
theorem ll0 : chk (llStep (2 ^ 9689 - 1)) (2 ^ 9689) l1 9687 l0 = true := by decide +kernel
theorem LL0 : LL 9689 9687 l1 := (LL.start 9689).next (by decide) ll0 rfl
theorem prime : (2 ^ 9689 - 1).Prime := LL.prime (by decide) LL0
end Gf2N.L9689
end Boost.Random
