import Verif.Proofs.MtSquares.Mt19937P0
import Verif.Proofs.MtSquares.Mt19937P1
import Verif.Proofs.MtSquares.Mt19937P2
import Verif.Proofs.MtSquares.Mt19937P3

/-!
# mt19937: the power of X

Written by tools/gen_mt_squares.py.
-/

namespace Boost.Random
namespace Gf2N.Mt19937

theorem all : Reach (Spec.mtChar mt19937) bound 19937 2 := (part3 (part2 (part1 (part0 (Reach.start _ (by decide +kernel))))))

end Gf2N.Mt19937
end Boost.Random
