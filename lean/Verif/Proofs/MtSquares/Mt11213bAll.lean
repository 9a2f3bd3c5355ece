import Verif.Proofs.MtSquares.Mt11213bP0
import Verif.Proofs.MtSquares.Mt11213bP1

/-!
# mt11213b: the power of X

Written by tools/gen_mt_squares.py.
-/

namespace Boost.Random
namespace Gf2N.Mt11213b

theorem all : Reach (Spec.mtChar mt11213b) bound 11213 2 := (part1 (part0 (Reach.start _ (by decide +kernel))))

end Gf2N.Mt11213b
end Boost.Random
