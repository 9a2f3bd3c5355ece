import Verif.Proofs.MtSquares.Mt19937x64P0
import Verif.Proofs.MtSquares.Mt19937x64P1
import Verif.Proofs.MtSquares.Mt19937x64P2
import Verif.Proofs.MtSquares.Mt19937x64P3
import Verif.Proofs.MtSquares.Mt19937x64P4
import Verif.Proofs.MtSquares.Mt19937x64P5
import Verif.Proofs.MtSquares.Mt19937x64P6
import Verif.Proofs.MtSquares.Mt19937x64P7

/-!
# mt19937_64: the power of X

Written by tools/gen_mt_squares.py.
-/

namespace Boost.Random
namespace Gf2N.Mt19937x64

theorem all : Reach (Spec.mtChar mt19937_64) bound 19937 2 := (part7 (part6 (part5 (part4 (part3 (part2 (part1 (part0 (Reach.start _ (by decide +kernel))))))))))

end Gf2N.Mt19937x64
end Boost.Random
