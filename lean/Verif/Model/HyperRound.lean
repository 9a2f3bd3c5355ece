import Verif.Model.PiecewiseRound
import Verif.Model.Mixture

/-!
# Construction of `hyperexponential_distribution` in floating-point arithmetic

As in `Model/Mixture.lean`, but every operation on probabilities is followed by `fl`.
-/

namespace Boost.Random
namespace Discrete

/-- `probabilities()` with real weights; discrete_distribution.hpp:496-511. -/
def probabilitiesRound (fl : ℚ → ℚ) (t : List (ℚ × Nat)) : Option (List ℚ) :=
  (probLoop (fun x y => some (fl (x - y))) (fun _ => some 1) (fun x y => some (fl (x + y))) 0 t (List.replicate t.length 0)).map
    (RealDist.normalizeRound fl)

end Discrete

namespace Hyperexponential

/-- The constructors from two ranges, or from parameters, whose assertion must hold; hyperexponential_distribution.hpp:575-582, 606-614,
681-686, 707-712. -/
def Dist.makeRound (fl : ℚ → ℚ) (probs rates : List ℚ) : Option Dist :=
  (Discrete.realInitRound fl [] probs).bind fun dd =>
    (Discrete.probabilitiesRound fl dd).bind fun p => if check p rates then some ⟨dd, rates⟩ else none

/-- The constructors from the rates; hyperexponential_distribution.hpp:644-652, 668-674, 732-737. -/
def Dist.ofRatesRound (fl : ℚ → ℚ) (rates : List ℚ) : Option Dist := Dist.makeRound fl (List.replicate rates.length 1) rates

/-- `param(param)`; hyperexponential_distribution.hpp:815-819. -/
def Dist.setParamRound (fl : ℚ → ℚ) (d : Dist) (p : Param) : Option Dist := (RealDist.binsRound fl d.dd p.probs).map fun dd => ⟨dd, p.rates⟩

end Hyperexponential
end Boost.Random
