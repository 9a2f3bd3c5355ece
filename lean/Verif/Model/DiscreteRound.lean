import Verif.Model.Discrete

/-!
# `discrete_distribution` with real weights in floating-point arithmetic

As in `Model/Discrete.lean`, but every operation on weights is followed by `fl`.
-/

namespace Boost.Random
namespace Discrete

/-- `real_alias_table::init_average`, the sum by `std::accumulate`; discrete_distribution.hpp:142-150. `size` is converted to `WeightType`. -/
def realAverage (fl : ℚ → ℚ) (ws : List ℚ) : ℚ := fl (ws.foldl (fun s x => fl (s + x)) 0 / fl ws.length)

/-- `init_average`, `normalize` and `init` with real weights; discrete_distribution.hpp:142-150, 161-164, 572-627. -/
def realInitRound (fl : ℚ → ℚ) (old : List (ℚ × Nat)) (ws : List ℚ) : Option (List (ℚ × Nat)) :=
  if ws = [] then some [(1, 0)]
  else
    let avg := realAverage fl ws
    build (fun x y => some (fl (x - y))) (fun _ => some 1) 1 (ws.map fun x => fl (x / avg)) (resize 0 ws.length old)

/-- `probabilities`, the decimals converted to `double`; example/weighted_die.cpp:32-34. -/
def weightedDie (fl : ℚ → ℚ) : List ℚ := [fl (1 / 2), fl (1 / 10), fl (1 / 10), fl (1 / 10), fl (1 / 10), fl (1 / 10)]

/-- `roll_weighted_die`, given the values of the two distributions `dist(gen)` draws from; example/weighted_die.cpp:40-45. -/
def rollWeighted (t : List (ℚ × Nat)) (result : Nat) (test : ℚ) : Option Nat := (realPick t result test).map (· + 1)

end Discrete
end Boost.Random
