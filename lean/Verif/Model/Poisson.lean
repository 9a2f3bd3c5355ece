import Verif.Model.RealOps

/-!
# `poisson_distribution`, `geometric_distribution`

Model of `include/boost/random/poisson_distribution.hpp` and `include/boost/random/geometric_distribution.hpp` for a signed `IntType` of
`bits ≥ 32` bits.
-/

namespace Boost.Random
namespace Poisson

section
variable {K : Type} [Field K] [LinearOrder K] [FloorRing K] (o : RealOps K)

/-- `poisson_table::value`; poisson_distribution.hpp:38-50. The literals, before rounding to `RealType`. -/
def table : List K :=
  [0, 0, 69314718055994529 / 10 ^ 17, 17917594692280550 / 10 ^ 16, 31780538303479458 / 10 ^ 16, 47874917427820458 / 10 ^ 16,
   65792512120101012 / 10 ^ 16, 85251613610654147 / 10 ^ 16, 10604602902745251 / 10 ^ 15, 12801827480081469 / 10 ^ 15]

/-- `log_factorial(k)`; poisson_distribution.hpp:245-250. Only called for `k < 10`. -/
def logFactorial (k : Nat) : K := o.fl ((table : List K).getD k 0)

/-- The parameters of the transformed rejection method; poisson_distribution.hpp:338-344. -/
structure Ptrd (K : Type) where
  vr : K
  a : K
  b : K
  smu : K
  invAlpha : K

/-- The members of `poisson_distribution`; poisson_distribution.hpp:334-347. The union holds `_exp_mean` or `_ptrd`. -/
structure Dist (K : Type) where
  mean : K
  u : K ⊕ Ptrd K

/-- The parameters set by `init` for rejection; poisson_distribution.hpp:260-264. -/
def ptrd (mean : K) : Ptrd K :=
  let smu := o.fl (o.sqrt mean)
  let b := o.fl (o.fl (931 / 1000) + o.fl (o.fl (253 / 100) * smu))
  { vr := o.fl (o.fl (9277 / 10000) - o.fl (o.fl (36224 / 10000) / o.fl (b - 2)))
    a := o.fl (o.fl (-59 / 1000) + o.fl (o.fl (2483 / 100000) * b))
    b := b
    smu := smu
    invAlpha := o.fl (o.fl (11239 / 10000) + o.fl (o.fl (11328 / 10000) / o.fl (b - o.fl (34 / 10)))) }

/-- `poisson_distribution(mean_arg)` and `init()`; poisson_distribution.hpp:127-132, 240-243, 252-266. The assertion is disabled. -/
def init (mean : K) : Dist K := ⟨mean, if mean < 10 then .inl (o.fl (o.exp (-mean))) else .inr (ptrd o mean)⟩

/-- The loop of `invert`; poisson_distribution.hpp:326-331. `fuel` is the number of times that `x` can be incremented, so that `none` means
that `++x` overflows. -/
def invertLoop (mean : K) : (fuel : Nat) → (x : Nat) → (u p : K) → Option Nat
  | 0, x, u, p => if u > p then none else some x
  | n + 1, x, u, p =>
    if u > p then invertLoop mean n (x + 1) (o.fl (u - p)) (o.fl (o.fl (mean * p) / o.fl (x + 1 : Nat))) else some x

/-- `invert(urng)` where the call of `uniform_01` on line 325 returns `u`; poisson_distribution.hpp:320-332. -/
def invert (bits : Nat) (mean expMean u : K) : Option Nat := invertLoop o mean (2 ^ (bits - 1) - 1) 0 u expMean

/-- `(2*a/us + b)*u + mean + 0.445`; poisson_distribution.hpp:281, 297. -/
def candidate (P : Ptrd K) (mean u us : K) : K := o.fl (o.fl (o.fl (o.fl (o.fl (2 * P.a / us) + P.b) * u) + mean) + o.fl (445 / 1000))

/-- The values of `u` and `v` computed from the first value `v` and the second value `w` of `uniform_01`; poisson_distribution.hpp:284-290. -/
def second (P : Ptrd K) (v w : K) : K × K :=
  if P.vr ≤ v then (o.fl (w - 1 / 2), v)
  else
    let u := o.fl (o.fl (v / P.vr) - o.fl (93 / 100))
    (o.fl ((if u < 0 then -(1 / 2) else 1 / 2) - u), o.fl (w * P.vr))

/-- The right-hand side of the comparison for `k ≥ 10`; poisson_distribution.hpp:300, 303-307. -/
def largeBound (mean k : K) : K :=
  let kk := o.fl (k * k)
  let corr := o.fl (o.fl (o.fl (1 / 12) - o.fl (o.fl (o.fl (1 / 360) - o.fl (1 / o.fl (o.fl (1260 * k) * k))) / kk)) / k)
  o.fl (o.fl (o.fl (o.fl (o.fl (o.fl (k + 1 / 2) * o.fl (o.log (o.fl (mean / k)))) - mean) - o.fl (91893853320467267 / 10 ^ 17)) + k) - corr)

/-- The right-hand side of the comparison for `0 ≤ k < 10`; poisson_distribution.hpp:311-313. -/
def smallBound (mean : K) (k : Nat) : K := o.fl (o.fl (o.fl (o.fl k * o.fl (o.log mean)) - mean) - logFactorial o k)

/-- The test of a candidate; poisson_distribution.hpp:302-316. The logarithm of zero is minus infinity. -/
def accept (P : Ptrd K) (mean : K) (k : Int) (v : K) : Bool :=
  if 10 ≤ k then (if v = 0 then true else decide (o.fl (o.log (o.fl (v * P.smu))) ≤ largeBound o mean k))
  else if 0 ≤ k then (if v = 0 then true else decide (o.fl (o.log v) ≤ smallBound o mean k.toNat))
  else false

/-- `generate(urng)`; poisson_distribution.hpp:268-318. When `us` and `v` are zero, `k` is an infinity and the comparisons on lines 303 and 310 are
false. -/
def generate (bits : Nat) (P : Ptrd K) (mean : K) : List K → Draws K Int
  | [] => .more
  | v :: vs =>
    if v ≤ o.fl (o.fl (86 / 100) * P.vr) then
      let u := o.fl (o.fl (v / P.vr) - o.fl (43 / 100))
      match castSigned bits (⌊candidate o P mean u (o.fl (1 / 2 - |u|))⌋ : K) with
      | none => .ub
      | some k => .done k vs
    else
      match vs with
      | [] => .more
      | w :: vs =>
        let uv := second o P v w
        let us := o.fl (1 / 2 - |uv.1|)
        if us < o.fl (13 / 1000) ∧ uv.2 > us then generate bits P mean vs
        else if us = 0 then generate bits P mean vs
        else
          let k := ⌊candidate o P mean uv.1 us⌋
          let v := o.fl (o.fl (uv.2 * P.invAlpha) / o.fl (o.fl (P.a / o.fl (us * us)) + P.b))
          if accept o P mean k v then
            match castSigned bits (k : K) with
            | none => .ub
            | some k => .done k vs
          else generate bits P mean vs

/-- `operator()(urng)`; poisson_distribution.hpp:148-156. -/
def next (bits : Nat) (d : Dist K) (vs : List K) : Draws K Int :=
  match d.u with
  | .inl e =>
    match vs with
    | [] => .more
    | u :: vs =>
      match invert o bits d.mean e u with
      | none => .ub
      | some x => .done x vs
  | .inr P => generate o bits P d.mean vs

/-- `min()` and `max()`; poisson_distribution.hpp:171-175. -/
def min : Int := 0

/-- `max()`; poisson_distribution.hpp:174-175. -/
def max (bits : Nat) : Int := 2 ^ (bits - 1) - 1

end

end Poisson

namespace Geometric

section
variable {K : Type} [Field K] [LinearOrder K] [FloorRing K] (o : RealOps K)

/-- `_log_1mp`; geometric_distribution.hpp:204-208. -/
def log1mp (p : K) : K := o.fl (o.log (o.fl (1 - p)))

/-- `operator()(eng)`; geometric_distribution.hpp:153-160. When `_log_1mp` is zero, the quotient is infinite or not a number, and its
conversion to an integer is undefined. -/
def next (bits : Nat) (p : K) : List K → Draws K Int
  | [] => .more
  | u :: vs =>
    let x := o.fl (1 - u)
    if log1mp o p = 0 then .ub
    else
      match castSigned bits (⌊o.fl (o.fl (o.log x) / log1mp o p)⌋ : K) with
      | none => .ub
      | some k => .done k vs

/-- `min()` and `max()`; geometric_distribution.hpp:126-131. -/
def min : Int := 0

/-- `max()`; geometric_distribution.hpp:130-131. -/
def max (bits : Nat) : Int := 2 ^ (bits - 1) - 1

/-- `operator()(eng)` of the deprecated class `boost::geometric_distribution`, which is constructed from `p_arg`;
geometric_distribution.hpp:232-240. -/
def nextOld (bits : Nat) (p : K) (vs : List K) : Draws K Int :=
  (next o bits (o.fl (1 - p)) vs).bind fun k vs => if InSigned bits (k + 1) then .done (k + 1) vs else .ub

end

end Geometric
end Boost.Random
