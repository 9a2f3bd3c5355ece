import Verif.Model.Ziggurat

/-!
# Continuous distributions that transform a uniform, an exponential or a normal number

`cauchy_distribution`, `weibull_distribution`, `extreme_value_distribution`, `triangle_distribution`, `laplace_distribution` and the two
`lognormal_distribution`s. The results that may be infinite or not a number have the type `Ieee`; the other results are numbers of the field.
-/

namespace Boost.Random

/-- The functions of `<cmath>`, with the tangent. -/
structure TrigOps (K : Type) extends RealOps K where
  tan : K → K

/-- What the distributions read: `uniform_01<RealType>()(eng)`, `unit_exponential_distribution<RealType>()(eng)` and
`unit_normal_distribution<RealType>()(eng)`. -/
structure Numbers (K σ : Type) where
  unif : σ → Run σ K
  expo : σ → Run σ K
  norm : σ → Run σ K

/-- The numbers of an engine: `RealType` has 53 bits, `n` bounds the iterations of the loops. -/
def engineNumbers (o : RealOps ℚ) (E : EngInfo) (n : Nat) : Numbers ℚ (List Int) where
  unif := (engineSource o E n).unif
  expo := (engineSource o E n).expo
  norm := Normal.unit o (engineSource o E n) n

/-- The values of a floating-point type by IEC 60559. The sign of zero is left out, overflow as well. -/
inductive Ieee (K : Type) where
  | fin (x : K)
  | inf
  | ninf
  | nan
  deriving DecidableEq, Repr

namespace Ieee
variable {K : Type} [Field K] [LinearOrder K] (o : RealOps K)

/-- `-x`. -/
def neg : Ieee K → Ieee K
  | fin x => fin (-x)
  | inf => ninf
  | ninf => inf
  | nan => nan

/-- `x + y`. -/
def add : Ieee K → Ieee K → Ieee K
  | fin x, fin y => fin (o.fl (x + y))
  | fin _, inf => inf
  | fin _, ninf => ninf
  | inf, fin _ => inf
  | inf, inf => inf
  | ninf, fin _ => ninf
  | ninf, ninf => ninf
  | _, _ => nan

/-- `x - y`. -/
def sub (x y : Ieee K) : Ieee K := add o x (neg y)

/-- Infinity with the sign of a number. -/
def infOf (x : K) : Ieee K := if 0 < x then inf else if x < 0 then ninf else nan

/-- `x * y`. -/
def mul : Ieee K → Ieee K → Ieee K
  | fin x, fin y => fin (o.fl (x * y))
  | fin x, inf => infOf x
  | fin x, ninf => infOf (-x)
  | inf, fin y => infOf y
  | ninf, fin y => infOf (-y)
  | inf, inf => inf
  | ninf, ninf => inf
  | inf, ninf => ninf
  | ninf, inf => ninf
  | _, _ => nan

/-- `x / y`, with a positive zero in the denominator. -/
def div : Ieee K → Ieee K → Ieee K
  | fin x, fin y => if y = 0 then infOf x else fin (o.fl (x / y))
  | fin _, inf => fin 0
  | fin _, ninf => fin 0
  | inf, fin y => if y < 0 then ninf else inf
  | ninf, fin y => if y < 0 then inf else ninf
  | _, _ => nan

/-- `log(x)`. -/
def log : Ieee K → Ieee K
  | fin x => if x < 0 then nan else if x = 0 then ninf else fin (o.log x)
  | inf => inf
  | _ => nan

/-- `sqrt(x)`. -/
def sqrt : Ieee K → Ieee K
  | fin x => if x < 0 then nan else fin (o.sqrt x)
  | inf => inf
  | _ => nan

/-- `x <= y`; false when one of them is not a number. -/
def le : Ieee K → Ieee K → Bool
  | fin x, fin y => decide (x ≤ y)
  | fin _, inf => true
  | ninf, fin _ => true
  | ninf, inf => true
  | inf, inf => true
  | ninf, ninf => true
  | _, _ => false

end Ieee

section
variable {K σ : Type} [Field K] [LinearOrder K]

namespace Cauchy

/-- `pi`; cauchy_distribution.hpp:156. -/
def pi (o : RealOps K) : K := o.fl (314159265358979323846 / 10 ^ 20)

/-- The argument of the tangent; cauchy_distribution.hpp:158-159. -/
def angle (o : RealOps K) (u : K) : K := o.fl (pi o * o.fl (u - 1 / 2))

/-- `cauchy_distribution::operator()`; cauchy_distribution.hpp:153-160. -/
def generate (o : TrigOps K) (median sigma : K) (N : Numbers K σ) (s : σ) : Run σ K :=
  (N.unif s).bind fun u s => .done (o.fl (median + o.fl (sigma * o.tan (angle o.toRealOps u)))) s

end Cauchy

variable (o : RealOps K)

/-- `weibull_distribution::operator()`; weibull_distribution.hpp:96-101. -/
def Weibull.generate (a b : K) (N : Numbers K σ) (s : σ) : Run σ K :=
  (N.unif s).bind fun u s => .done (o.fl (b * o.pow (-o.log (o.fl (1 - u))) (o.fl (1 / a)))) s

/-- `extreme_value_distribution::operator()`; extreme_value_distribution.hpp:96-100. -/
def ExtremeValue.generate (a b : K) (N : Numbers K σ) (s : σ) : Run σ (Ieee K) :=
  (N.unif s).bind fun u s => .done (Ieee.sub o (.fin a) (Ieee.mul o (Ieee.log o (Ieee.neg (Ieee.log o (.fin u)))) (.fin b))) s

namespace Triangle

/-- The members of `triangle_distribution`; triangle_distribution.hpp:222-223. -/
structure State (K : Type) where
  a : K
  b : K
  c : K
  d1 : K
  d2 : K
  d3 : K
  q1 : Ieee K
  p1 : K

/-- The constructor, with `init`; triangle_distribution.hpp:109-116, 211-219. The arguments of both square roots are not negative by the
precondition. -/
def init (a b c : K) : State K :=
  let d1 := o.fl (b - a)
  let d2 := o.fl (c - a)
  { a, b, c, d1, d2, d3 := o.sqrt (o.fl (c - b)), q1 := Ieee.div o (.fin d1) (.fin d2), p1 := o.sqrt (o.fl (d1 * d2)) }

/-- The value for a uniform number; triangle_distribution.hpp:165-168. -/
def value (t : State K) (u : K) : Ieee K :=
  if Ieee.le (.fin u) t.q1 then Ieee.add o (.fin t.a) (Ieee.mul o (.fin t.p1) (Ieee.sqrt o (.fin u)))
  else Ieee.sub o (.fin t.c) (Ieee.mul o (.fin t.d3) (Ieee.sqrt o (.fin (o.fl (o.fl (t.d2 * u) - t.d1)))))

/-- `triangle_distribution::operator()`; triangle_distribution.hpp:161-169. -/
def generate (t : State K) (N : Numbers K σ) (s : σ) : Run σ (Ieee K) := (N.unif s).bind fun u s => .done (value o t u) s

end Triangle

/-- `laplace_distribution::operator()`; laplace_distribution.hpp:92-98. -/
def Laplace.generate (mean beta : K) (N : Numbers K σ) (s : σ) : Run σ K :=
  (N.expo s).bind fun v s =>
    let exponential := o.fl (v / 1)
    (N.unif s).bind fun u s =>
      let exponential := if u < 1 / 2 then -exponential else exponential
      .done (o.fl (mean + o.fl (beta * exponential))) s

/-- `normal_distribution::operator()` on the numbers of a source; normal_distribution.hpp:321-325. -/
def Numbers.normal (N : Numbers K σ) (mean sigma : K) (s : σ) : Run σ K :=
  (N.norm s).bind fun v s => .done (o.fl (o.fl (v * sigma) + mean)) s

/-- `lognormal_distribution::operator()`; lognormal_distribution.hpp:144-148. -/
def Lognormal.generate (m s : K) (N : Numbers K σ) (x : σ) : Run σ K := (N.normal o m s x).bind fun v x => .done (o.exp v) x

namespace LognormalOld

/-- `_nmean` of the deprecated `lognormal_distribution`; lognormal_distribution.hpp:239. -/
def nmean (mean sigma : K) : K :=
  o.log (o.fl (o.fl (mean * mean) / o.sqrt (o.fl (o.fl (sigma * sigma) + o.fl (mean * mean)))))

/-- `_nsigma`; lognormal_distribution.hpp:240. -/
def nsigma (mean sigma : K) : K := o.sqrt (o.log (o.fl (o.fl (o.fl (o.fl (sigma * sigma) / mean) / mean) + 1)))

/-- `operator()` of the deprecated `lognormal_distribution`; lognormal_distribution.hpp:217-221. The normal distribution has the default
parameters. -/
def generate (mean sigma : K) (N : Numbers K σ) (x : σ) : Run σ K :=
  (N.normal o 0 1 x).bind fun v x => .done (o.exp (o.fl (o.fl (v * nsigma o mean sigma) + nmean o mean sigma))) x

end LognormalOld
end

end Boost.Random
