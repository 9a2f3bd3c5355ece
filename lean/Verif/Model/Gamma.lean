import Verif.Model.Variates
import Verif.Model.Poisson

/-!
# `gamma_distribution` and the distributions made of gamma numbers

`gamma_distribution`, `chi_squared_distribution`, `beta_distribution`, `fisher_f_distribution`, `student_t_distribution`,
`negative_binomial_distribution` and `non_central_chi_squared_distribution`, for `RealType` = `double`.
-/

namespace Boost.Random

section
variable {K σ : Type} [Field K] [LinearOrder K]

namespace Gamma

/-- The members of `gamma_distribution`; gamma_distribution.hpp:278-282. The exponential distribution has the parameter 1 and no other state. -/
structure Dist (K : Type) where
  alpha : K
  beta : K
  p : K

/-- The constructor, with `init`; gamma_distribution.hpp:113-120, 268-275. -/
def init (o : RealOps K) (alpha beta : K) : Dist K := { alpha, beta, p := o.fl (o.exp 1 / o.fl (alpha + o.exp 1)) }

/-- `pi`; gamma_distribution.hpp:173. -/
def pi (o : RealOps K) : K := o.fl (314159265358979323846 / 10 ^ 20)

/-- `_exp(eng)`; gamma_distribution.hpp:170, 191 and exponential_distribution.hpp:333-337. -/
def expo (o : RealOps K) (N : Numbers K σ) (s : σ) : Run σ K := (N.expo s).bind fun v s => .done (o.fl (v / 1)) s

/-- `sqrt(result_type(2)*_alpha-result_type(1))`; gamma_distribution.hpp:176, 183-184. -/
def scale (o : RealOps K) (alpha : K) : K := o.sqrt (o.fl (o.fl (2 * alpha) - 1))

/-- `x`; gamma_distribution.hpp:176-177. -/
def proposal (o : RealOps K) (alpha y : K) : K := o.fl (o.fl (o.fl (scale o alpha * y) + alpha) - 1)

/-- The right-hand side of the comparison; gamma_distribution.hpp:181-184. -/
def bound (o : RealOps K) (alpha x y : K) : K :=
  o.fl (o.fl (1 + o.fl (y * y)) *
    o.exp (o.fl (o.fl (o.fl (alpha - 1) * o.log (o.fl (x / o.fl (alpha - 1)))) - o.fl (scale o alpha * y))))

/-- The loop for `_alpha > 1`, at most `n` iterations; gamma_distribution.hpp:174-187. -/
def large (o : TrigOps K) (d : Dist K) (N : Numbers K σ) : (n : Nat) → σ → Run σ K
  | 0, _ => .more
  | n + 1, s =>
    (N.unif s).bind fun u s =>
      let y := o.tan (o.fl (pi o.toRealOps * u))
      let x := proposal o.toRealOps d.alpha y
      if x ≤ 0 then large o d N n s
      else
        (N.unif s).bind fun w s => if bound o.toRealOps d.alpha x y < w then large o d N n s else .done (o.fl (x * d.beta)) s

/-- `x` and `q`; gamma_distribution.hpp:192-199. -/
def candidate (o : RealOps K) (d : Dist K) (u y : K) : K × K :=
  if u < d.p then
    let x := o.exp (o.fl (-y / d.alpha))
    (x, o.fl (d.p * o.exp (-x)))
  else
    let x := o.fl (1 + y)
    (x, o.fl (d.p + o.fl (o.fl (1 - d.p) * o.pow x (o.fl (d.alpha - 1)))))

/-- The loop for `_alpha < 1`, at most `n` iterations; gamma_distribution.hpp:189-203. -/
def small (o : RealOps K) (d : Dist K) (N : Numbers K σ) : (n : Nat) → σ → Run σ K
  | 0, _ => .more
  | n + 1, s =>
    (N.unif s).bind fun u s =>
      (expo o N s).bind fun y s =>
        let c := candidate o d u y
        if c.2 ≤ u then small o d N n s else .done (o.fl (c.1 * d.beta)) s

/-- `gamma_distribution::operator()`, at most `n` iterations of a loop; gamma_distribution.hpp:162-205. -/
def generate (o : TrigOps K) (d : Dist K) (N : Numbers K σ) (n : Nat) (s : σ) : Run σ K :=
  if d.alpha = 1 then (expo o.toRealOps N s).bind fun v s => .done (o.fl (v * d.beta)) s
  else if 1 < d.alpha then large o d N n s
  else small o.toRealOps d N n s

end Gamma

/-- What the other distributions read: the numbers of `Numbers`, `gamma_distribution<RealType>(alpha, beta)(eng)` and
`poisson_distribution<>(mean)(eng)`. -/
structure Compound (K σ : Type) extends Numbers K σ where
  gamma : K → K → σ → Run σ K
  poisson : K → σ → Run σ Int

/-- The first values of `uniform_01`, each with the state of the engine after it. An undefined behaviour ends the list: `engineNumbers` has
none on the engines of the library. -/
def uniforms (unif : σ → Run σ K) : Nat → σ → List (K × σ)
  | 0, _ => []
  | n + 1, s =>
    match unif s with
    | .done u s => (u, s) :: uniforms unif n s
    | _ => []

/-- A distribution that reads values of `uniform_01` from a list, run on an engine. -/
def Numbers.draws {α : Type} (N : Numbers K σ) (n : Nat) (f : List K → Draws K α) (s : σ) : Run σ α :=
  let l := uniforms N.unif n s
  match f (l.map Prod.fst) with
  | .done v rest => .done v (((l.take (l.length - rest.length)).getLast?.map Prod.snd).getD s)
  | .more => .more
  | .ub => .ub

/-- The numbers of an engine, with at most `n` iterations of each loop. -/
def engineCompound (o : TrigOps ℚ) (E : EngInfo) (n : Nat) : Compound ℚ (List Int) where
  toNumbers := engineNumbers o.toRealOps E n
  gamma a b := Gamma.generate o (Gamma.init o.toRealOps a b) (engineNumbers o.toRealOps E n) n
  poisson mean := (engineNumbers o.toRealOps E n).draws n (Poisson.next o.toRealOps 32 (Poisson.init o.toRealOps mean))

variable (o : RealOps K)

namespace ChiSquared

/-- The parameter of the gamma distribution; chi_squared_distribution.hpp:92-95. -/
def half (n : K) : K := o.fl (n / 2)

/-- `n()`; chi_squared_distribution.hpp:127. -/
def n (n : K) : K := o.fl (2 * half o n)

/-- `chi_squared_distribution::operator()`; chi_squared_distribution.hpp:111-114. -/
def generate (n : K) (C : Compound K σ) (s : σ) : Run σ K := (C.gamma (half o n) 1 s).bind fun v s => .done (o.fl (2 * v)) s

end ChiSquared

/-- `beta_distribution::operator()`; beta_distribution.hpp:102-107. -/
def Beta.generate (alpha beta : K) (C : Compound K σ) (s : σ) : Run σ (Ieee K) :=
  (C.gamma alpha 1 s).bind fun a s => (C.gamma beta 1 s).bind fun b s => .done (Ieee.div o (.fin a) (.fin (o.fl (a + b)))) s

/-- Two calls whose order the language leaves open. -/
def Run.both {α β γ : Type} (leftFirst : Bool) (f : σ → Run σ α) (g : σ → Run σ β) (h : α → β → γ) (s : σ) : Run σ γ :=
  if leftFirst then (f s).bind fun a s => (g s).bind fun b s => .done (h a b) s
  else (g s).bind fun b s => (f s).bind fun a s => .done (h a b) s

/-- `fisher_f_distribution::operator()`; fisher_f_distribution.hpp:101-104. The order of the two calls of the distributions is unspecified. -/
def FisherF.generate (leftFirst : Bool) (m n : K) (C : Compound K σ) : σ → Run σ (Ieee K) :=
  Run.both leftFirst (ChiSquared.generate o m C) (ChiSquared.generate o n C) fun x y =>
    Ieee.div o (.fin (o.fl (x * ChiSquared.n o n))) (.fin (o.fl (y * ChiSquared.n o m)))

/-- `student_t_distribution::operator()`; student_t_distribution.hpp:96-100. The order of the two calls of the distributions is unspecified. -/
def StudentT.generate (leftFirst : Bool) (n : K) (C : Compound K σ) : σ → Run σ (Ieee K) :=
  Run.both leftFirst (C.toNumbers.normal o 0 1) (ChiSquared.generate o n C) fun x y =>
    Ieee.div o (.fin x) (Ieee.sqrt o (Ieee.div o (.fin y) (.fin (ChiSquared.n o n))))

/-- `negative_binomial_distribution::operator()`; negative_binomial_distribution.hpp:117-122. The assertions of the constructors of
`gamma_distribution` (gamma_distribution.hpp:117-118) and `poisson_distribution` (poisson_distribution.hpp:130) are undefined behaviour when
they fail. So is `_p = 0`: the mean of `poisson_distribution` would be infinite. -/
def NegativeBinomial.generate (k : Int) (p : K) (C : Compound K σ) (s : σ) : Run σ Int :=
  let beta := o.fl (o.fl (1 - p) / p)
  if p = 0 ∨ ¬ (0 : K) < k ∨ ¬ 0 < beta then .ub
  else (C.gamma (o.fl k) beta s).bind fun mean s => if 0 < mean then C.poisson mean s else .ub

/-- `non_central_chi_squared_distribution::operator()`; non_central_chi_squared_distribution.hpp:142-160. -/
def NonCentralChiSquared.generate (k lambda : K) (C : Compound K σ) (s : σ) : Run σ K :=
  if 1 < k then
    (C.toNumbers.normal o 0 1 s).bind fun z s =>
      (ChiSquared.generate o (o.fl (k - 1)) C s).bind fun x s =>
        let term1 := o.fl (z + o.sqrt lambda)
        .done (o.fl (o.fl (term1 * term1) + x)) s
  else
    (C.poisson (o.fl (lambda / 2)) s).bind fun p s => ChiSquared.generate o (o.fl (k + o.fl (2 * (p : K)))) C s

end

end Boost.Random
