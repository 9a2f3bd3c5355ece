import Verif.Model.RealOps
import Verif.Model.RealDist
import Verif.Model.ZigguratTables

/-!
# `exponential_distribution` and `normal_distribution`

Both are ziggurat algorithms that read `generate_int_float_pair<RealType, 8>` and `uniform_01`. The tables hold values of type `double`, the
model is of `RealType` = `double`. A source stands for the engine together with these two functions, so that the same model runs on the
engines of `Verif.Model.RealDist` and on ideal uniform numbers.
-/

namespace Boost.Random

/-- The outcome of code that reads a source: a value and the new state of the source, not finished within the given number of iterations or
with the given input, or undefined behaviour. -/
inductive Run (σ α : Type) where
  | done (v : α) (s : σ)
  | more
  | ub

/-- Using the result of one function in the next. -/
def Run.bind {σ α β : Type} (r : Run σ α) (f : α → σ → Run σ β) : Run σ β :=
  match r with
  | .done v s => f v s
  | .more => .more
  | .ub => .ub

/-- The same outcome for a source whose state is the list of the results of an engine. -/
def Draw.run {α : Type} : Draw α → Run (List Int) α
  | .done v rest => .done v rest
  | .more => .more
  | .ub => .ub

/-- What the two distributions read: `generate_int_float_pair<RealType, 8>(eng)`, `uniform_01<RealType>()(eng)` and
`unit_exponential_distribution<RealType>()(eng)`. The last is itself defined by the first two, see `engineSource`. -/
structure Source (K σ : Type) where
  pair : σ → Run σ (K × Nat)
  unif : σ → Run σ K
  expo : σ → Run σ K

section
variable {K σ : Type} [Field K] [LinearOrder K] (o : RealOps K)

/-- An element of a table, a `double`; reading beyond the end is undefined behaviour. -/
def entry (t : List Nat) (i : Nat) : Option K := t[i]?.map fun n => o.fl ((n : K) / 10 ^ 23)

namespace Exponential

/-- `f`; exponential_distribution.hpp:219-222. -/
def f (x : K) : K := o.exp (-x)

/-- The test whether the point is below the curve; exponential_distribution.hpp:198-213. The arguments are the elements `i` and `i + 1` of the
tables. -/
def accept (xi xj yi yj x y01 : K) : Bool :=
  let y := o.fl (yi + o.fl (y01 * o.fl (yj - yi)))
  let aboveU := o.fl (o.fl (o.fl (xi - xj) * y01) - o.fl (xi - x))
  let aboveL := o.fl (y - o.fl (yj + o.fl (o.fl (xj - x) * yj)))
  decide (aboveU < 0) && (decide (aboveL < 0) || decide (y < f o x))

/-- One iteration of the loop: a result, or the shift for the next iteration; exponential_distribution.hpp:189-217. -/
def iter (S : Source K σ) (shift : K) (s : σ) : Run σ (K ⊕ K) :=
  (S.pair s).bind fun (u, i) s =>
    match entry o tableX i, entry o tableX (i + 1), entry o tableX 1 with
    | some xi, some xj, some x1 =>
      let x := o.fl (u * xi)
      if x < xj then .done (.inl (o.fl (shift + x))) s
      else if i = 0 then .done (.inr (o.fl (shift + x1))) s
      else
        match entry o tableY i, entry o tableY (i + 1) with
        | some yi, some yj =>
          (S.unif s).bind fun y01 s =>
            if accept o xi xj yi yj x y01 then .done (.inl (o.fl (x + shift))) s else .done (.inr shift) s
        | _, _ => .ub
    | _, _, _ => .ub

/-- The loop of `unit_exponential_distribution::operator()`, at most `n` iterations; exponential_distribution.hpp:184-218. It is called with
`shift = 0`. -/
def unit (S : Source K σ) : (n : Nat) → (shift : K) → σ → Run σ K
  | 0, _, _ => .more
  | n + 1, shift, s =>
    (iter o S shift s).bind fun r s =>
      match r with
      | .inl v => .done v s
      | .inr shift => unit S n shift s

/-- `exponential_distribution::operator()`; exponential_distribution.hpp:333-337. -/
def generate (lambda : K) (S : Source K σ) (s : σ) : Run σ K := (S.expo s).bind fun v s => .done (o.fl (v / lambda)) s

end Exponential

namespace Normal

/-- `f`; normal_distribution.hpp:178-181. -/
def f (x : K) : K := o.exp (-o.fl (o.fl (x * x) / 2))

/-- The test whether the point is below the curve; normal_distribution.hpp:135-174. -/
def accept (xi xj yi yj x y01 : K) : Bool :=
  let y := o.fl (yi + o.fl (y01 * o.fl (yj - yi)))
  let diagonal := o.fl (o.fl (o.fl (xi - xj) * y01) - o.fl (xi - x))
  let tangent := o.fl (y - o.fl (yi + o.fl (o.fl (o.fl (xi - x) * yi) * xi)))
  let aboveU := if 1 ≤ xi then diagonal else tangent
  let aboveL := if 1 ≤ xi then tangent else diagonal
  decide (aboveU < 0) && (decide (aboveL < 0) || decide (y < f o x))

/-- The loop of `generate_tail`, at most `n` iterations; normal_distribution.hpp:188-200. -/
def tail (S : Source K σ) : (n : Nat) → σ → Run σ K
  | 0, _ => .more
  | n + 1, s =>
    match entry o tableX 1 with
    | none => .ub
    | some x1 =>
      (Exponential.generate o x1 S s).bind fun x s =>
        (Exponential.generate o 1 S s).bind fun y s => if o.fl (x * x) < o.fl (2 * y) then .done (o.fl (x + x1)) s else tail S n s

/-- One iteration of the loop: a result, or nothing; normal_distribution.hpp:126-176. `n` bounds the iterations of `generate_tail`. -/
def iter (S : Source K σ) (n : Nat) (s : σ) : Run σ (Option K) :=
  (S.pair s).bind fun (u, b) s =>
    let sign : K := if b % 2 = 1 then 1 else -1
    let i := b / 2
    match entry o tableX i, entry o tableX (i + 1) with
    | some xi, some xj =>
      let x := o.fl (u * xi)
      if x < xj then .done (some (o.fl (x * sign))) s
      else if i = 0 then (tail o S n s).bind fun v s => .done (some (o.fl (v * sign))) s
      else
        match entry o tableY i, entry o tableY (i + 1) with
        | some yi, some yj =>
          (S.unif s).bind fun y01 s =>
            if accept o xi xj yi yj x y01 then .done (some (o.fl (x * sign))) s else .done none s
        | _, _ => .ub
    | _, _ => .ub

/-- The loop of `unit_normal_distribution::operator()`, at most `n` iterations; normal_distribution.hpp:123-177. -/
def unit (S : Source K σ) : (n : Nat) → σ → Run σ K
  | 0, _ => .more
  | n + 1, s =>
    (iter o S n s).bind fun r s =>
      match r with
      | some v => .done v s
      | none => unit S n s

/-- `normal_distribution::operator()`; normal_distribution.hpp:321-325. -/
def generate (mean sigma : K) (S : Source K σ) (n : Nat) (s : σ) : Run σ K :=
  (unit o S n s).bind fun v s => .done (o.fl (o.fl (v * sigma) + mean)) s

end Normal
end

/-- The source of an engine: `RealType` has 53 bits, `n` bounds the iterations of a loop of `unit_exponential_distribution`. -/
def engineSource (o : RealOps ℚ) (E : EngInfo) (n : Nat) : Source ℚ (List Int) where
  pair xs := (RealDist.intFloatPair o.fl E 53 8 xs).run
  unif xs := (RealDist.uniform01 o.fl E xs).run
  expo xs := Exponential.unit o
    { pair := fun xs => (RealDist.intFloatPair o.fl E 53 8 xs).run, unif := fun xs => (RealDist.uniform01 o.fl E xs).run, expo := fun _ => .ub } n 0 xs

end Boost.Random
