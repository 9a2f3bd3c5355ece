import Verif.Model.RealDist

/-!
# Both forms of `uniform_01` with the integral promotions

Model of `new_uniform_01` and `backward_compatible_uniform_01` in `include/boost/random/uniform_01.hpp` for integral engines of every width. The model in
`Verif/Model/RealDist.lean` is of `new_uniform_01` for result types not narrower than `int`; here narrower ones (`short`, `signed char` and their unsigned
forms) are covered: their values are converted to `int` before a subtraction, and only the new form converts the difference back. As there, floating-point
numbers are rationals and `fl` rounds.
-/

namespace Boost.Random
namespace OldUniform01

/-- `x - y` for operands of type `T`: types narrower than `int` (32 bits) are promoted to `int`, where their differences fit. -/
def minus (T : IntTy) (x y : Int) : Option Int := if T.bits < 32 then some (x - y) else RealDist.subTy T x y

/-- `T(v)`: conversion of an integer to the integer type `T`, modulo a power of two. -/
def convert (T : IntTy) (v : Int) : Int := castT T (v % 2 ^ T.bits).toNat

section
variable (fl : ℚ → ℚ)

/-- `new_uniform_01::operator()`; uniform_01.hpp:91-102. Division by zero is undefined behaviour (it gives an infinity under IEC 559). -/
def new (E : EngInfo) : List Int → Draw ℚ
  | [] => .more
  | x :: xs =>
    match minus E.ty E.max E.min, minus E.ty x E.min with
    | some r, some d =>
      let den := fl (fl (convert E.ty r) + fl 1)
      if den = 0 then .ub
      else
        let factor := fl (1 / den)
        let result := fl (fl (convert E.ty d) * factor)
        if result < 1 then .done result xs else new E xs
    | _, _ => .ub

/-- The members of `backward_compatible_uniform_01`: the engine (whose state is the list of the values it returns next) and `_factor`; uniform_01.hpp:176-179. -/
structure Old where
  rng : List Int
  factor : ℚ

/-- `backward_compatible_uniform_01(rng)`; uniform_01.hpp:135-141. The outcome `none` is undefined behaviour. -/
def Old.make (E : EngInfo) (rng : List Int) : Option Old :=
  (minus E.ty E.max E.min).bind fun r =>
    let den := fl (fl r + fl 1)
    if den = 0 then none else some ⟨rng, fl (1 / den)⟩

/-- The loop of `operator()()`; uniform_01.hpp:150-156. -/
def Old.loop (E : EngInfo) (factor : ℚ) : List Int → Draw ℚ
  | [] => .more
  | x :: xs =>
    match minus E.ty x E.min with
    | some d =>
      let result := fl (fl d * factor)
      if result < 1 then .done result xs else Old.loop E factor xs
    | none => .ub

/-- `operator()()`: the result and the object after the call. -/
def Old.next (E : EngInfo) (u : Old) : Draw ℚ := Old.loop fl E u.factor u.rng

/-- `n` calls of `operator()()` of one object; the values and the rest of the engine values. -/
def Old.calls (E : EngInfo) : Nat → Old → Option (List ℚ × Old)
  | 0, u => some ([], u)
  | n + 1, u =>
    match Old.next fl E u with
    | .done v rest => (Old.calls E n { u with rng := rest }).map fun r => (v :: r.1, r.2)
    | _ => none

/-- `n` calls of a `new_uniform_01` on an engine. -/
def newCalls (E : EngInfo) : Nat → List Int → Option (List ℚ × List Int)
  | 0, xs => some ([], xs)
  | n + 1, xs =>
    match new fl E xs with
    | .done v rest => (newCalls E n rest).map fun r => (v :: r.1, r.2)
    | _ => none

end

end OldUniform01
end Boost.Random
