import Verif.Model.Variates

/-!
# `uniform_on_sphere`

Model of `include/boost/random/uniform_on_sphere.hpp` for `Cont` = `std::vector<RealType>` and `RealType` = `double`. A vector is the list of its
elements. An exception of `std::vector` is the outcome `none`.
-/

namespace Boost.Random.Sphere

section
variable {K σ : Type} [Field K] [LinearOrder K]

/-- The members of `uniform_on_sphere`; uniform_on_sphere.hpp:278-279. -/
structure Dist (K : Type) where
  container : List K
  dim : Int
  deriving DecidableEq

/-- `std::vector(n)`: an exception if `n` is negative, its conversion to `std::size_t` being greater than `max_size()`. -/
def vector (n : Int) : Option (List K) := if 0 ≤ n then some (List.replicate n.toNat 0) else none

/-- `std::vector::resize(n)`. -/
def resize (l : List K) (n : Int) : Option (List K) := if 0 ≤ n then some (l.take n.toNat ++ List.replicate (n.toNat - l.length) 0) else none

/-- `uniform_on_sphere(dim)`; uniform_on_sphere.hpp:95-96. -/
def ofDim (dim : Int) : Option (Dist K) := (vector dim).map fun c => ⟨c, dim⟩

/-- `uniform_on_sphere()`; uniform_on_sphere.hpp:95-96. -/
def default : Option (Dist K) := ofDim 2

/-- `param_type(dim)`: the assertion; uniform_on_sphere.hpp:56-59. `none`: it fails. A `param_type` is its member `_dim`. -/
def paramOf (dim : Int) : Option Int := if 0 ≤ dim then some dim else none

/-- `uniform_on_sphere(parm)`; uniform_on_sphere.hpp:101-102. -/
def ofParam (parm : Int) : Option (Dist K) := (vector parm).map fun c => ⟨c, parm⟩

/-- `param()`; uniform_on_sphere.hpp:110. -/
def param (d : Dist K) : Option Int := paramOf d.dim

/-- `param(parm)`: the object after the call, and whether the call returns; uniform_on_sphere.hpp:112-116. -/
def setParam (d : Dist K) (parm : Int) : Dist K × Bool :=
  match resize d.container parm with
  | some c => (⟨c, parm⟩, true)
  | none => (⟨d.container, parm⟩, false)

/-- `operator<<`: the number that is written; uniform_on_sphere.hpp:250-254. -/
def write (d : Dist K) : Int := d.dim

/-- `operator>>` when `is >> sd._dim` reads the number `v`: the object after the call, and whether the call returns;
uniform_on_sphere.hpp:257-262. -/
def read (d : Dist K) (v : Int) : Dist K × Bool :=
  match resize d.container v with
  | some c => (⟨c, v⟩, true)
  | none => (⟨d.container, v⟩, false)

/-- `operator==`; uniform_on_sphere.hpp:268-269. -/
def eq (a b : Dist K) : Bool := a.dim == b.dim

/-- `result.front() = v`. An empty vector has no front: undefined behaviour. -/
def setFront (l : List K) (v : K) : Option (List K) :=
  match l with
  | [] => none
  | _ :: t => some (v :: t)

/-- `min()`; uniform_on_sphere.hpp:126-133. -/
def min (d : Dist K) : Option (List K) := (vector d.dim).bind fun l => if d.dim ≠ 0 then setFront l (-1) else some l

/-- `max()`; uniform_on_sphere.hpp:142-149. -/
def max (d : Dist K) : Option (List K) := (vector d.dim).bind fun l => if d.dim ≠ 0 then setFront l 1 else some l

/-- Writing elements through an iterator from `_container.begin()`. Past the end it is undefined behaviour. -/
def store (l vs : List K) : Option (List K) := if vs.length ≤ l.length then some (vs ++ l.drop vs.length) else none

variable (o : RealOps K)

/-- `uniform(eng) * 2 - 1`; uniform_on_sphere.hpp:183, 184, 200, 201. -/
def side (u : K) : K := o.fl (o.fl (u * 2) - 1)

/-- `x*x + y*y`; uniform_on_sphere.hpp:185, 202. -/
def square (x y : K) : K := o.fl (o.fl (x * x) + o.fl (y * y))

/-- The loop that finds a point of the disc, at most `n` iterations: `x`, `y` and `sqsum`; uniform_on_sphere.hpp:182-186. Without the test of
`sqsum == 0`, by `zero`, it is the loop of lines 199-203. -/
def disc (zero : Bool) (N : Numbers K σ) : (n : Nat) → σ → Run σ (K × K × K)
  | 0, _ => .more
  | n + 1, s =>
    (N.unif s).bind fun u s =>
      (N.unif s).bind fun v s =>
        let x := side o u
        let y := side o v
        let sqsum := square o x y
        if (zero = true ∧ sqsum = 0) ∨ 1 < sqsum then disc zero N n s else .done (x, y, sqsum) s

/-- The point for `_dim = 2`; uniform_on_sphere.hpp:187-191. -/
def circle (x y sqsum : K) : List K :=
  let mult := o.fl (1 / o.sqrt sqsum)
  [o.fl (x * mult), o.fl (y * mult)]

/-- The point for `_dim = 3`; uniform_on_sphere.hpp:204-210. -/
def globe (x y sqsum : K) : List K :=
  let mult := o.fl (2 * o.sqrt (o.fl (1 - sqsum)))
  [o.fl (x * mult), o.fl (y * mult), o.fl (o.fl (2 * sqsum) - 1)]

/-- The loop that fills the container with normal numbers: `sqsum` and the container; uniform_on_sphere.hpp:219-225. -/
def fill (N : Numbers K σ) : (container : List K) → (sqsum : K) → σ → Run σ (K × List K)
  | [], sqsum, s => .done (sqsum, []) s
  | _ :: rest, sqsum, s =>
    (N.norm s).bind fun val s => (fill N rest (o.fl (sqsum + o.fl (val * val))) s).bind fun r s => .done (r.1, val :: r.2) s

/-- The loop around it, at most `n` iterations; uniform_on_sphere.hpp:217-226. -/
def direction (N : Numbers K σ) (container : List K) : (n : Nat) → σ → Run σ (K × List K)
  | 0, _ => .more
  | n + 1, s => (fill o N container 0 s).bind fun r s => if r.1 = 0 then direction N r.2 n s else .done r s

/-- The division; uniform_on_sphere.hpp:228-233. -/
def scaled (sqsum : K) (container : List K) : List K :=
  let inverse := o.fl (1 / o.sqrt sqsum)
  container.map fun v => o.fl (v * inverse)

/-- The end of the function: the elements that were written. -/
def finish (d : Dist K) (vs : List K) (s : σ) : Run σ (Dist K) :=
  match store d.container vs with
  | some c => .done ⟨c, d.dim⟩ s
  | none => .ub

/-- `operator()(eng)`, at most `n` iterations of a loop: the object after the call, its member `_container` being the result;
uniform_on_sphere.hpp:162-237. -/
def generate (N : Numbers K σ) (n : Nat) (d : Dist K) (s : σ) : Run σ (Dist K) :=
  if d.dim = 0 then .done d s
  else if d.dim = 1 then (N.unif s).bind fun u s => finish d [if u < o.fl (1 / 2) then -1 else 1] s
  else if d.dim = 2 then (disc o true N n s).bind fun r s => finish d (circle o r.1 r.2.1 r.2.2) s
  else if d.dim = 3 then (disc o false N n s).bind fun r s => finish d (globe o r.1 r.2.1 r.2.2) s
  else (direction o N d.container n s).bind fun r s => .done ⟨scaled o r.1 r.2, d.dim⟩ s

/-- `operator()(eng, parm)`; uniform_on_sphere.hpp:244-247. The exception of the constructor is the outcome `ub`. -/
def generateWith (N : Numbers K σ) (n : Nat) (parm : Int) (s : σ) : Run σ (List K) :=
  match ofParam parm with
  | some d => (generate o N n d s).bind fun d s => .done d.container s
  | none => .ub

end

end Boost.Random.Sphere
