/-!
# `variate_generator` and `ptr_helper`

Model of `include/boost/random/variate_generator.hpp` and `include/boost/random/detail/ptr_helper.hpp`, and of programs that use engines and
variate generators. An engine is its state; a call of a distribution is a function of the states of the distribution and of the engine. The
variables of the program that hold engines are the addresses; they can be destroyed while generators refer to them.
-/

namespace Boost.Random
namespace Vg

/-- The forms `U`, `U&` and `U*` of the template argument `Engine`; variate_generator.hpp:36-39. -/
inductive Form where
  | value
  | reference
  | pointer
  deriving DecidableEq, Repr

/-- The member `_eng` of type `Engine`; variate_generator.hpp:110. A reference or pointer is the address of an engine. -/
inductive Member (E : Type) where
  | value (e : E)
  | reference (a : Nat)
  | pointer (a : Nat)
  deriving Repr

/-- The members of `variate_generator`; variate_generator.hpp:110-111. -/
structure Gen (E D : Type) where
  eng : Member E
  dist : D
  deriving Repr

/-- The variables of a program: the engines (`none`: no object is alive there) and the variate generators. -/
structure Vars (E D : Type) where
  engines : Nat → Option E
  gens : Nat → Option (Gen E D)

/-- The result of a part of a program. `illFormed`: it does not compile. -/
inductive Res (α : Type) where
  | ok (v : α)
  | ub
  | illFormed
  deriving Repr

section
variable {E D T R : Type}

/-- Replacing what is at an address. -/
def put {α : Type} (f : Nat → Option α) (a : Nat) (v : Option α) : Nat → Option α := fun b => if b = a then v else f b

/-- `variate_generator(Engine e, Distribution d) : _eng(e), _dist(d)`, called with the engine variable `a` (or its address); variate_generator.hpp:69-70.
The arguments are passed by value: an engine of the form `U` is copied. Binding a reference to, or copying, an object that is not alive is undefined. -/
def construct (s : Vars E D) (k : Form) (a : Nat) (d : D) : Res (Gen E D) :=
  match k, s.engines a with
  | .value, some e => .ok ⟨.value e, d⟩
  | .reference, some _ => .ok ⟨.reference a, d⟩
  | .pointer, _ => .ok ⟨.pointer a, d⟩
  | _, none => .ub

/-- `engine()`, that is, `helper_type::ref(_eng)`, read as a value; variate_generator.hpp:83-87, ptr_helper.hpp:25-53. `none`: there is no object. -/
def engine (s : Vars E D) (g : Gen E D) : Option E :=
  match g.eng with
  | .value e => some e
  | .reference a => s.engines a
  | .pointer a => s.engines a

/-- Writing through the reference returned by `engine()` of the generator at `i`, whose distribution becomes `d`; variate_generator.hpp:83, ptr_helper.hpp:25-53. -/
def write (s : Vars E D) (i : Nat) (g : Gen E D) (e : E) (d : D) : Vars E D :=
  match g.eng with
  | .value _ => { s with gens := put s.gens i (some ⟨.value e, d⟩) }
  | .reference a => ⟨put s.engines a (some e), put s.gens i (some ⟨.reference a, d⟩)⟩
  | .pointer a => ⟨put s.engines a (some e), put s.gens i (some ⟨.pointer a, d⟩)⟩

/-- `operator()()` and `operator()(value)`: `_dist(engine())` and `_dist(engine(), value)`; variate_generator.hpp:73-78. `call d e v` are the result and the new states. -/
def invoke (call : D → E → Option T → R × D × E) (s : Vars E D) (i : Nat) (v : Option T) : Res (Vars E D × R) :=
  match s.gens i with
  | none => .ub
  | some g =>
    match engine s g with
    | none => .ub
    | some e =>
      let r := call g.dist e v
      .ok (write s i g r.2.2 r.2.1, r.1)

/-- `i = j` for generators: the copy assignment generated by the compiler assigns the members. It is deleted if a member is a reference; different forms
are different types; variate_generator.hpp:42-44, 110-111. -/
def assign (s : Vars E D) (i j : Nat) : Res (Vars E D) :=
  match s.gens i, s.gens j with
  | some g, some h =>
    match g.eng, h.eng with
    | .value _, .value _ => .ok { s with gens := put s.gens i (some h) }
    | .pointer _, .pointer _ => .ok { s with gens := put s.gens i (some h) }
    | _, _ => .illFormed
  | _, _ => .ub

/-- What a program can do. `useEngine a f` is the use of the engine variable itself (calling it, seeding it, reading it); `engineOf i f` is the same through
`engine()` of a generator, `distOf i f` a use of `distribution()`. -/
inductive Act (E D T : Type) where
  | newEngine (a : Nat) (e : E)
  | dropEngine (a : Nat)
  | useEngine (a : Nat) (f : E → E)
  | make (i : Nat) (k : Form) (a : Nat) (d : D)
  | copy (i j : Nat)
  | assign (i j : Nat)
  | dropGen (i : Nat)
  | call (i : Nat) (v : Option T)
  | engineOf (i : Nat) (f : E → E)
  | distOf (i : Nat) (f : D → D)

/-- One action; the result of a call of generator `i` is `(i, r)`. Copying a generator copies its members; variate_generator.hpp:41-42. -/
def step (cl : D → E → Option T → R × D × E) (s : Vars E D) : Act E D T → Res (Vars E D × List (Nat × R))
  | .newEngine a e => .ok ({ s with engines := put s.engines a (some e) }, [])
  | .dropEngine a => match s.engines a with
    | none => .ub
    | some _ => .ok ({ s with engines := put s.engines a none }, [])
  | .useEngine a f => match s.engines a with
    | none => .ub
    | some e => .ok ({ s with engines := put s.engines a (some (f e)) }, [])
  | .make i k a d => match construct s k a d with
    | .ok g => .ok ({ s with gens := put s.gens i (some g) }, [])
    | .ub => .ub
    | .illFormed => .illFormed
  | .copy i j => match s.gens j with
    | none => .ub
    | some g => .ok ({ s with gens := put s.gens i (some g) }, [])
  | .assign i j => match assign s i j with
    | .ok s' => .ok (s', [])
    | .ub => .ub
    | .illFormed => .illFormed
  | .dropGen i => match s.gens i with
    | none => .ub
    | some _ => .ok ({ s with gens := put s.gens i none }, [])
  | .call i v => match invoke cl s i v with
    | .ok (s', r) => .ok (s', [(i, r)])
    | .ub => .ub
    | .illFormed => .illFormed
  | .engineOf i f => match s.gens i with
    | none => .ub
    | some g => match engine s g with
      | none => .ub
      | some e => .ok (write s i g (f e) g.dist, [])
  | .distOf i f => match s.gens i with
    | none => .ub
    | some g => .ok ({ s with gens := put s.gens i (some ⟨g.eng, f g.dist⟩) }, [])

/-- A program: its actions in order, and the results of all calls. -/
def run (cl : D → E → Option T → R × D × E) : Vars E D → List (Act E D T) → Res (Vars E D × List (Nat × R))
  | s, [] => .ok (s, [])
  | s, x :: xs => match step cl s x with
    | .ok (s', o) => match run cl s' xs with
      | .ok (s'', o') => .ok (s'', o ++ o')
      | .ub => .ub
      | .illFormed => .illFormed
    | .ub => .ub
    | .illFormed => .illFormed

end

end Vg
end Boost.Random
