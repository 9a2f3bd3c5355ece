import Mathlib.Logic.Function.Basic
import Verif.Model.VariateGenerator

/-!
# What a program with variate generators should do

A distribution called again and again on one engine; several distributions called in turns on one engine.
-/

namespace Boost.Random
namespace Spec
namespace Vg

open Boost.Random.Vg (Act Form)

variable {E D T R : Type}

/-- A distribution in state `d` called on an engine in state `e` with the arguments in the list: the results and the final states. -/
def alone (cl : D → E → Option T → R × D × E) : D → E → List (Option T) → List R × D × E
  | d, e, [] => ([], d, e)
  | d, e, v :: vs =>
    let r := cl d e v
    let t := alone cl r.2.1 r.2.2 vs
    (r.1 :: t.1, t.2)

/-- The arguments of the calls of generator `i` in a program. -/
def callsOf (i : Nat) (p : List (Act E D T)) : List (Option T) :=
  p.filterMap fun x => match x with
    | .call j v => if j = i then some v else none
    | _ => none

/-- The results of generator `i` among the results of a program. -/
def resultsOf (i : Nat) (o : List (Nat × R)) : List R := (o.filter (·.1 = i)).map (·.2)

/-- The action makes, replaces, destroys or gives access to the inside of generator `i`. -/
def Touches (i : Nat) : Act E D T → Prop
  | .make j _ _ _ => j = i
  | .copy j _ => j = i
  | .assign j _ => j = i
  | .dropGen j => j = i
  | .engineOf j _ => j = i
  | .distOf j _ => j = i
  | _ => False

/-- What happens to an engine that several distributions share: distribution `i` is called, or the engine is used otherwise. -/
inductive Event (E T : Type) where
  | call (i : Nat) (v : Option T)
  | use (f : E → E)

/-- Distributions with states `ds` share one engine in state `e`: the results in the order of the calls, and the final states. -/
def shared (cl : D → E → Option T → R × D × E) : (Nat → D) → E → List (Event E T) → List (Nat × R) × (Nat → D) × E
  | ds, e, [] => ([], ds, e)
  | ds, e, .use f :: xs => shared cl ds (f e) xs
  | ds, e, .call i v :: xs =>
    let r := cl (ds i) e v
    let t := shared cl (Function.update ds i r.2.1) r.2.2 xs
    ((i, r.1) :: t.1, t.2)

/-- The events of engine `a` in a program, if the generators in `B` are those that refer to it. -/
def events (a : Nat) (B : Nat → Bool) (p : List (Act E D T)) : List (Event E T) :=
  p.filterMap fun x => match x with
    | .call i v => if B i then some (.call i v) else none
    | .useEngine b f => if b = a then some (.use f) else none
    | .engineOf i f => if B i then some (.use f) else none
    | _ => none

/-- The action leaves it as it is which generators refer to engine `a`, those in `B`, and does not end or restart the life of the engine. -/
def Keeps (a : Nat) (B : Nat → Bool) : Act E D T → Prop
  | .newEngine b _ => b ≠ a
  | .dropEngine b => b ≠ a
  | .make i k b _ => B i = false ∧ (b = a → k = .value)
  | .copy i j => B i = false ∧ B j = false
  | .assign i j => B i = false ∧ B j = false
  | .dropGen i => B i = false
  | .distOf i _ => B i = false
  | _ => True

/-- The program names only engines and generators that exist (those in `A` and `G` at the start), destroys no engine and assigns no generator. -/
def Names : (A G : Nat → Prop) → List (Act E D T) → Prop
  | _, _, [] => True
  | A, G, .newEngine a _ :: p => Names (fun b => b = a ∨ A b) G p
  | _, _, .dropEngine _ :: _ => False
  | A, G, .useEngine a _ :: p => A a ∧ Names A G p
  | A, G, .make i _ a _ :: p => A a ∧ Names A (fun j => j = i ∨ G j) p
  | A, G, .copy i j :: p => G j ∧ Names A (fun k => k = i ∨ G k) p
  | _, _, .assign _ _ :: _ => False
  | A, G, .dropGen i :: p => G i ∧ Names A (fun j => j ≠ i ∧ G j) p
  | A, G, .call i _ :: p => G i ∧ Names A G p
  | A, G, .engineOf i _ :: p => G i ∧ Names A G p
  | A, G, .distOf i _ :: p => G i ∧ Names A G p

end Vg
end Spec
end Boost.Random
