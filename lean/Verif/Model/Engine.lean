import Verif.Model.Stream

/-!
# The engine interface seen by the adaptors

The operations of a base engine that the adaptor engines use. `next` is `operator()` (`none` =
undefined behaviour), `write`/`read`/`eq` are `operator<<`, `operator>>`, `operator==`.
-/

namespace Boost.Random

/-- A base engine with states in `σ` and values in `β` (integers, if not said otherwise). -/
structure Engine (σ : Type) (β : Type := Int) where
  next : σ → Option (β × σ)
  write : σ → List Tok
  read : IStream → σ → IStream × σ
  eq : σ → σ → Bool

/-- `n` successive calls whose values are thrown away (the loops of discard_block.hpp:114-116 and of
all the `discard` members of the adaptors). -/
def Engine.skip {σ β : Type} (B : Engine σ β) : (n : Nat) → σ → Option σ
  | 0, s => some s
  | n + 1, s => (B.next s).bind fun p => B.skip n p.2

/-- `is >> x` into an existing integer `x` of type `T`, which keeps its value on failure (the standard
library would store 0 or the nearest value on a failed conversion: not modelled). -/
def readInto (T : IntTy) (s : IStream) (x : Int) : IStream × Int :=
  match s.readInt T with
  | (some v, s') => (s', v)
  | (none, s') => (s', x)

/-- `for(i = 0; i < n; ++i) is >> v[i]`. -/
def readList (T : IntTy) : (s : IStream) → (v : List Int) → IStream × List Int
  | s, [] => (s, [])
  | s, x :: v =>
    let p := readInto T s x
    let q := readList T p.1 v
    (q.1, p.2 :: q.2)

end Boost.Random
