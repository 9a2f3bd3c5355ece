/-!
# Running an engine

`run next n s` makes `n` successive calls and collects the values returned (`none` = undefined
behaviour on the way).
-/

namespace Boost.Random.Spec

/-- `n` successive calls: the values returned, in order, and the final state. -/
def run {σ α : Type} (next : σ → Option (α × σ)) : (n : Nat) → σ → Option (List α × σ)
  | 0, s => some ([], s)
  | n + 1, s => do
    let (v, s) ← next s
    let (vs, s) ← run next n s
    some (v :: vs, s)

/-- Two states produce the same values forever. -/
def SameFuture {σ α : Type} (next : σ → Option (α × σ)) (a b : σ) : Prop :=
  ∀ n, (run next n a).map Prod.fst = (run next n b).map Prod.fst

/-- The state after `n` calls. -/
def stateAfter {σ α : Type} (next : σ → Option (α × σ)) (n : Nat) (s : σ) : Option σ :=
  (run next n s).map Prod.snd

end Boost.Random.Spec
