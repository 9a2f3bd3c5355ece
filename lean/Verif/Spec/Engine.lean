import Verif.Spec.Run
import Verif.Spec.UniformInt
import Verif.Model.Engine

/-!
# Specification vocabulary for engines and adaptors
-/

namespace Boost.Random.Spec
variable {σ β : Type}

/-- A base engine works: from every state satisfying `I` a call returns a value in
`[min(), max()]` and leads to another such state. -/
structure BaseOK (E : EngInfo) (B : Engine σ) (I : σ → Prop) : Prop where
  step : ∀ s, I s → ∃ v s', B.next s = some (v, s') ∧ I s' ∧ E.min ≤ v ∧ v ≤ E.max

/-- The calls from state `s` return `V 0, V 1, V 2, ...`. -/
def Produces (next : σ → Option (β × σ)) (s : σ) (V : Nat → β) : Prop :=
  ∀ n, ∃ s', run next n s = some ((List.range n).map V, s')

/-- Engines that compare equal return the same values for ever. -/
def EqOK (B : Engine σ β) (I : σ → Prop) : Prop :=
  ∀ a b, I a → I b → B.eq a b = true → SameFuture B.next a b

/-- Writing an engine and reading the text into any other engine gives an engine that compares equal
and has the same future, and consumes exactly the text written. -/
def TextOK (B : Engine σ β) (I : σ → Prop) : Prop :=
  ∀ s other, I s → I other → ∀ rest, ∃ s', B.read ⟨B.write s ++ rest, true⟩ other = (⟨rest, true⟩, s') ∧
    I s' ∧ B.eq s' s = true ∧ SameFuture B.next s' s

end Boost.Random.Spec
