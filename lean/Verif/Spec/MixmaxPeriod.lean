import Verif.Spec.Mixmax

/-!
# Specification of the period of MIXMAX
-/

namespace Boost.Random.Spec

/-- `(p^N - 1)/(p - 1)`, the period published for MIXMAX with vectors of `N` elements. -/
def mixPhi (N : Nat) : Nat := (mixP ^ N - 1) / (mixP - 1)

/-- From some call on the values repeat, modulo `p`, after `P` further calls. -/
def MixRepeats (V : Nat → Nat) (P : Nat) : Prop := ∃ n0, ∀ n, n0 ≤ n → V (n + P) % mixP = V n % mixP

/-- Two sequences agree, modulo `p`, from some call on. -/
def MixAgree (V W : Nat → Nat) : Prop := ∃ n0, ∀ n, n0 ≤ n → V n % mixP = W n % mixP

end Boost.Random.Spec
