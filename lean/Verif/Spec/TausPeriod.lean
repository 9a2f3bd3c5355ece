import Verif.Spec.Lfsr

/-!
# Specification of the period of `taus88`
-/

namespace Boost.Random.Spec

/-- The product of the periods of the three components, nearly `2^88`. -/
def taus88Period : Nat := (2 ^ 31 - 1) * (2 ^ 29 - 1) * (2 ^ 28 - 1)

/-- The three components have nonzero significant bits. -/
def Taus88OK (st : (Nat × Nat) × Nat) : Prop := Significant 32 31 st.1.1 ∧ Significant 32 29 st.1.2 ∧ Significant 32 28 st.2

/-- The three components have the same significant bits. -/
def SameBits (st st' : (Nat × Nat) × Nat) : Prop :=
  (∀ i, i < 31 → topBit 32 st.1.1 i = topBit 32 st'.1.1 i) ∧ (∀ i, i < 29 → topBit 32 st.1.2 i = topBit 32 st'.1.2 i) ∧
    ∀ i, i < 28 → topBit 32 st.2 i = topBit 32 st'.2 i

end Boost.Random.Spec
