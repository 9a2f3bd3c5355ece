import Verif.Model.ConstMod
import Mathlib.Data.Int.ModEq

/-!
# Specification vocabulary for the integer helpers
-/

namespace Boost.Random.Spec

/-- The mathematical modulus meant by the template argument `m` of type `T`:
`m = 0` stands for one more than the largest value of the type. -/
def modulus (T : IntTy) (m : Nat) : Nat := if m = 0 then T.maxv + 1 else m

/-- A built-in integer type of at least 32 and at most 64 bits (no integral promotion). -/
def StdTy (T : IntTy) : Prop := 32 ≤ T.bits ∧ T.bits ≤ 64

/-- A built-in integer type of at most 64 bits, including those of at most 16 bits, whose values are
promoted to `int`. -/
def AnyTy (T : IntTy) : Prop := 2 ≤ T.bits ∧ T.bits ≤ 64

/-- Types and moduli for which no product of two residues overflows the type in which it is computed: all
but the modulus `2^16` of a type promoted to `int`. -/
def ArithTy (T : IntTy) (m : Nat) : Prop := AnyTy T ∧ (T.bits ≤ 16 → modulus T m ≠ 2 ^ 16)

instance (T : IntTy) : Coe (StdTy T) (AnyTy T) := ⟨fun h => ⟨by have := h.1; omega, h.2⟩⟩

instance (T : IntTy) (m : Nat) : Coe (StdTy T) (ArithTy T m) := ⟨fun h => ⟨h, fun h' => by have := h.1; omega⟩⟩

instance (T : IntTy) (m : Nat) : CoeOut (ArithTy T m) (AnyTy T) := ⟨fun h => h.1⟩

instance (T : IntTy) : Decidable (AnyTy T) := by unfold AnyTy; infer_instance

instance (T : IntTy) (m : Nat) : Decidable (ArithTy T m) := by unfold ArithTy; infer_instance

/-- Moduli for which the 128-bit multiplication helper is either not used or cannot go wrong:
up to `2^32`, powers of two, or the two 32-bit digits of `m` (shifted so that its top bit is set)
add up to at most `2^32`. See `c03_*`. -/
def WideOK (m : Nat) : Prop :=
  m ≤ 2 ^ 32 ∨ (∃ k, m = 2 ^ k) ∨
  m * 2 ^ (63 - Nat.log2 m) % 2 ^ 32 + m * 2 ^ (63 - Nat.log2 m) / 2 ^ 32 ≤ 2 ^ 32

end Boost.Random.Spec
