import Verif.Spec.MtJump
import Verif.Proofs.Gf2Nat

/-!
# The characteristic polynomial of the Mersenne Twister times another polynomial, by shifts
-/

namespace Boost.Random
namespace Gf2N
open Polynomial Spec

/-- The numbers of places that a factor of the characteristic polynomial shifts. -/
def places (P : Mt.Params) (i : Nat) : Nat × Nat := bif Nat.ble (i + 1) P.r then (P.n - 1, P.m - 1) else (P.n, P.m)

/-- `mtPoly P i` times the polynomial `q`. -/
def hor (P : Mt.Params) (q : Nat) : Nat → Nat
  | 0 => q
  | i + 1 => bif P.a.testBit i then Nat.xor (binom (places P i).1 (places P i).2 (hor P q i)) q
    else binom (places P i).1 (places P i).2 (hor P q i)

theorem bitPoly_hor (P : Mt.Params) (q : Nat) : ∀ i, bitPoly (hor P q i) = mtPoly P i * bitPoly q
  | 0 => by rw [hor, mtPoly, one_mul]
  | i + 1 => by
    have e : bitPoly (binom (places P i).1 (places P i).2 (hor P q i)) = mtFactor P i * (mtPoly P i * bitPoly q) := by
      rw [binom_eq, bitPoly_xor, bitPoly_shift, bitPoly_shift, bitPoly_hor P q i, ← add_mul]
      congr 1
      unfold places mtFactor
      by_cases h : i < P.r
      · rw [if_pos h, Nat.ble_eq_true_of_le h]; rfl
      · have : Nat.ble (i + 1) P.r = false := by
          rw [← Bool.not_eq_true]; exact fun hc => h (Nat.le_of_ble_eq_true hc)
        rw [if_neg h, this]; rfl
    rw [hor, mtPoly]
    cases P.a.testBit i
    · rw [cond_false, e, if_neg (by decide), add_zero, mul_assoc]
    · rw [cond_true, show ∀ a b, Nat.xor a b = a ^^^ b from fun _ _ => rfl, bitPoly_xor, e, if_pos rfl]; ring

end Gf2N
end Boost.Random
