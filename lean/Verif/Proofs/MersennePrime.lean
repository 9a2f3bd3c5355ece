import Mathlib.NumberTheory.LucasLehmer
import Verif.Proofs.Gf2Nat

/-!
# 2^11213 - 1 and 2^19937 - 1 are prime

The Lucas-Lehmer test, evaluated by the kernel.
-/

namespace Boost.Random
namespace Gf2N

/-- One step of the test. -/
def llStep (M x : Nat) : Nat := Nat.mod (Nat.add (Nat.mul x x) (Nat.sub M (nat_lit 2))) M

theorem ll_sound {p y : Nat} (hp : 2 ≤ p) : ∀ (n i x : Nat), (x : ZMod (2 ^ p - 1)) = LucasLehmer.sZMod p i →
    chk (llStep (2 ^ p - 1)) (2 ^ p) y n x = true → (y : ZMod (2 ^ p - 1)) = LucasLehmer.sZMod p (i + n)
  | 0, i, x, hx, h => by
    have e : x = y := Nat.eq_of_beq_eq_true h
    rw [← e, hx]; rfl
  | n + 1, i, x, hx, h => by
    rw [chk_succ, Bool.and_eq_true] at h
    rw [← Nat.add_assoc, Nat.add_right_comm]
    refine ll_sound hp n (i + 1) _ ?_ h.2
    rw [show llStep (2 ^ p - 1) x = (x * x + (2 ^ p - 1 - 2)) % (2 ^ p - 1) from rfl, ZMod.natCast_mod, LucasLehmer.sZMod, ← hx]
    have h4 : 2 ^ 2 ≤ 2 ^ p := Nat.pow_le_pow_right (by decide) hp
    rw [Nat.cast_add, Nat.cast_sub (by omega), ZMod.natCast_self]
    push_cast
    ring

theorem mersenne_prime {p : Nat} (hp : 2 ≤ p) (h : chk (llStep (2 ^ p - 1)) (2 ^ p) 0 (p - 2) 4 = true) : (2 ^ p - 1).Prime := by
  have := ll_sound hp (p - 2) 0 4 (by rw [LucasLehmer.sZMod]; push_cast; rfl) h
  refine lucas_lehmer_sufficiency p hp ?_
  rw [LucasLehmer.LucasLehmerTest, LucasLehmer.lucasLehmerResidue, ← Nat.zero_add (p - 2), ← this, Nat.cast_zero]

set_option Elab.async false
set_option maxRecDepth 100000
set_option exponentiation.threshold 100000

theorem test11213 : chk (llStep (2 ^ 11213 - 1)) (2 ^ 11213) 0 (11213 - 2) 4 = true := by decide +kernel
theorem test19937 : chk (llStep (2 ^ 19937 - 1)) (2 ^ 19937) 0 (19937 - 2) 4 = true := by decide +kernel

theorem prime11213 : (2 ^ 11213 - 1).Prime := mersenne_prime (by decide) test11213
theorem prime19937 : (2 ^ 19937 - 1).Prime := mersenne_prime (by decide) test19937

end Gf2N
end Boost.Random
