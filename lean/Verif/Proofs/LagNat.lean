import Verif.Proofs.LagAlgebra
import Verif.Proofs.MersennePrime

/-!
# Squaring modulo a trinomial, evaluated by the kernel
-/

namespace Boost.Random
namespace Gf2N
open Polynomial Tausworthe

/-- One reduction of the part above `X ^ a` modulo `X ^ a + X ^ b + 1`. -/
def fold1 (a b v : Nat) : Nat := Nat.xor v (Nat.xor (binom a b (Nat.shiftRight v a)) (Nat.shiftRight v a))

theorem fold1_dvd (a b v : Nat) : trinomial a b ∣ bitPoly v - bitPoly (fold1 a b v) := by
  have e : fold1 a b v = v ^^^ (((v >>> a) <<< a ^^^ (v >>> a) <<< b) ^^^ v >>> a) := by
    rw [← binom_eq]; rfl
  refine ⟨-bitPoly (v >>> a), ?_⟩
  rw [e, bitPoly_xor, bitPoly_xor, bitPoly_xor, bitPoly_shift, bitPoly_shift, trinomial]
  ring

/-- The square, `r` times reduced. -/
def foldN (a b : Nat) : Nat → Nat → Nat
  | 0, v => v
  | r + 1, v => foldN a b r (fold1 a b v)

theorem foldN_dvd (a b : Nat) : ∀ r v, trinomial a b ∣ bitPoly v - bitPoly (foldN a b r v)
  | 0, v => by rw [foldN, sub_self]; exact dvd_zero _
  | r + 1, v => by
    have := (fold1_dvd a b v).add (foldN_dvd a b r (fold1 a b v))
    rwa [sub_add_sub_cancel] at this

theorem squares_tri {a b r J B : Nat} {stp : Nat → Nat} (hB : B < 2 ^ (2 ^ J)) (h : ∀ x, stp x = foldN a b r (spreadN (2 ^ (J + 1)) J x)) :
    Squares (trinomial a b) B stp := fun x hx => by
  rw [h, ← spread_sq (lt_of_le_of_lt hx hB)]
  exact foldN_dvd a b r _

/-- The steps of the Lucas-Lehmer test that lead to `y`. -/
structure LL (p n y : Nat) : Prop where
  eq : (y : ZMod (2 ^ p - 1)) = LucasLehmer.sZMod p n

theorem LL.start (p : Nat) : LL p 0 4 := ⟨by rw [LucasLehmer.sZMod]; push_cast; rfl⟩

theorem LL.next {p n x y m k : Nat} (h : LL p n x) (hp : 2 ≤ p) (hc : chk (llStep (2 ^ p - 1)) (2 ^ p) y m x = true) (hk : n + m = k) : LL p k y := by
  subst hk
  exact ⟨ll_sound hp m n x h.eq hc⟩

theorem LL.prime {p : Nat} (hp : 2 ≤ p) (h : LL p (p - 2) 0) : (2 ^ p - 1).Prime := by
  refine lucas_lehmer_sufficiency p hp ?_
  rw [LucasLehmer.LucasLehmerTest, LucasLehmer.lucasLehmerResidue, ← h.eq, Nat.cast_zero]

theorem good {p k B : Nat} (h1 : 0 < k) (h2 : k < p) (h3 : p % 2 = 1) (h4 : (2 ^ p - 1).Prime) (h5 : Reach (trinomial p k) B p 2) : Lag.Good p k :=
  ⟨h1, h2, h3, h4, by have := h5.dvd; rwa [bitPoly_two] at this⟩

attribute [irreducible] fold1

end Gf2N
end Boost.Random
