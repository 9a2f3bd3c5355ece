import Verif.Proofs.Swc
import Mathlib.Algebra.BigOperators.Group.Finset.Basic
import Mathlib.Algebra.BigOperators.Intervals
import Mathlib.Algebra.BigOperators.Ring.Finset
import Mathlib.Algebra.Order.BigOperators.Group.Finset
import Mathlib.Algebra.Field.ZMod
import Mathlib.Tactic.LinearCombination
import Mathlib.Tactic.Linarith
import Mathlib.Tactic.Positivity

/-!
# Subtract-with-carry sequences are linear congruential sequences

With `b = 2^w` and `m = b^r - b^s + 1`, the number `Z n` made of `r` consecutive values and the borrow satisfies
`b Z(n+1) = Z n + m X(n+r)`.
-/

namespace Boost.Random.SwcPeriod
open Spec Finset

variable {w s r : Nat} {X C : Nat → Nat}

/-- `k` values as the digits of a number. -/
def S (w : Nat) (X : Nat → Nat) (k n : Nat) : Int := ∑ j ∈ range k, (X (n + j) : Int) * (2 ^ w) ^ j

def modulus (w s r : Nat) : Nat := (2 ^ w) ^ r - (2 ^ w) ^ s + 1

theorem modulus_cast (hsr : s < r) : (modulus w s r : Int) = (2 ^ w) ^ r - (2 ^ w) ^ s + 1 := by
  have : (2 ^ w) ^ s ≤ (2 ^ w) ^ r := Nat.pow_le_pow_right (Nat.two_pow_pos w) hsr.le
  unfold modulus
  push_cast [Nat.cast_sub this]
  rfl

theorem S_step (k n : Nat) : 2 ^ w * S w X k (n + 1) + X n = S w X k n + (2 ^ w) ^ k * X (n + k) := by
  have h1 : S w X (k + 1) n = S w X k n + (X (n + k) : Int) * (2 ^ w) ^ k := sum_range_succ _ _
  have h2 : S w X (k + 1) n = 2 ^ w * S w X k (n + 1) + X n := by
    unfold S
    rw [sum_range_succ', mul_sum]
    simp only [Nat.add_zero, pow_zero, mul_one, add_left_inj]
    refine sum_congr rfl fun j _ => ?_
    rw [show n + (j + 1) = n + 1 + j by omega, pow_succ]
    ring
  linear_combination h1 - h2

theorem S_add (k l n : Nat) : S w X (k + l) n = S w X k n + (2 ^ w) ^ k * S w X l (n + k) := by
  unfold S
  rw [sum_range_add, mul_sum]
  congr 1
  refine sum_congr rfl fun j _ => ?_
  rw [show n + (k + j) = n + k + j by omega, pow_add]
  ring

theorem S_nonneg (k n : Nat) : 0 ≤ S w X k n := sum_nonneg fun _ _ => by positivity

theorem S_zero {k n : Nat} (h : S w X k n = 0) : ∀ j < k, X (n + j) = 0 := by
  intro j hj
  have := (sum_eq_zero_iff_of_nonneg (fun _ _ => by positivity)).1 h j (mem_range.2 hj)
  rcases mul_eq_zero.1 this with h1 | h1
  · exact_mod_cast h1
  · exact absurd h1 (by positivity)

/-- The digits counted down from the largest one. -/
theorem S_compl (hX : ∀ n, X n < 2 ^ w) (k n : Nat) : S w X k n + S w (fun n => 2 ^ w - 1 - X n) k n = (2 ^ w) ^ k - 1 := by
  induction k with
  | zero => simp [S]
  | succ k ih =>
    have h1 : S w X (k + 1) n = S w X k n + (X (n + k) : Int) * (2 ^ w) ^ k := sum_range_succ _ _
    have h2 : S w (fun n => 2 ^ w - 1 - X n) (k + 1) n = S w (fun n => 2 ^ w - 1 - X n) k n +
        ((2 ^ w - 1 - X (n + k) : Nat) : Int) * (2 ^ w) ^ k := sum_range_succ _ _
    have hx := hX (n + k)
    have h3 : ((2 ^ w - 1 - X (n + k) : Nat) : Int) = 2 ^ w - 1 - X (n + k) := by
      rw [Nat.cast_sub (by omega), Nat.cast_sub Nat.one_le_two_pow]; push_cast; rfl
    rw [h1, h2, h3, pow_succ]
    linear_combination ih

/-- The number of the linear congruential sequence. -/
def Z (w s r : Nat) (X C : Nat → Nat) (n : Nat) : Int := S w X r n - S w X s (n + (r - s)) + C n

theorem Z_eq (hsr : s < r) (n : Nat) :
    Z w s r X C n = S w X (r - s) n + ((2 ^ w) ^ (r - s) - 1) * S w X s (n + (r - s)) + C n := by
  have := S_add (w := w) (X := X) (r - s) s n
  rw [show r - s + s = r by omega] at this
  unfold Z
  rw [this]
  ring

theorem Z_step (hsr : s < r) (h : IsSwc w s r X C) (hX : ∀ n, X n < 2 ^ w) (hC : ∀ n, C n ≤ 1) (n : Nat) :
    2 ^ w * Z w s r X C (n + 1) = Z w s r X C n + modulus w s r * X (n + r) := by
  have h1 := S_step (w := w) (X := X) r n
  have h2 := S_step (w := w) (X := X) s (n + (r - s))
  rw [show n + (r - s) + s = n + r by omega, show n + (r - s) + 1 = n + 1 + (r - s) by omega] at h2
  have h3 : (X (n + r) : Int) = X (n + r - s) - X n - C n + 2 ^ w * C (n + 1) := by
    have e1 := h.value n
    have e2 := h.borrow n
    have b1 := hX (n + r - s)
    have b2 := hX n
    have b3 := hC n
    have hp : ((2 ^ w : Nat) : Int) = 2 ^ w := by push_cast; rfl
    rw [← hp] at e1 ⊢
    generalize 2 ^ w = M at *
    rw [e1, e2]
    split
    · rw [← Int.add_emod_right, Int.emod_eq_of_lt (by omega) (by omega)]; push_cast; ring
    · rw [Int.emod_eq_of_lt (by omega) (by omega)]; push_cast; ring
  rw [show n + r - s = n + (r - s) by omega] at h3
  rw [modulus_cast hsr]
  unfold Z
  linear_combination h1 - h2 - h3

theorem Z_nonneg (hsr : s < r) (n : Nat) : 0 ≤ Z w s r X C n := by
  rw [Z_eq hsr]
  have h1 := S_nonneg (w := w) (X := X) (r - s) n
  have h2 := S_nonneg (w := w) (X := X) s (n + (r - s))
  have h3 : (1 : Int) ≤ (2 ^ w) ^ (r - s) := one_le_pow₀ (one_le_pow₀ (by norm_num))
  have h4 : 0 ≤ ((2 ^ w) ^ (r - s) - 1) * S w X s (n + (r - s)) := mul_nonneg (by linarith) h2
  have h5 : (0 : Int) ≤ C n := by positivity
  linarith

/-- Counting down from the largest state. -/
theorem Z_compl (hsr : s < r) (hX : ∀ n, X n < 2 ^ w) (hC : ∀ n, C n ≤ 1) (n : Nat) :
    Z w s r X C n + Z w s r (fun n => 2 ^ w - 1 - X n) (fun n => 1 - C n) n = modulus w s r := by
  have h1 := S_compl hX r n
  have h2 := S_compl hX s (n + (r - s))
  have h3 : ((1 - C n : Nat) : Int) = 1 - C n := by rw [Nat.cast_sub (hC n)]; rfl
  unfold Z
  rw [modulus_cast hsr, h3]
  linear_combination h1 - h2

theorem Z_zero (hw : 0 < w) (hsr : s < r) {n : Nat} (h : Z w s r X C n = 0) : C n = 0 ∧ ∀ j < r, X (n + j) = 0 := by
  rw [Z_eq hsr] at h
  have h1 := S_nonneg (w := w) (X := X) (r - s) n
  have h2 := S_nonneg (w := w) (X := X) s (n + (r - s))
  have h3 : (1 : Int) < (2 ^ w) ^ (r - s) := one_lt_pow₀ (one_lt_pow₀ (by norm_num) hw.ne') (by omega)
  have h4 : 0 ≤ ((2 ^ w) ^ (r - s) - 1) * S w X s (n + (r - s)) := mul_nonneg (by linarith) h2
  have h5 : (0 : Int) ≤ C n := by positivity
  have e1 : S w X (r - s) n = 0 := by linarith
  have e2 : ((2 ^ w) ^ (r - s) - 1) * S w X s (n + (r - s)) = 0 := by linarith
  have e3 : (C n : Int) = 0 := by linarith
  have e4 : S w X s (n + (r - s)) = 0 := by
    rcases mul_eq_zero.1 e2 with h | h
    · linarith
    · exact h
  refine ⟨by exact_mod_cast e3, fun j hj => ?_⟩
  by_cases hj' : j < r - s
  · exact S_zero e1 j hj'
  · have := S_zero e4 (j - (r - s)) (by omega)
    rwa [show n + (r - s) + (j - (r - s)) = n + j by omega] at this

theorem Z_top (hw : 0 < w) (hsr : s < r) (hX : ∀ n, X n < 2 ^ w) (hC : ∀ n, C n ≤ 1) {n : Nat}
    (h : Z w s r X C n = modulus w s r) : C n = 1 ∧ ∀ j < r, X (n + j) = 2 ^ w - 1 := by
  have h1 := Z_compl (w := w) hsr hX hC n
  obtain ⟨h2, h3⟩ := Z_zero (n := n) hw hsr (show Z w s r (fun n => 2 ^ w - 1 - X n) (fun n => 1 - C n) n = 0 by linarith)
  refine ⟨by have := hC n; omega, fun j hj => ?_⟩
  have := h3 j hj
  have := hX (n + j)
  omega

theorem Z_le (hsr : s < r) (hX : ∀ n, X n < 2 ^ w) (hC : ∀ n, C n ≤ 1) (n : Nat) : Z w s r X C n ≤ modulus w s r := by
  have h1 := Z_compl (w := w) hsr hX hC n
  have h2 := Z_nonneg (w := w) (X := fun n => 2 ^ w - 1 - X n) (C := fun n => 1 - C n) hsr n
  linarith

/-- Powers of `b` lead back. -/
theorem Z_pow (hsr : s < r) (h : IsSwc w s r X C) (hX : ∀ n, X n < 2 ^ w) (hC : ∀ n, C n ≤ 1) (n k : Nat) :
    (2 ^ w : ZMod (modulus w s r)) ^ k * (Z w s r X C (n + k) : ZMod (modulus w s r)) = (Z w s r X C n : ZMod (modulus w s r)) := by
  induction k with
  | zero => simp
  | succ k ih =>
    have := congrArg (Int.cast : Int → ZMod (modulus w s r)) (Z_step hsr h hX hC (n + k))
    push_cast at this
    rw [ZMod.natCast_self, zero_mul, add_zero] at this
    rw [pow_succ, mul_assoc, show n + (k + 1) = n + k + 1 by omega, this, ih]

/-- The state is not one of the two that repeat one value for ever. -/
def Alive (w r : Nat) (X C : Nat → Nat) : Prop :=
  ¬(C 0 = 0 ∧ ∀ j < r, X j = 0) ∧ ¬(C 0 = 1 ∧ ∀ j < r, X j = 2 ^ w - 1)

theorem Z_cast_eq_zero (hsr : s < r) (hX : ∀ n, X n < 2 ^ w) (hC : ∀ n, C n ≤ 1) (n : Nat) :
    (Z w s r X C n : ZMod (modulus w s r)) = 0 ↔ Z w s r X C n = 0 ∨ Z w s r X C n = modulus w s r := by
  rw [ZMod.intCast_zmod_eq_zero_iff_dvd]
  have h1 := Z_nonneg (w := w) (X := X) (C := C) hsr n
  have h2 := Z_le (w := w) hsr hX hC n
  constructor
  · rintro ⟨q, hq⟩
    have hm : (0 : Int) < modulus w s r := by unfold modulus; positivity
    rw [hq] at h1 h2 ⊢
    have h3 : 0 ≤ q := by
      by_contra hn
      have : (modulus w s r : Int) * q < 0 := mul_neg_of_pos_of_neg hm (by omega)
      omega
    have h4 : q ≤ 1 := by
      by_contra hn
      have : (modulus w s r : Int) * 2 ≤ modulus w s r * q := mul_le_mul_of_nonneg_left (by omega) hm.le
      omega
    rcases (show q = 0 ∨ q = 1 by omega) with rfl | rfl <;> simp
  · rintro (e | e) <;> simp [e]

theorem alive_cast (hw : 0 < w) (hsr : s < r) (hX : ∀ n, X n < 2 ^ w) (hC : ∀ n, C n ≤ 1) (ha : Alive w r X C) :
    (Z w s r X C 0 : ZMod (modulus w s r)) ≠ 0 := by
  rw [Ne, Z_cast_eq_zero hsr hX hC]
  rintro (e | e)
  · have := Z_zero hw hsr e
    simp only [Nat.zero_add] at this
    exact ha.1 this
  · have := Z_top hw hsr hX hC e
    simp only [Nat.zero_add] at this
    exact ha.2 this

/-- **The period.** The values from index `r` on repeat after `P` steps exactly if `b^P = 1` modulo the prime `m`. -/
theorem period_iff (hw : 0 < w) (hsr : s < r) (h : IsSwc w s r X C) (hX : ∀ n, X n < 2 ^ w) (hC : ∀ n, C n ≤ 1)
    (hm : (modulus w s r).Prime) (ha : Alive w r X C) (P : Nat) :
    (∀ n, X (n + P + r) = X (n + r)) ↔ (2 ^ w : ZMod (modulus w s r)) ^ P = 1 := by
  have := Fact.mk hm
  have hmpos : (0 : Int) < modulus w s r := by exact_mod_cast hm.pos
  have h0 := alive_cast (s := s) hw hsr hX hC ha
  have hne : ∀ n, (Z w s r X C n : ZMod (modulus w s r)) ≠ 0 := by
    intro n e
    have := Z_pow hsr h hX hC 0 n
    rw [Nat.zero_add, e, mul_zero] at this
    exact h0 this.symm
  have hin : ∀ n, 0 < Z w s r X C n ∧ Z w s r X C n < modulus w s r := by
    intro n
    have h1 := Z_nonneg (w := w) (X := X) (C := C) hsr n
    have h2 := Z_le (w := w) hsr hX hC n
    have h3 := (not_congr (Z_cast_eq_zero (w := w) hsr hX hC n)).1 (hne n)
    rw [not_or] at h3
    constructor
    · exact lt_of_le_of_ne h1 (Ne.symm h3.1)
    · exact lt_of_le_of_ne h2 h3.2
  constructor
  · intro hp
    have hD : ∀ k, Z w s r X C (0 + P) - Z w s r X C 0 = (2 ^ w) ^ k * (Z w s r X C (k + P) - Z w s r X C k) := by
      intro k
      induction k with
      | zero => simp
      | succ k ih =>
        have e1 := Z_step hsr h hX hC k
        have e2 := Z_step hsr h hX hC (k + P)
        rw [hp k] at e2
        rw [ih, pow_succ, show k + 1 + P = k + P + 1 by omega]
        linear_combination (-(2 ^ w) ^ k : Int) * (e2 - e1)
    have hbig : (modulus w s r : Int) ≤ (2 ^ w) ^ r := by
      rw [modulus_cast hsr]
      have : (1 : Int) ≤ (2 ^ w) ^ s := one_le_pow₀ (one_le_pow₀ (by norm_num))
      linarith
    have hz : Z w s r X C (0 + P) = Z w s r X C 0 := by
      have e := hD r
      obtain ⟨a1, a2⟩ := hin (0 + P)
      obtain ⟨b1, b2⟩ := hin 0
      obtain ⟨d, hd⟩ : ∃ d, d = Z w s r X C (r + P) - Z w s r X C r := ⟨_, rfl⟩
      rw [← hd] at e
      have : d = 0 := by
        by_contra hcon
        rcases lt_or_gt_of_ne hcon with hlt | hgt
        · have : ((2 ^ w) ^ r : Int) * d ≤ (2 ^ w) ^ r * (-1) := mul_le_mul_of_nonneg_left (by omega) (by positivity)
          linarith
        · have : ((2 ^ w) ^ r : Int) * 1 ≤ (2 ^ w) ^ r * d := mul_le_mul_of_nonneg_left (by omega) (by positivity)
          linarith
      rw [this, mul_zero] at e
      linarith
    have e := Z_pow hsr h hX hC 0 P
    rw [hz] at e
    exact mul_right_cancel₀ h0 (by rw [e, one_mul])
  · intro hp n
    have hz : ∀ n, Z w s r X C (n + P) = Z w s r X C n := by
      intro n
      have e := Z_pow hsr h hX hC n P
      rw [hp, one_mul, ZMod.intCast_eq_intCast_iff] at e
      obtain ⟨a1, a2⟩ := hin (n + P)
      obtain ⟨b1, b2⟩ := hin n
      rw [Int.ModEq, Int.emod_eq_of_lt a1.le a2, Int.emod_eq_of_lt b1.le b2] at e
      exact e
    have e1 := Z_step hsr h hX hC n
    have e2 := Z_step hsr h hX hC (n + P)
    rw [show n + P + 1 = n + 1 + P by omega, hz, hz] at e2
    have e3 : (modulus w s r : Int) * X (n + P + r) = modulus w s r * X (n + r) := by linarith
    exact_mod_cast mul_left_cancel₀ hmpos.ne' e3

end Boost.Random.SwcPeriod
