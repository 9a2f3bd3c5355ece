import Verif.Spec.RealDist
import Mathlib.Data.Int.Log
import Mathlib.Algebra.Order.Round
import Mathlib.Tactic.Linarith
import Mathlib.Tactic.Ring
import Mathlib.Tactic.FieldSimp
import Mathlib.Tactic.Positivity
import Mathlib.Tactic.NormNum
import Mathlib.Tactic.Push

/-!
# Roundings exist
-/

namespace Boost.Random
open Spec

theorem Nearest.rounding {digits : Nat} {fl : ℚ → ℚ} (h : Nearest digits fl) : Rounding digits fl := by
  refine ⟨h.repr, fun y hy => ?_, fun x y hxy => ?_⟩
  · have := h.nearest y y hy
    rw [sub_self, abs_zero] at this
    have := abs_nonpos_iff.1 this
    linarith
  · by_contra hlt
    push Not at hlt
    rcases eq_or_lt_of_le hxy with he | hl
    · rw [he] at hlt; exact lt_irrefl _ hlt
    · have h1 := h.nearest x (fl y) (h.repr y)
      have h2 := h.nearest y (fl x) (h.repr x)
      rw [abs_le] at h1 h2
      obtain ⟨a1, a2⟩ := h1
      obtain ⟨b1, b2⟩ := h2
      rcases abs_cases (x - fl y) with ⟨c, d⟩ | ⟨c, d⟩ <;> rcases abs_cases (y - fl x) with ⟨c', d'⟩ | ⟨c', d'⟩ <;> rw [c] at a1 a2 <;> rw [c'] at b1 b2 <;> linarith

/-! ## Representable numbers -/

theorem Representable.natCast {digits N : Nat} (h : N < 2 ^ digits) : Representable digits N :=
  ⟨N, 0, by rw [abs_of_nonneg (by omega)]; exact_mod_cast h, by simp⟩

theorem Representable.scaled {digits N : Nat} (h : N < 2 ^ digits) (k : Nat) : Representable digits ((N : ℚ) / 2 ^ k) :=
  ⟨N, -(k : ℤ), by rw [abs_of_nonneg (by omega)]; exact_mod_cast h, by rw [zpow_neg, zpow_natCast, div_eq_mul_inv]; simp⟩

theorem Representable.scaledUp {digits N : Nat} (h : N < 2 ^ digits) (k : Nat) : Representable digits ((N : ℚ) * 2 ^ k) :=
  ⟨N, k, by rw [abs_of_nonneg (by omega)]; exact_mod_cast h, by rw [zpow_natCast]; simp⟩

theorem Representable.two_pow {digits : Nat} (h : 1 ≤ digits) (k : Nat) : Representable digits (2 ^ k) := by
  have := Representable.scaledUp (N := 1) (Nat.one_lt_two_pow (by omega) : 1 < 2 ^ digits) k
  simpa using this

theorem Representable.inv_two_pow {digits : Nat} (h : 1 ≤ digits) (k : Nat) : Representable digits (1 / 2 ^ k) := by
  have := Representable.scaled (N := 1) (Nat.one_lt_two_pow (by omega) : 1 < 2 ^ digits) k
  simpa using this

theorem Representable.zero (digits : Nat) : Representable digits 0 := by
  have := Representable.natCast (N := 0) (Nat.two_pow_pos digits)
  simpa using this

theorem Representable.one {digits : Nat} (h : 1 ≤ digits) : Representable digits 1 := by
  have := Representable.two_pow h 0
  simpa using this

/-! ## A rounding to nearest -/

/-- The unit in the last place. -/
def ulp (digits : Nat) (x : ℚ) : ℚ := 2 ^ (Int.log 2 |x| + 1 - digits)

/-- Round half up. -/
def rn (digits : Nat) (x : ℚ) : ℚ := if x = 0 then 0 else (round (x / ulp digits x) : ℚ) * ulp digits x

theorem ulp_pos (digits : Nat) (x : ℚ) : 0 < ulp digits x := by unfold ulp; positivity

theorem log_bounds {x : ℚ} (h : x ≠ 0) : (2 : ℚ) ^ Int.log 2 |x| ≤ |x| ∧ |x| < 2 ^ (Int.log 2 |x| + 1) := by
  have hp : 0 < |x| := abs_pos.2 h
  have h1 := Int.zpow_log_le_self (b := 2) (by decide) hp
  have h2 := Int.lt_zpow_succ_log_self (b := 2) (by decide) |x|
  exact ⟨by exact_mod_cast h1, by exact_mod_cast h2⟩

theorem two_zpow_nat (n : Nat) : (2 : ℚ) ^ n = ((2 ^ n : ℤ) : ℚ) := by push_cast; rfl

theorem rn_nearest {digits : Nat} (hd : 1 ≤ digits) : Nearest digits (rn digits) := by
  constructor
  · intro x
    unfold rn
    by_cases h : x = 0
    · rw [if_pos h]; exact Representable.zero digits
    · rw [if_neg h]
      obtain ⟨h1, h2⟩ := log_bounds h
      have hu := ulp_pos digits x
      have hbound : |x / ulp digits x| < 2 ^ digits := by
        rw [abs_div, abs_of_pos hu, div_lt_iff₀ hu, ulp, ← zpow_natCast, ← zpow_add₀ (by norm_num)]
        rwa [show (digits : ℤ) + (Int.log 2 |x| + 1 - digits) = Int.log 2 |x| + 1 by ring]
      have hr : |round (x / ulp digits x)| ≤ 2 ^ digits := by
        have hx := abs_lt.1 hbound
        rw [two_zpow_nat] at hx
        rw [abs_le]
        constructor
        · by_contra hlt
          push Not at hlt
          have h3 : ((round (x / ulp digits x) : ℤ) : ℚ) ≤ -((2 ^ digits : ℤ) : ℚ) - 1 := by
            have : round (x / ulp digits x) ≤ -(2 ^ digits) - 1 := by omega
            exact_mod_cast this
          have h4 := abs_sub_round (x / ulp digits x)
          rw [abs_le] at h4
          linarith [h4.1, h4.2, hx.1]
        · by_contra hlt
          push Not at hlt
          have h3 : ((2 ^ digits : ℤ) : ℚ) + 1 ≤ ((round (x / ulp digits x) : ℤ) : ℚ) := by
            have : 2 ^ digits + 1 ≤ round (x / ulp digits x) := by omega
            exact_mod_cast this
          have h4 := abs_sub_round (x / ulp digits x)
          rw [abs_le] at h4
          linarith [h4.1, h4.2, hx.2]
      have hone : (1 : ℤ) < 2 ^ digits := one_lt_pow₀ (by norm_num) (by omega)
      rcases lt_or_eq_of_le hr with hlt | heq
      · exact ⟨round (x / ulp digits x), _, hlt, rfl⟩
      · rcases abs_choice (round (x / ulp digits x)) with hc | hc
        · refine ⟨1, digits + (Int.log 2 |x| + 1 - digits), by rw [abs_one]; exact hone, ?_⟩
          rw [← hc, heq, ulp, zpow_add₀ (by norm_num), zpow_natCast]
          push_cast
          ring
        · refine ⟨-1, digits + (Int.log 2 |x| + 1 - digits), by rw [abs_neg, abs_one]; exact hone, ?_⟩
          have : round (x / ulp digits x) = -2 ^ digits := by rw [← heq, hc]; ring
          rw [this, ulp, zpow_add₀ (by norm_num), zpow_natCast]
          push_cast
          ring
  · intro x y hy
    unfold rn
    by_cases h : x = 0
    · rw [if_pos h, h]; simp
    · rw [if_neg h]
      obtain ⟨h1, h2⟩ := log_bounds h
      have hu := ulp_pos digits x
      have hmul : ∀ z : ℤ, |x - (round (x / ulp digits x) : ℚ) * ulp digits x| ≤ |x - (z : ℚ) * ulp digits x| := by
        intro z
        have h3 := round_le (x / ulp digits x) z
        have e : ∀ t : ℚ, x - t * ulp digits x = (x / ulp digits x - t) * ulp digits x := by
          intro t
          rw [sub_mul, div_mul_cancel₀ _ hu.ne']
        rw [e, e, abs_mul, abs_mul, abs_of_pos hu]
        exact mul_le_mul_of_nonneg_right h3 hu.le
      have hunit : (2 : ℚ) ^ Int.log 2 |x| = ((2 ^ (digits - 1) : ℤ) : ℚ) * ulp digits x := by
        rw [ulp, ← two_zpow_nat, ← zpow_natCast, ← zpow_add₀ (by norm_num)]
        congr 1
        omega
      by_cases hbig : (2 : ℚ) ^ Int.log 2 |x| ≤ |y|
      · obtain ⟨m, e, hm, rfl⟩ := hy
        have hge : Int.log 2 |x| + 1 - digits ≤ e := by
          by_contra hlt
          push Not at hlt
          rw [abs_mul, abs_of_pos (by positivity : (0 : ℚ) < 2 ^ e)] at hbig
          have h3 : |(m : ℚ)| < 2 ^ digits := by
            rw [two_zpow_nat]
            rw [← Int.cast_abs]
            exact_mod_cast hm
          have h4 : |(m : ℚ)| * 2 ^ e < 2 ^ digits * 2 ^ e := mul_lt_mul_of_pos_right h3 (by positivity)
          have h5 : (2 : ℚ) ^ digits * 2 ^ e ≤ 2 ^ Int.log 2 |x| := by
            rw [← zpow_natCast, ← zpow_add₀ (by norm_num)]
            exact zpow_le_zpow_right₀ (by norm_num) (by omega)
          linarith
        obtain ⟨k, hk⟩ := Int.eq_ofNat_of_zero_le (show 0 ≤ e - (Int.log 2 |x| + 1 - digits) by omega)
        have hy : (m : ℚ) * 2 ^ e = ((m * 2 ^ k : ℤ) : ℚ) * ulp digits x := by
          rw [ulp]
          push_cast
          rw [mul_assoc, ← zpow_natCast, ← zpow_add₀ (by norm_num), ← hk]
          congr 2
          ring
        rw [hy]
        exact hmul _
      · push Not at hbig
        rcases lt_or_gt_of_ne h with hneg | hpos
        · refine le_trans (hmul (-(2 ^ (digits - 1)))) ?_
          have e : ((-(2 ^ (digits - 1)) : ℤ) : ℚ) * ulp digits x = -2 ^ Int.log 2 |x| := by
            rw [hunit]; push_cast; ring
          rw [e]
          rw [abs_of_neg hneg] at h1 hbig ⊢
          have hb := abs_lt.1 hbig
          rw [abs_of_nonpos (by linarith), abs_of_nonpos (by linarith [hb.1])]
          linarith [hb.1]
        · refine le_trans (hmul (2 ^ (digits - 1))) ?_
          rw [← hunit]
          rw [abs_of_pos hpos] at h1 hbig ⊢
          have hb := abs_lt.1 hbig
          rw [abs_of_nonneg (by linarith), abs_of_nonneg (by linarith [hb.2])]
          linarith [hb.2]

end Boost.Random
