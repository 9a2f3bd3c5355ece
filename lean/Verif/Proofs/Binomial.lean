import Verif.Model.Binomial
import Verif.Spec.DiscreteReal
import Mathlib.Algebra.Order.Floor.Ring
import Mathlib.Data.Nat.Choose.Sum
import Mathlib.Data.Nat.Choose.Cast
import Mathlib.Tactic.Linarith
import Mathlib.Tactic.Ring
import Mathlib.Tactic.FieldSimp
import Mathlib.Tactic.Positivity
import Mathlib.Tactic.NormNum
import Mathlib.Tactic.Push

/-!
# The binomial distribution: inversion in exact arithmetic
-/

namespace Boost.Random
open Spec Finset

theorem binPmf_nonneg {t : Nat} {p : ℝ} (h0 : 0 ≤ p) (h1 : p ≤ 1) (k : Nat) : 0 ≤ binPmf t p k := by
  unfold binPmf
  have : 0 ≤ 1 - p := by linarith
  positivity

theorem binPmf_succ {t : Nat} {p : ℝ} (h1 : p ≠ 1) (k : Nat) : ((t + 1 : ℝ) * (p / (1 - p)) / (k + 1 : ℝ) - p / (1 - p)) * binPmf t p k = binPmf t p (k + 1) := by
  have hq : 1 - p ≠ 0 := sub_ne_zero.2 (Ne.symm h1)
  have hk : (k + 1 : ℝ) ≠ 0 := by positivity
  unfold binPmf
  rcases lt_trichotomy k t with h | h | h
  · have hc : (t.choose (k + 1) : ℝ) * (k + 1) = t.choose k * (t - k) := by
      have := Nat.choose_succ_right_eq t k
      rw [← Nat.cast_sub h.le]
      exact_mod_cast this
    have hp : (1 - p) ^ (t - k) = (1 - p) ^ (t - (k + 1)) * (1 - p) := by rw [← pow_succ]; congr 1; omega
    rw [hp]
    have : (t.choose (k + 1) : ℝ) = t.choose k * (t - k) / (k + 1) := by field_simp; linarith [hc]
    rw [this]
    field_simp
    ring
  · subst h
    rw [Nat.choose_succ_self, Nat.cast_zero]
    field_simp
    ring
  · rw [Nat.choose_eq_zero_of_lt h, Nat.choose_eq_zero_of_lt (by omega)]
    simp

theorem cdf_binPmf {t : Nat} {p : ℝ} : cdf (binPmf t p) t = 1 := by
  unfold cdf binPmf
  have := add_pow p (1 - p) t
  rw [show p + (1 - p) = 1 by ring, one_pow] at this
  refine Eq.trans (sum_congr rfl fun i _ => ?_) this.symm
  ring

theorem cdf_succ {f : Nat → ℝ} (k : Nat) : cdf f (k + 1) = cdf f k + f (k + 1) := by
  unfold cdf; rw [sum_range_succ]

theorem cdf_mono {f : Nat → ℝ} (h : ∀ k, 0 ≤ f k) : Monotone (cdf f) :=
  monotone_nat_of_le_succ fun n => by rw [cdf_succ]; linarith [h (n + 1)]

namespace Binomial

/-- The loop stops at the least value whose cumulative probability reaches `u`, or whose probability is cut off. -/
theorem invertLoop_exact {t : Nat} {p u eps : ℝ} (h1 : p < 1) (hu : u < 1) :
    ∀ (fuel x : Nat), t < x + fuel + 1 → x ≤ t → (∀ k < x, cdf (binPmf t p) k < u ∧ ¬ Cut (binPmf t p) eps k) → ¬ Cut (binPmf t p) eps x →
      ∃ y, invertLoop exactOps eps ((t + 1 : ℝ) * (p / (1 - p))) (p / (1 - p)) fuel x (u - (cdf (binPmf t p) x - binPmf t p x)) (binPmf t p x) = some y ∧
        y ≤ t ∧ IsLeast {k | u ≤ cdf (binPmf t p) k ∨ Cut (binPmf t p) eps k} y := by
  have fin : ∀ x, u ≤ cdf (binPmf t p) x → (∀ k < x, cdf (binPmf t p) k < u ∧ ¬ Cut (binPmf t p) eps k) →
      IsLeast {k | u ≤ cdf (binPmf t p) k ∨ Cut (binPmf t p) eps k} x := by
    intro x hx hlt
    refine ⟨Or.inl hx, fun k hk => ?_⟩
    by_contra hkx
    obtain ⟨a, b⟩ := hlt k (by omega)
    rcases hk with hk | hk
    · exact absurd hk (not_le.2 a)
    · exact b hk
  intro fuel
  induction fuel with
  | zero =>
    intro x hf hx hlt hc
    have hxt : x = t := by omega
    have hle : u ≤ cdf (binPmf t p) x := by rw [hxt, cdf_binPmf]; exact hu.le
    refine ⟨x, ?_, hx, fin x hle hlt⟩
    rw [invertLoop, if_neg (by linarith)]
  | succ n ih =>
    intro x hf hx hlt hc
    rw [invertLoop]
    by_cases hgt : u - (cdf (binPmf t p) x - binPmf t p x) > binPmf t p x
    · rw [if_pos hgt]
      have hux : cdf (binPmf t p) x < u := by linarith
      have hxt : x < t := by
        rcases Nat.lt_or_ge x t with h | h
        · exact h
        · have : x = t := by omega
          rw [this, cdf_binPmf] at hux
          exact absurd hux (by linarith)
      have hr1 : exactOps.fl (exactOps.fl (exactOps.fl ((t + 1 : ℝ) * (p / (1 - p)) / exactOps.fl ((x + 1 : Nat) : ℝ)) - p / (1 - p)) * binPmf t p x) = binPmf t p (x + 1) := by
        have := binPmf_succ (t := t) h1.ne x
        show ((t + 1 : ℝ) * (p / (1 - p)) / ((x + 1 : Nat) : ℝ) - p / (1 - p)) * binPmf t p x = _
        rw [← this]; push_cast; rfl
      have hlt' : ∀ k < x + 1, cdf (binPmf t p) k < u ∧ ¬ Cut (binPmf t p) eps k := by
        intro k hk
        rcases Nat.lt_succ_iff_lt_or_eq.1 hk with h | h
        · exact hlt k h
        · rw [h]; exact ⟨hux, hc⟩
      simp only [hr1]
      by_cases hcut : binPmf t p (x + 1) < eps ∧ binPmf t p (x + 1) < binPmf t p x
      · rw [if_pos hcut]
        refine ⟨x + 1, rfl, hxt, Or.inr ⟨by omega, hcut.1, hcut.2⟩, fun k hk => ?_⟩
        by_contra hkx
        obtain ⟨a, b⟩ := hlt' k (by omega)
        rcases hk with hk | hk
        · exact absurd hk (not_le.2 a)
        · exact b hk
      · rw [if_neg hcut]
        obtain ⟨y, hy⟩ := ih (x + 1) (by omega) (by omega) hlt' (fun h => hcut ⟨h.2.1, h.2.2⟩)
        refine ⟨y, ?_, hy.2⟩
        rw [← hy.1]
        congr 1
        show u - (cdf (binPmf t p) x - binPmf t p x) - binPmf t p x = _
        rw [cdf_succ]; ring
    · rw [if_neg hgt]
      exact ⟨x, rfl, hx, fin x (by linarith) hlt⟩

theorem invert_exact {bits t : Nat} {p u eps : ℝ} (h1 : p < 1) (hu : u < 1) (ht : t < 2 ^ (bits - 1)) :
    ∃ y, invert exactOps bits eps t p ((1 - p) ^ t) u = some y ∧ y ≤ t ∧ IsLeast {k | u ≤ cdf (binPmf t p) k ∨ Cut (binPmf t p) eps k} y := by
  have hb : binPmf t p 0 = (1 - p) ^ t := by simp [binPmf]
  have hc : cdf (binPmf t p) 0 = binPmf t p 0 := by simp [cdf]
  obtain ⟨y, hy⟩ := invertLoop_exact (t := t) (u := u) (eps := eps) h1 hu (2 ^ (bits - 1) - 1) 0 (by omega) (by omega) (by omega) (fun h => absurd h.1 (by omega))
  refine ⟨y, ?_, hy.2⟩
  rw [← hy.1, hc, sub_self, sub_zero, hb]
  unfold invert
  simp only [exactOps, id]
  push_cast
  rfl

end Binomial
end Boost.Random
