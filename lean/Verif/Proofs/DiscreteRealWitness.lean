import Verif.Proofs.PoissonPtrd
import Verif.Proofs.Geometric
import Mathlib.Analysis.Complex.ExponentialBounds
import Mathlib.MeasureTheory.Measure.Lebesgue.Basic
import Mathlib.Data.Nat.Choose.Factorization

/-!
# Witnesses and measures for the discrete distributions with real parameters
-/

namespace Boost.Random
open Spec

/-- A set between an open and a closed interval. -/
theorem volume_between {S : Set ℝ} {a b : ℝ} (h1 : Set.Ioo a b ⊆ S) (h2 : S ⊆ Set.Icc a b) : MeasureTheory.volume S = ENNReal.ofReal (b - a) :=
  le_antisymm ((MeasureTheory.measure_mono h2).trans_eq Real.volume_Icc) (Real.volume_Ioo.symm.trans_le (MeasureTheory.measure_mono h1))

theorem isLeast_cdf_iff {f : Nat → ℝ} (h : ∀ k, 0 ≤ f k) {u : ℝ} {k : Nat} :
    IsLeast {k | u ≤ cdf f k} k ↔ u ≤ cdf f k ∧ (k = 0 ∨ cdf f k - f k < u) := by
  constructor
  · rintro ⟨h1, h2⟩
    refine ⟨h1, ?_⟩
    rcases k with - | k
    · exact Or.inl rfl
    · right
      rw [cdf_succ]
      by_contra hc
      have := h2 (show u ≤ cdf f k by linarith)
      omega
  · rintro ⟨h1, h2⟩
    refine ⟨h1, fun j hj => ?_⟩
    by_contra hlt
    rcases h2 with rfl | h2
    · omega
    · obtain ⟨k, rfl⟩ : ∃ i, k = i + 1 := ⟨k - 1, by omega⟩
      rw [cdf_succ] at h2
      have h3 : u ≤ cdf f j := hj
      have := cdf_mono h (show j ≤ k by omega)
      linarith

theorem cdf_sub_nonneg {f : Nat → ℝ} (h : ∀ k, 0 ≤ f k) (k : Nat) : 0 ≤ cdf f k - f k := by
  unfold cdf
  rw [Finset.sum_range_succ, add_sub_cancel_right]
  exact Finset.sum_nonneg fun i _ => h i

/-- The measure of the values of `u` for which inversion gives `k`. -/
theorem volume_cdf {f : Nat → ℝ} (h : ∀ k, 0 ≤ f k) {k : Nat} (h1 : cdf f k ≤ 1) :
    MeasureTheory.volume {u : ℝ | 0 ≤ u ∧ u < 1 ∧ IsLeast {k | u ≤ cdf f k} k} = ENNReal.ofReal (f k) := by
  have := volume_between (S := {u : ℝ | 0 ≤ u ∧ u < 1 ∧ IsLeast {k | u ≤ cdf f k} k}) (a := cdf f k - f k) (b := cdf f k) ?_ ?_
  · rw [this]; congr 1; ring
  · rintro u ⟨a, b⟩
    have := cdf_sub_nonneg h k
    refine ⟨by linarith, by linarith, (isLeast_cdf_iff h).2 ⟨b.le, Or.inr a⟩⟩
  · rintro u ⟨a, b, c⟩
    obtain ⟨c1, c2⟩ := (isLeast_cdf_iff h).1 c
    refine ⟨?_, c1⟩
    rcases c2 with rfl | c2
    · have : cdf f 0 = f 0 := by simp [cdf]
      linarith
    · exact c2.le

namespace Binomial

/-- The candidate 0 of 10000 trials of probability 1/200. -/
theorem squeeze_witness : 199 ^ 50 * Real.exp 45 < (Nat.choose 10000 50 : ℝ) := by
  have he : Real.exp 45 ≤ 2.7182818286 ^ 45 := by
    rw [show (45 : ℝ) = ((45 : Nat) : ℝ) * 1 by norm_num, Real.exp_nat_mul]
    exact pow_le_pow_left₀ (Real.exp_pos _).le Real.exp_one_lt_d9.le 45
  have hc : (199 : ℝ) ^ 50 * 2.7182818286 ^ 45 < (Nat.choose 10000 50 : ℝ) := by
    rw [Nat.choose_eq_descFactorial_div_factorial]
    norm_num [Nat.descFactorial, Nat.factorial]
  have : (0 : ℝ) < 199 ^ 50 := by positivity
  nlinarith

theorem acceptFar_witness : acceptFar exactOps (btrd exactOps (10000 : Nat) (1 / 200)) 10000 50 0 (Real.exp (-45)) = true ∧
    binPmf 10000 (1 / 200 : ℝ) 0 / binPmf 10000 (1 / 200 : ℝ) 50 < Real.exp (-45) := by
  constructor
  · unfold acceptFar
    rw [if_neg (Real.exp_pos _).ne']
    dsimp only
    rw [if_pos]
    simp only [exactOps, id, Real.log_exp, rho, btrd]
    norm_num [abs_of_neg]
  · have h := squeeze_witness
    have e : binPmf 10000 (1 / 200 : ℝ) 0 / binPmf 10000 (1 / 200 : ℝ) 50 = 199 ^ 50 / (Nat.choose 10000 50 : ℝ) := by
      unfold binPmf
      have h1 : ((1 : ℝ) - 1 / 200) ^ 10000 = (199 / 200) ^ 50 * (199 / 200) ^ 9950 := by rw [← pow_add]; norm_num
      generalize (Nat.choose 10000 50 : ℝ) = C at *
      rw [Nat.choose_zero_right, Nat.sub_zero, h1, show (10000 - 50 : Nat) = 9950 from rfl, show (1 : ℝ) - 1 / 200 = 199 / 200 by norm_num]
      have hp : (0 : ℝ) < (199 / 200) ^ 9950 := by positivity
      generalize ((199 : ℝ) / 200) ^ 9950 = X at *
      rw [Nat.cast_one, pow_zero, one_mul, one_mul, mul_div_mul_right _ _ hp.ne', div_pow, div_pow, one_pow, mul_one_div]
      rw [div_div_div_cancel_right₀ (by positivity)]
    rw [e, Real.exp_neg, div_lt_iff₀ (lt_trans (by positivity) h), ← div_eq_inv_mul, lt_div_iff₀ (Real.exp_pos _)]
    exact h

end Binomial
end Boost.Random
