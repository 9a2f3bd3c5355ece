import Verif.Spec.Stirling
import Mathlib.Analysis.SpecialFunctions.Stirling
import Mathlib.Tactic.Linarith
import Mathlib.Tactic.Ring
import Mathlib.Tactic.FieldSimp
import Mathlib.Tactic.Positivity

/-!
# Bounds for the error of Stirling's formula
-/

namespace Boost.Random
open Spec Stirling Filter Topology

/-- Three terms of the asymptotic series. -/
noncomputable def stirlingSeries (n : ℝ) : ℝ := 1 / (12 * n) - 1 / (360 * n ^ 3) + 1 / (1260 * n ^ 5)

theorem stirlingError_eq {n : Nat} (hn : 1 ≤ n) : stirlingError n = Real.log (stirlingSeq n) - Real.log Real.pi / 2 := by
  have h0 : (n : ℝ) ≠ 0 := by positivity
  unfold stirlingError
  rw [log_stirlingSeq_formula, Real.log_mul (by norm_num) h0, Real.log_div h0 (Real.exp_pos 1).ne', Real.log_exp, Real.log_mul (by norm_num) Real.pi_pos.ne']
  ring

/-- The series of the difference of two neighbouring errors. -/
theorem stirlingError_hasSum {n : Nat} (hn : 1 ≤ n) :
    HasSum (fun k : ℕ => (1 : ℝ) / (2 * k + 3) * (1 / (2 * n + 1) ^ 2) ^ (k + 1)) (stirlingError n - stirlingError (n + 1)) := by
  obtain ⟨m, rfl⟩ : ∃ m, n = m + 1 := ⟨n - 1, by omega⟩
  have := log_stirlingSeq_sdiff_hasSum m
  rw [stirlingError_eq hn, stirlingError_eq (by omega), sub_sub_sub_cancel_right]
  have e : (fun k : ℕ => (1 : ℝ) / (2 * k + 3) * (1 / (2 * (m + 1 : ℕ) + 1) ^ 2) ^ (k + 1)) =
      fun k : ℕ => (1 : ℝ) / (2 * ↑(k + 1) + 1) * ((1 / (2 * ↑(m + 1) + 1)) ^ 2) ^ (k + 1) := by
    funext k
    rw [div_pow 1 (2 * ((m + 1 : ℕ) : ℝ) + 1) 2, one_pow, show (2 * ((k + 1 : ℕ) : ℝ) + 1) = 2 * k + 3 by push_cast; ring]
  rw [e]
  exact this

/-- `d` terms of the series are a lower bound; replacing the coefficients of the others by the first of them gives an upper bound. -/
theorem stirlingError_diff {n : Nat} (hn : 1 ≤ n) (d : Nat) :
    ∑ k ∈ Finset.range d, (1 : ℝ) / (2 * k + 3) * (1 / (2 * n + 1) ^ 2) ^ (k + 1) ≤ stirlingError n - stirlingError (n + 1) ∧
      stirlingError n - stirlingError (n + 1) ≤ ∑ k ∈ Finset.range d, (1 : ℝ) / (2 * k + 3) * (1 / (2 * n + 1) ^ 2) ^ (k + 1) +
        1 / (2 * d + 3) * (1 / (2 * n + 1) ^ 2) ^ d / (4 * n * (n + 1)) := by
  have hs := stirlingError_hasSum hn
  have hn' : (1 : ℝ) ≤ n := by exact_mod_cast hn
  have hy0 : (0 : ℝ) < 1 / (2 * n + 1) ^ 2 := by positivity
  have hy1 : (1 : ℝ) / (2 * n + 1) ^ 2 < 1 := by
    rw [div_lt_one (by positivity)]
    nlinarith
  have hgeo : (1 / (2 * (n : ℝ) + 1) ^ 2 : ℝ) * (1 - 1 / (2 * (n : ℝ) + 1) ^ 2)⁻¹ = 1 / (4 * n * (n + 1)) := by
    have : (1 - 1 / (2 * n + 1) ^ 2 : ℝ) = 4 * n * (n + 1) / (2 * n + 1) ^ 2 := by field_simp; ring
    rw [this]
    field_simp
  generalize (1 : ℝ) / (2 * n + 1) ^ 2 = y at *
  constructor
  · apply sum_le_hasSum _ _ hs
    intro k _
    positivity
  · have h1 := (hasSum_nat_add_iff' d).2 hs
    have h2 : HasSum (fun k : ℕ => 1 / (2 * d + 3) * y ^ d * y * y ^ k) (1 / (2 * d + 3) * y ^ d * y * (1 - y)⁻¹) := (hasSum_geometric_of_lt_one hy0.le hy1).mul_left _
    have h3 := hasSum_le (fun k => ?_) h1 h2
    · rw [mul_assoc, hgeo] at h3
      rw [div_eq_mul_one_div (1 / (2 * (d : ℝ) + 3) * y ^ d)]
      linarith
    · have : (1 : ℝ) / (2 * (k + d : ℕ) + 3) ≤ 1 / (2 * d + 3) := by
        apply div_le_div_of_nonneg_left (by norm_num) (by positivity)
        push_cast
        linarith [(Nat.cast_nonneg k : (0 : ℝ) ≤ k)]
      have e : y ^ (k + d + 1) = y ^ d * y * y ^ k := by ring
      rw [e, show 1 / (2 * (d : ℝ) + 3) * y ^ d * y * y ^ k = 1 / (2 * (d : ℝ) + 3) * (y ^ d * y * y ^ k) by ring]
      exact mul_le_mul_of_nonneg_right this (by positivity)

theorem series_step_upper {n : ℝ} (hn : 0 < n) :
    1 / 3 * (1 / (2 * n + 1) ^ 2) + 1 / 5 * (1 / (2 * n + 1) ^ 2) ^ 2 + 1 / 7 * (1 / (2 * n + 1) ^ 2) ^ 3 + 1 / 9 * (1 / (2 * n + 1) ^ 2) ^ 3 / (4 * n * (n + 1)) ≤
      stirlingSeries n - stirlingSeries (n + 1) := by
  obtain ⟨w, hw⟩ : ∃ w, w = n * (n + 1) := ⟨_, rfl⟩
  have hw0 : 0 < w := by rw [hw]; positivity
  have hz : (2 * n + 1) ^ 2 = 4 * w + 1 := by rw [hw]; ring
  have e : stirlingSeries n - stirlingSeries (n + 1) = 1 / (12 * w) - (3 * w + 1) / (360 * w ^ 3) + (5 * w ^ 2 + 5 * w + 1) / (1260 * w ^ 5) := by
    unfold stirlingSeries
    rw [hw]
    field_simp
    ring
  rw [e, hz, show 4 * n * (n + 1) = 4 * w by rw [hw]; ring, ← sub_nonneg]
  have : 1 / (12 * w) - (3 * w + 1) / (360 * w ^ 3) + (5 * w ^ 2 + 5 * w + 1) / (1260 * w ^ 5) -
      (1 / 3 * (1 / (4 * w + 1)) + 1 / 5 * (1 / (4 * w + 1)) ^ 2 + 1 / 7 * (1 / (4 * w + 1)) ^ 3 + 1 / 9 * (1 / (4 * w + 1)) ^ 3 / (4 * w)) =
      (1 / 1260 * w ^ 2 + 1 / 60 * w ^ 3 + 71 / 504 * w ^ 4 + 1499 / 2520 * w ^ 5 + 113 / 90 * w ^ 6 + 16 / 15 * w ^ 7) / (w ^ 7 * (4 * w + 1) ^ 4) := by
    field_simp
    ring
  rw [this]
  positivity

theorem series_step_lower {n : ℝ} (hn : 0 < n) :
    stirlingSeries n - stirlingSeries (n + 1) - (1 / (1680 * n ^ 7) - 1 / (1680 * (n + 1) ^ 7)) ≤
      1 / 3 * (1 / (2 * n + 1) ^ 2) + 1 / 5 * (1 / (2 * n + 1) ^ 2) ^ 2 + 1 / 7 * (1 / (2 * n + 1) ^ 2) ^ 3 + 1 / 9 * (1 / (2 * n + 1) ^ 2) ^ 4 := by
  obtain ⟨w, hw⟩ : ∃ w, w = n * (n + 1) := ⟨_, rfl⟩
  have hw0 : 0 < w := by rw [hw]; positivity
  have hz : (2 * n + 1) ^ 2 = 4 * w + 1 := by rw [hw]; ring
  have e : stirlingSeries n - stirlingSeries (n + 1) = 1 / (12 * w) - (3 * w + 1) / (360 * w ^ 3) + (5 * w ^ 2 + 5 * w + 1) / (1260 * w ^ 5) := by
    unfold stirlingSeries
    rw [hw]
    field_simp
    ring
  have e' : 1 / (1680 * n ^ 7) - 1 / (1680 * (n + 1) ^ 7) = (7 * w ^ 3 + 14 * w ^ 2 + 7 * w + 1) / (1680 * w ^ 7) := by
    rw [hw]
    field_simp
    ring
  rw [e, e', hz, ← sub_nonneg]
  have : 1 / 3 * (1 / (4 * w + 1)) + 1 / 5 * (1 / (4 * w + 1)) ^ 2 + 1 / 7 * (1 / (4 * w + 1)) ^ 3 + 1 / 9 * (1 / (4 * w + 1)) ^ 4 -
      (1 / (12 * w) - (3 * w + 1) / (360 * w ^ 3) + (5 * w ^ 2 + 5 * w + 1) / (1260 * w ^ 5) - (7 * w ^ 3 + 14 * w ^ 2 + 7 * w + 1) / (1680 * w ^ 7)) =
      (1 / 1680 + 23 / 1680 * w + 331 / 2520 * w ^ 2 + 377 / 560 * w ^ 3 + 4901 / 2520 * w ^ 4 + 7573 / 2520 * w ^ 5 + 23 / 12 * w ^ 6) / (w ^ 7 * (4 * w + 1) ^ 4) := by
    field_simp
    ring
  rw [this]
  positivity

theorem tendsto_stirlingError : Tendsto (fun n : ℕ => stirlingError (n + 1)) atTop (𝓝 0) := by
  have h1 : Tendsto (fun n : ℕ => Real.log (stirlingSeq (n + 1)) - Real.log Real.pi / 2) atTop (𝓝 (Real.log (Real.sqrt Real.pi) - Real.log Real.pi / 2)) :=
    (((Real.continuousAt_log (Real.sqrt_pos.2 Real.pi_pos).ne').tendsto.comp tendsto_stirlingSeq_sqrt_pi).comp (tendsto_add_atTop_nat 1)).sub_const _
  rw [Real.log_sqrt Real.pi_pos.le, sub_self] at h1
  refine h1.congr fun n => ?_
  rw [stirlingError_eq (by omega)]

theorem tendsto_inv_pow (c : ℝ) {j : Nat} (hj : j ≠ 0) : Tendsto (fun n : ℕ => 1 / (c * ((n + 1 : ℕ) : ℝ) ^ j)) atTop (𝓝 0) := by
  have h1 : Tendsto (fun n : ℕ => 1 / ((n : ℝ) + 1)) atTop (𝓝 0) := tendsto_one_div_add_atTop_nhds_zero_nat
  have h2 := (h1.pow j).const_mul (1 / c)
  rw [zero_pow hj, mul_zero] at h2
  refine h2.congr fun n => ?_
  push_cast
  rw [div_pow, one_pow, div_mul_div_comm, one_mul]

theorem tendsto_stirlingSeries : Tendsto (fun n : ℕ => stirlingSeries ((n + 1 : ℕ) : ℝ)) atTop (𝓝 0) := by
  have := ((tendsto_inv_pow 12 one_ne_zero).sub (tendsto_inv_pow 360 (j := 3) (by norm_num))).add (tendsto_inv_pow 1260 (j := 5) (by norm_num))
  simpa only [stirlingSeries, pow_one, sub_zero, add_zero] using this

/-- The error is between the series with four and with three terms. -/
theorem stirlingError_bounds {n : Nat} (hn : 1 ≤ n) : stirlingSeries n - 1 / (1680 * (n : ℝ) ^ 7) ≤ stirlingError n ∧ stirlingError n ≤ stirlingSeries n := by
  obtain ⟨m, rfl⟩ : ∃ m, n = m + 1 := ⟨n - 1, by omega⟩
  constructor
  · have hanti : Antitone fun n : ℕ => stirlingError (n + 1) - (stirlingSeries ((n + 1 : ℕ) : ℝ) - 1 / (1680 * ((n + 1 : ℕ) : ℝ) ^ 7)) := by
      apply antitone_nat_of_succ_le
      intro k
      have h1 := (stirlingError_diff (n := k + 1) (by omega) 4).1
      have h2 := series_step_lower (n := ((k + 1 : ℕ) : ℝ)) (by positivity)
      simp only [Finset.sum_range_succ, Finset.sum_range_zero] at h1
      norm_num at h1 h2 ⊢
      have e : ((k : ℝ) + 1 + 1) = k + 2 := by ring
      simp only [e] at *
      linarith
    have hlim := tendsto_stirlingError.sub (tendsto_stirlingSeries.sub (tendsto_inv_pow 1680 (j := 7) (by norm_num)))
    rw [sub_zero, sub_zero] at hlim
    have := hanti.le_of_tendsto hlim m
    linarith
  · have hmono : Monotone fun n : ℕ => stirlingError (n + 1) - stirlingSeries ((n + 1 : ℕ) : ℝ) := by
      apply monotone_nat_of_le_succ
      intro k
      have h1 := (stirlingError_diff (n := k + 1) (by omega) 3).2
      have h2 := series_step_upper (n := ((k + 1 : ℕ) : ℝ)) (by positivity)
      simp only [Finset.sum_range_succ, Finset.sum_range_zero] at h1
      norm_num at h1 h2 ⊢
      have e : ((k : ℝ) + 1 + 1) = k + 2 := by ring
      simp only [e] at *
      linarith
    have hlim := tendsto_stirlingError.sub tendsto_stirlingSeries
    rw [sub_zero] at hlim
    have := hmono.ge_of_tendsto hlim m
    linarith

end Boost.Random
