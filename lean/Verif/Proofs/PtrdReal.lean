import Verif.Proofs.PtrdBox
import Verif.Proofs.Stirling
import Verif.Spec.DiscreteReal
import Verif.Spec.Trd
import Mathlib.Analysis.SpecialFunctions.Arsinh

/-!
# The probabilities of the Poisson distribution, and the tails of the hat of PTRD
-/

namespace Boost.Random.PtrdBox

open Boost.Random.Affine Spec

/-! ## The probabilities -/

theorem G_eq {t δ : ℝ} (hδ : 0 < δ) (hy : 0 < 1 + t * δ) :
    G t δ = ((1 + t * δ) * Real.log (1 + t * δ) - t * δ) / δ ^ 2 + Real.log (1 + t * δ) / 2 := by
  obtain ⟨y, rfl⟩ : ∃ y, t = y / δ := ⟨t * δ, by field_simp⟩
  have e0 : y / δ * δ = y := by field_simp
  rw [e0] at hy
  have h2 : 0 < y + 2 := by linarith
  have hz : y / δ * (y + 2)⁻¹ * δ = y / (y + 2) := by field_simp
  simp only [G, e0, hz]
  have hs := rest_spec (y / (y + 2))
  have e1 : (1 + y / (y + 2)) / (1 - y / (y + 2)) = 1 + y := by
    have : 1 - y / (y + 2) = 2 / (y + 2) := by field_simp; ring
    rw [this]; field_simp; ring
  rw [e1] at hs
  have hl : Real.log (1 + y) = 2 * (y / (y + 2) + (y / (y + 2)) ^ 3 * rest (y / (y + 2))) := by linarith
  rw [hl]
  generalize rest (y / (y + 2)) = ρ
  field_simp
  ring

theorem stirling_bounds {k : Nat} (hk : 1 ≤ k) : 1 / 12 * (1 / (k : ℝ)) - (1 / (k : ℝ)) ^ 3 / 360 ≤ stirlingError k ∧ stirlingError k ≤ 1 / 12 * (1 / (k : ℝ)) := by
  obtain ⟨h1, h2⟩ := stirlingError_bounds hk
  have hk' : (1 : ℝ) ≤ k := by exact_mod_cast hk
  have hk0 : (0 : ℝ) < k := by linarith
  unfold stirlingSeries at h1 h2
  have i0 : 0 < 1 / (k : ℝ) := by positivity
  have i1 : 1 / (k : ℝ) ≤ 1 := by rw [div_le_one hk0]; exact hk'
  have a1 : 1 / (12 * (k : ℝ)) = 1 / 12 * (1 / (k : ℝ)) := by field_simp
  have a3 : 1 / (360 * (k : ℝ) ^ 3) = (1 / (k : ℝ)) ^ 3 / 360 := by field_simp
  have a5 : 1 / (1260 * (k : ℝ) ^ 5) = (1 / (k : ℝ)) ^ 5 / 1260 := by field_simp
  have a7 : 1 / (1680 * (k : ℝ) ^ 7) = (1 / (k : ℝ)) ^ 7 / 1680 := by field_simp
  rw [a1, a3, a5] at h1 h2
  rw [a7] at h1
  generalize 1 / (k : ℝ) = q at *
  have q2 : q ^ 2 ≤ 1 := pow_le_one₀ i0.le i1
  have q5 : q ^ 5 ≤ q ^ 3 := by
    calc q ^ 5 = q ^ 3 * q ^ 2 := by ring
      _ ≤ q ^ 3 * 1 := mul_le_mul_of_nonneg_left q2 (by positivity)
      _ = q ^ 3 := mul_one _
  have q7 : q ^ 7 ≤ q ^ 5 := by
    calc q ^ 7 = q ^ 5 * q ^ 2 := by ring
      _ ≤ q ^ 5 * 1 := mul_le_mul_of_nonneg_left q2 (by positivity)
      _ = q ^ 5 := mul_one _
  have : 0 < q ^ 5 := by positivity
  have : 0 < q ^ 3 := by positivity
  constructor <;> linarith

section
variable {μ : ℝ} (hμ : 0 < μ)
include hμ

/-- The logarithm of a probability, over the one at the mode of a normal distribution. -/
theorem log_pmf {k : Nat} (hk : 1 ≤ k) :
    Real.log (poissonPmf μ k * Real.sqrt μ) = -(G ((k - μ) * (Real.sqrt μ)⁻¹) (Real.sqrt μ)⁻¹ + Real.log (2 * Real.pi) / 2 + stirlingError k) := by
  have hk0 : (0 : ℝ) < k := by exact_mod_cast hk
  have hs : 0 < Real.sqrt μ := Real.sqrt_pos.2 hμ
  have hq : Real.sqrt μ * Real.sqrt μ = μ := Real.mul_self_sqrt hμ.le
  have e1 : (k - μ) * (Real.sqrt μ)⁻¹ * (Real.sqrt μ)⁻¹ = k / μ - 1 := by
    rw [mul_assoc, ← mul_inv, hq]; field_simp
  rw [G_eq (inv_pos.2 hs) (by rw [e1]; have : 0 < (k : ℝ) / μ := by positivity
                              linarith), e1]
  have e2 : ((Real.sqrt μ)⁻¹) ^ 2 = μ⁻¹ := by rw [sq, ← mul_inv, hq]
  have e3 : 1 + ((k : ℝ) / μ - 1) = k / μ := by ring
  rw [e2, e3, Real.log_div hk0.ne' hμ.ne']
  unfold poissonPmf stirlingError
  have hf : (0 : ℝ) < k.factorial := by exact_mod_cast k.factorial_pos
  have e4 : Real.log (Real.sqrt μ) = Real.log μ / 2 := Real.log_sqrt hμ.le
  rw [Real.log_mul (by positivity) hs.ne', Real.log_div (by positivity) hf.ne', Real.log_mul (by positivity) (by positivity), Real.log_exp, Real.log_pow, e4, div_inv_eq_mul]
  have e5 : (k / μ * (Real.log k - Real.log μ) - (k / μ - 1)) * μ = k * (Real.log k - Real.log μ) - (k - μ) := by field_simp
  rw [e5]
  ring

end

/-- The number of `sqrt μ`. -/
theorem delta_facts {μ : ℝ} (hm : 10 ≤ μ) : 0 < Real.sqrt μ ∧ 0 < (Real.sqrt μ)⁻¹ ∧ (Real.sqrt μ)⁻¹ ≤ 31623 / 100000 ∧ 316 / 100 ≤ Real.sqrt μ ∧ Real.sqrt μ * Real.sqrt μ = μ ∧
    Real.sqrt μ * (Real.sqrt μ)⁻¹ = 1 := by
  have h1 : 316227 / 100000 ≤ Real.sqrt μ := Real.le_sqrt_of_sq_le (by norm_num; linarith)
  have h0 : 0 < Real.sqrt μ := by linarith
  refine ⟨h0, inv_pos.2 h0, ?_, by linarith, Real.mul_self_sqrt (by linarith), mul_inv_cancel₀ h0.ne'⟩
  rw [inv_le_comm₀ h0 (by norm_num)]
  refine le_trans ?_ h1
  norm_num

theorem const_bounds {δ : ℝ} (h0 : 0 ≤ δ) (h1 : δ ≤ 31623 / 100000) : 514 / 10000 ≤ A δ ∧ A δ ≤ 629 / 10000 ∧ 253 / 100 ≤ B δ ∧ B δ ≤ 283 / 100 ∧ 11239 / 10000 ≤ IA δ ∧ 0 < VR δ := by
  unfold A B IA VR
  have i1 : 0 < (253 / 100 - 2469 / 1000 * δ)⁻¹ := inv_pos.2 (by linarith)
  have i2 : (253 / 100 - 1069 / 1000 * δ)⁻¹ ≤ 10 / 21 := by rw [inv_le_comm₀ (by linarith) (by norm_num)]; linarith
  have i3 : 0 ≤ δ * (253 / 100 - 2469 / 1000 * δ)⁻¹ := by positivity
  have i4 : δ * (253 / 100 - 1069 / 1000 * δ)⁻¹ ≤ 31623 / 100000 * (10 / 21) := mul_le_mul h1 i2 (inv_nonneg.2 (by linarith)) (by norm_num)
  refine ⟨by linarith, by linarith, by linarith, by linarith, by linarith, by linarith⟩

/-! ## The tails -/

/-- `(1 + y) log (1 + y) - y` for `y` below zero. -/
theorem entropy_neg {y : ℝ} (h0 : 0 < 1 + y) (h1 : y ≤ 0) : y ^ 2 / 2 ≤ (1 + y) * Real.log (1 + y) - y := by
  have h2 : 0 ≤ Real.log (1 + y)⁻¹ := Real.log_nonneg (by rw [one_le_inv₀ h0]; linarith)
  have h3 := Real.self_le_sinh_iff.2 h2
  rw [Real.sinh_log (inv_pos.2 h0), inv_inv, Real.log_inv] at h3
  have h4 : (1 + y) * -Real.log (1 + y) ≤ (1 + y) * (((1 + y)⁻¹ - (1 + y)) / 2) := mul_le_mul_of_nonneg_left h3 h0.le
  have h5 : (1 + y) * (((1 + y)⁻¹ - (1 + y)) / 2) = (1 - (1 + y) ^ 2) / 2 := by field_simp
  rw [h5] at h4
  nlinarith

theorem entropy_pos {y : ℝ} (h0 : 0 ≤ y) : y ^ 2 / (2 + y) ≤ (1 + y) * Real.log (1 + y) - y := by
  have h1 := Real.le_log_one_add_of_nonneg h0
  have h2 : (1 + y) * (2 * y / (y + 2)) ≤ (1 + y) * Real.log (1 + y) := mul_le_mul_of_nonneg_left h1 (by linarith)
  have e : (1 + y) * (2 * y / (y + 2)) - y = y ^ 2 / (2 + y) := by
    have : y + 2 ≠ 0 := by linarith
    have : 2 + y ≠ 0 := by linarith
    field_simp; ring
  linarith

theorem log_tenth : -(2303 / 1000) ≤ Real.log (1 / 10) := by
  rw [one_div, Real.log_inv, neg_le_neg_iff, show (10 : ℝ) = 2 ^ 3 * (5 / 4) by norm_num, Real.log_mul (by norm_num) (by norm_num), Real.log_pow]
  have h1 := Real.log_two_lt_d9
  have h2 := Real.log_div_le_sum_range_add (x := 1 / 9) (by norm_num) (by norm_num) 3
  rw [show (1 + 1 / 9 : ℝ) / (1 - 1 / 9) = 5 / 4 by norm_num] at h2
  norm_num [Finset.sum_range_succ] at h2 ⊢
  linarith

theorem entropy_low {y : ℝ} (h0 : 0 < 1 + y) (h1 : y ≤ -(9 / 10)) : 669 / 1000 ≤ (1 + y) * Real.log (1 + y) - y := by
  have h2 : Real.log (1 / 10 / (1 + y)) ≤ 1 / 10 / (1 + y) - 1 := Real.log_le_sub_one_of_pos (by positivity)
  rw [Real.log_div (by norm_num) h0.ne'] at h2
  have h3 := log_tenth
  have h4 : (1 + y) * (Real.log (1 / 10) - (1 / 10 / (1 + y) - 1)) ≤ (1 + y) * Real.log (1 + y) := mul_le_mul_of_nonneg_left (by linarith) h0.le
  have h5 : (1 + y) * (Real.log (1 / 10) - (1 / 10 / (1 + y) - 1)) = (1 + y) * (Real.log (1 / 10) + 1) - 1 / 10 := by field_simp; ring
  rw [h5] at h4
  nlinarith

section
variable {μ : ℝ} (hm : 10 ≤ μ)
include hm

/-- The probabilities above the mean. -/
theorem pmf_right {k : Nat} (hk : μ ≤ k) : poissonPmf μ k * Real.sqrt μ ≤
    Real.exp (-(((k - μ) * (Real.sqrt μ)⁻¹) ^ 2 / (2 + (k - μ) * (Real.sqrt μ)⁻¹ * (Real.sqrt μ)⁻¹))) := by
  obtain ⟨hs, hd, _, _, hq, hsd⟩ := delta_facts hm
  have hk1 : 1 ≤ k := by
    have : (10 : ℝ) ≤ k := hm.trans hk
    have : (1 : ℝ) ≤ k := by linarith
    exact_mod_cast this
  have hl := log_pmf (by linarith : 0 < μ) hk1
  obtain ⟨b1, _⟩ := stirling_bounds hk1
  have hk' : (1 : ℝ) ≤ k := by exact_mod_cast hk1
  have i0 : 0 < 1 / (k : ℝ) := by positivity
  have i1 : 1 / (k : ℝ) ≤ 1 := by rw [div_le_one (by linarith)]; exact hk'
  have i3 : (1 / (k : ℝ)) ^ 3 ≤ 1 / (k : ℝ) := by
    calc (1 / (k : ℝ)) ^ 3 ≤ (1 / (k : ℝ)) ^ 1 := pow_le_pow_of_le_one i0.le i1 (by norm_num)
      _ = _ := pow_one _
  have hp : 0 < poissonPmf μ k * Real.sqrt μ := by unfold poissonPmf; positivity
  rw [← Real.exp_log hp, Real.exp_le_exp, hl, neg_le_neg_iff]
  set δ := (Real.sqrt μ)⁻¹
  set t := ((k : ℝ) - μ) * δ with ht
  have ht0 : 0 ≤ t := mul_nonneg (by linarith) hd.le
  have hy : 0 ≤ t * δ := mul_nonneg ht0 hd.le
  rw [G_eq hd (by linarith)]
  have h1 := entropy_pos hy
  have h2 : t ^ 2 / (2 + t * δ) = (t * δ) ^ 2 / (2 + t * δ) / δ ^ 2 := by field_simp
  have h3 : (t * δ) ^ 2 / (2 + t * δ) / δ ^ 2 ≤ ((1 + t * δ) * Real.log (1 + t * δ) - t * δ) / δ ^ 2 := div_le_div_of_nonneg_right h1 (by positivity)
  have h4 : 0 ≤ Real.log (1 + t * δ) := Real.log_nonneg (by linarith)
  have h5 : 0 ≤ Real.log (2 * Real.pi) := Real.log_nonneg (by have := Real.pi_gt_three; linarith)
  rw [h2]
  linarith

/-- The probabilities below the mean. -/
theorem pmf_left {k : Nat} (hk1 : 1 ≤ k) (hk : k ≤ μ) (h10 : μ ≤ 10 * k) : poissonPmf μ k * Real.sqrt μ ≤ 317 / 100 * Real.exp (-(((k - μ) * (Real.sqrt μ)⁻¹) ^ 2 / 2)) := by
  obtain ⟨hs, hd, _, _, hq, hsd⟩ := delta_facts hm
  have hl := log_pmf (by linarith : 0 < μ) hk1
  obtain ⟨b1, _⟩ := stirling_bounds hk1
  have hk' : (1 : ℝ) ≤ k := by exact_mod_cast hk1
  have i0 : 0 < 1 / (k : ℝ) := by positivity
  have i1 : 1 / (k : ℝ) ≤ 1 := by rw [div_le_one (by linarith)]; exact hk'
  have i3 : (1 / (k : ℝ)) ^ 3 ≤ 1 / (k : ℝ) := by
    calc (1 / (k : ℝ)) ^ 3 ≤ (1 / (k : ℝ)) ^ 1 := pow_le_pow_of_le_one i0.le i1 (by norm_num)
      _ = _ := pow_one _
  have hp : 0 < poissonPmf μ k * Real.sqrt μ := by unfold poissonPmf; positivity
  have hy10 : 1 / 10 ≤ (k : ℝ) / μ := by rw [le_div_iff₀ (by linarith)]; linarith
  have hlog : -(Real.log (k / μ)) / 2 ≤ Real.log (317 / 100) := by
    have h1 : Real.log (1 / 10) ≤ Real.log (k / μ) := Real.log_le_log (by norm_num) hy10
    have h2 : Real.log (1 / 10) = -Real.log 10 := by rw [one_div, Real.log_inv]
    have h3 : Real.log 10 ≤ Real.log ((317 / 100) ^ 2) := Real.log_le_log (by norm_num) (by norm_num)
    rw [Real.log_pow] at h3
    push_cast at h3
    linarith
  rw [← Real.exp_log hp, ← Real.exp_log (show (0 : ℝ) < 317 / 100 by norm_num), ← Real.exp_add, Real.exp_le_exp, hl]
  have e1 : (k - μ) * (Real.sqrt μ)⁻¹ * (Real.sqrt μ)⁻¹ = k / μ - 1 := by
    rw [mul_assoc, ← mul_inv, hq]; field_simp
  set δ := (Real.sqrt μ)⁻¹
  set t := ((k : ℝ) - μ) * δ with ht
  have hy0 : 1 + t * δ = k / μ := by rw [e1]; ring
  have hy : 0 < 1 + t * δ := by rw [hy0]; linarith
  rw [G_eq hd hy]
  have h1 := entropy_neg hy (by rw [e1, sub_nonpos, div_le_one (by linarith)]; exact hk)
  have h2 : t ^ 2 / 2 = (t * δ) ^ 2 / 2 / δ ^ 2 := by field_simp
  have h3 : (t * δ) ^ 2 / 2 / δ ^ 2 ≤ ((1 + t * δ) * Real.log (1 + t * δ) - t * δ) / δ ^ 2 := div_le_div_of_nonneg_right h1 (by positivity)
  have h5 : 0 ≤ Real.log (2 * Real.pi) := Real.log_nonneg (by have := Real.pi_gt_three; linarith)
  rw [h2]
  rw [← hy0] at hlog
  linarith

/-- The probabilities far below the mean. -/
theorem pmf_low {k : Nat} (hk : 10 * k ≤ μ) : poissonPmf μ k * Real.sqrt μ ≤ Real.sqrt μ * Real.exp (-(669 / 1000 * μ)) := by
  obtain ⟨hs, hd, _, _, hq, hsd⟩ := delta_facts hm
  rcases Nat.eq_zero_or_pos k with h0 | hk1
  · subst h0
    unfold poissonPmf
    rw [pow_zero, mul_one, Nat.factorial_zero, Nat.cast_one, div_one, mul_comm]
    exact mul_le_mul_of_nonneg_left (Real.exp_le_exp.2 (by linarith)) hs.le
  · have hl := log_pmf (by linarith : 0 < μ) hk1
    obtain ⟨b1, _⟩ := stirling_bounds hk1
    have hk' : (1 : ℝ) ≤ k := by exact_mod_cast hk1
    have i0 : 0 < 1 / (k : ℝ) := by positivity
    have i1 : 1 / (k : ℝ) ≤ 1 := by rw [div_le_one (by linarith)]; exact hk'
    have i3 : (1 / (k : ℝ)) ^ 3 ≤ 1 / (k : ℝ) := by
      calc (1 / (k : ℝ)) ^ 3 ≤ (1 / (k : ℝ)) ^ 1 := pow_le_pow_of_le_one i0.le i1 (by norm_num)
        _ = _ := pow_one _
    have hp : 0 < poissonPmf μ k * Real.sqrt μ := by unfold poissonPmf; positivity
    have hlog : -(Real.log (k / μ)) / 2 ≤ Real.log (Real.sqrt μ) := by
      rw [Real.log_sqrt (by linarith), Real.log_div (by linarith) (by linarith)]
      have : 0 ≤ Real.log (k : ℝ) := Real.log_nonneg hk'
      linarith
    rw [← Real.exp_log hp]
    nth_rewrite 2 [← Real.exp_log hs]
    rw [← Real.exp_add, Real.exp_le_exp, hl]
    have e1 : (k - μ) * (Real.sqrt μ)⁻¹ * (Real.sqrt μ)⁻¹ = k / μ - 1 := by
      rw [mul_assoc, ← mul_inv, hq]; field_simp
    have e2 : ((Real.sqrt μ)⁻¹) ^ 2 = μ⁻¹ := by rw [sq, ← mul_inv, hq]
    have hy0 : 1 + (k - μ) * (Real.sqrt μ)⁻¹ * (Real.sqrt μ)⁻¹ = k / μ := by rw [e1]; ring
    have hy : 0 < 1 + (k - μ) * (Real.sqrt μ)⁻¹ * (Real.sqrt μ)⁻¹ := by rw [hy0]; exact div_pos (by linarith) (by linarith)
    rw [G_eq hd hy]
    have h1 := entropy_low hy (by
      rw [e1]
      have : (k : ℝ) / μ ≤ 1 / 10 := by rw [div_le_iff₀ (by linarith)]; linarith
      linarith)
    have h3 : 669 / 1000 * μ ≤ ((1 + (k - μ) * (Real.sqrt μ)⁻¹ * (Real.sqrt μ)⁻¹) * Real.log (1 + (k - μ) * (Real.sqrt μ)⁻¹ * (Real.sqrt μ)⁻¹) - (k - μ) * (Real.sqrt μ)⁻¹ * (Real.sqrt μ)⁻¹) /
        ((Real.sqrt μ)⁻¹) ^ 2 := by
      rw [e2, div_inv_eq_mul]
      exact mul_le_mul_of_nonneg_right h1 (by linarith)
    have h5 : 0 ≤ Real.log (2 * Real.pi) := Real.log_nonneg (by have := Real.pi_gt_three; linarith)
    rw [← hy0] at hlog
    linarith

end

end Boost.Random.PtrdBox
