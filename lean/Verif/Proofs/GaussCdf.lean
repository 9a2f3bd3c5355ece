import Verif.Proofs.ZigguratNormalLaw
import Mathlib.Probability.Distributions.Gaussian.Real
import Mathlib.Probability.CDF

/-!
# The distribution function of the normal distribution
-/

namespace Boost.Random.Normal
open MeasureTheory Set ProbabilityTheory

theorem φ_neg (x : ℝ) : φ (-x) = φ x := by rw [φ, φ, neg_mul_neg]

theorem pdf_eq (x : ℝ) : gaussianPDFReal 0 1 x = (2 * H)⁻¹ * φ x := by
  rw [gaussianPDFReal, φ, H]
  congr 1
  · congr 1
    rw [NNReal.coe_one, mul_one, Real.sqrt_eq_iff_mul_self_eq (by positivity) (by positivity)]
    have := Real.mul_self_sqrt (show 0 ≤ Real.pi / 2 by positivity)
    nlinarith
  · congr 1; rw [NNReal.coe_one]; ring

theorem cdf_gaussian (t : ℝ) : cdf (gaussianReal 0 1) t = Φ t := by
  have hH : 0 < H := by have := H_bounds.1; norm_num at this; linarith
  rw [cdf_eq_real, Measure.real, gaussianReal_apply_eq_integral 0 one_ne_zero,
    ENNReal.toReal_ofReal (setIntegral_nonneg measurableSet_Iic fun x _ => gaussianPDFReal_nonneg _ _ _)]
  simp only [pdf_eq]
  rw [integral_const_mul, Φ, div_eq_inv_mul]
  congr 1
  have hs : ∀ c, ∫ x in Iic c, φ x = ∫ x in Ioi (-c), φ x := by
    intro c
    rw [← integral_comp_neg_Iic]
    simp only [φ_neg]
  rw [J]
  split
  · rename_i h
    have h1 := intervalIntegral.integral_Iic_sub_Iic (integrable_φ.integrableOn (s := Iic 0)) (integrable_φ.integrableOn (s := Iic t))
    rw [hs 0, neg_zero, integral_φ] at h1
    rw [I, ← h1, H]; ring
  · rename_i h
    have h1 := I_add_tail (show 0 ≤ -t by linarith [not_le.1 h])
    rw [hs t]; linarith

/-- With a mean and a standard deviation. -/
theorem cdf_gaussian_scaled {μ σ : ℝ} (hσ : 0 < σ) (t : ℝ) : cdf (gaussianReal μ (.mk (σ ^ 2) (sq_nonneg σ))) t = cdf (gaussianReal 0 1) ((t - μ) / σ) := by
  have h1 := gaussianReal_map_mul_const (μ := 0) (v := 1) σ
  rw [mul_zero, mul_one] at h1
  have h2 := gaussianReal_map_add_const (μ := 0) (v := (.mk (σ ^ 2) (sq_nonneg σ))) μ
  rw [zero_add, ← h1, Measure.map_map (by fun_prop) (by fun_prop)] at h2
  rw [cdf_eq_real, cdf_eq_real, ← h2, measureReal_def, measureReal_def, Measure.map_apply (by fun_prop) measurableSet_Iic]
  congr 2
  ext x
  simp only [mem_preimage, Function.comp, mem_Iic]
  rw [le_div_iff₀ hσ]
  constructor <;> intro h <;> linarith

end Boost.Random.Normal
