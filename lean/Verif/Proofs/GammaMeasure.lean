import Mathlib.Probability.Distributions.Gamma
import Mathlib.MeasureTheory.Function.Jacobian

/-!
# The gamma distribution
-/

namespace Boost.Random.Gamma
open MeasureTheory Set ProbabilityTheory
open scoped ENNReal

theorem measurable_gammaPDF (a r : ℝ) : Measurable (gammaPDF a r) := (measurable_gammaPDFReal a r).ennreal_ofReal

theorem gammaPDFReal_scale (a : ℝ) {r c : ℝ} (hr : 0 < r) (hc : 0 < c) (x : ℝ) : c * gammaPDFReal a (r / c) (c * x) = gammaPDFReal a r x := by
  unfold gammaPDFReal
  by_cases hx : 0 ≤ x
  · rw [if_pos hx, if_pos (mul_nonneg hc.le hx), Real.div_rpow hr.le hc.le, Real.mul_rpow hc.le hx, Real.rpow_sub_one hc.ne']
    have : c ^ a ≠ 0 := (Real.rpow_pos_of_pos hc a).ne'
    have e : r / c * (c * x) = r * x := by field_simp
    rw [e]
    field_simp
  · rw [if_neg hx, if_neg (by rw [not_le] at *; exact mul_neg_of_pos_of_neg hc hx), mul_zero]

theorem map_gamma (a : ℝ) {r c : ℝ} (hr : 0 < r) (hc : 0 < c) : (gammaMeasure a r).map (fun x => c * x) = gammaMeasure a (r / c) := by
  have hm : Measurable fun x : ℝ => c * x := measurable_const_mul c
  ext B hB
  rw [Measure.map_apply hm hB, gammaMeasure, gammaMeasure, withDensity_apply _ (hm hB), withDensity_apply _ hB]
  have e : B = (fun x => c * x) '' ((fun x => c * x) ⁻¹' B) := by
    rw [image_preimage_eq]
    exact fun y => ⟨y / c, mul_div_cancel₀ _ hc.ne'⟩
  conv_rhs => rw [e]
  rw [lintegral_image_eq_lintegral_abs_deriv_mul (hm hB) (f' := fun _ => c) (fun x _ => by simpa using ((hasDerivAt_id x).const_mul c).hasDerivWithinAt)
    (fun x _ y _ h => mul_left_cancel₀ hc.ne' h)]
  refine lintegral_congr fun x => ?_
  rw [abs_of_pos hc, gammaPDF, gammaPDF, ← ENNReal.ofReal_mul hc.le, gammaPDFReal_scale a hr hc]

end Boost.Random.Gamma
