import Verif.Spec.Sphere
import Verif.Proofs.Chance
import Mathlib.MeasureTheory.Constructions.Pi
import Mathlib.MeasureTheory.Integral.Prod
import Mathlib.Probability.Distributions.Gaussian.Real
import Mathlib.MeasureTheory.Integral.ExpDecay

/-!
# The direction of independent normal numbers
-/

namespace Boost.Random.Sphere
open MeasureTheory Set ProbabilityTheory Spec
open scoped ENNReal Pointwise

variable {d : Nat}

theorem measurable_radial : Measurable (radial (d := d)) := by
  unfold radial
  fun_prop

theorem measurable_sq : Measurable fun x : Fin d → ℝ => ∑ i, x i ^ 2 := by fun_prop

theorem radial_smul {r : ℝ} (hr : 0 < r) (x : Fin d → ℝ) : radial (r • x) = radial x := by
  funext i
  unfold radial
  have : ∑ j, (r • x) j ^ 2 = r ^ 2 * ∑ j, x j ^ 2 := by
    rw [Finset.mul_sum]
    exact Finset.sum_congr rfl fun j _ => by simp; ring
  rw [this, Real.sqrt_mul (by positivity), Real.sqrt_sq hr.le, Pi.smul_apply, smul_eq_mul, mul_div_mul_left _ _ hr.ne']

/-- Scaling. -/
theorem volume_scaled (A : Set (Fin d → ℝ)) {t : ℝ} (ht : 0 < t) :
    volume ({x : Fin d → ℝ | ∑ i, x i ^ 2 < t} ∩ radial ⁻¹' A) = ENNReal.ofReal (Real.sqrt t ^ d) * volume (unitBall d ∩ radial ⁻¹' A) := by
  have hs : 0 < Real.sqrt t := Real.sqrt_pos.2 ht
  have e : {x : Fin d → ℝ | ∑ i, x i ^ 2 < t} ∩ radial ⁻¹' A = Real.sqrt t • (unitBall d ∩ radial ⁻¹' A) := by
    ext x
    rw [Set.mem_smul_set_iff_inv_smul_mem₀ hs.ne']
    simp only [mem_inter_iff, mem_preimage, radial_smul (inv_pos.2 hs), unitBall, Set.mem_ofPred_eq]
    have : ∑ j, ((Real.sqrt t)⁻¹ • x) j ^ 2 = (∑ j, x j ^ 2) / t := by
      rw [Finset.sum_div]
      refine Finset.sum_congr rfl fun j _ => ?_
      simp only [Pi.smul_apply, smul_eq_mul, mul_pow, inv_pow, Real.sq_sqrt ht.le]
      field_simp
    rw [this, div_lt_one ht]
  rw [e, Measure.addHaar_smul, abs_of_nonneg (by positivity)]
  simp

theorem lintegral_tail (q : ℝ) : ∫⁻ t in Ioi q, ENNReal.ofReal (Real.exp (-t / 2) / 2) = ENNReal.ofReal (Real.exp (-q / 2)) := by
  have hi : IntegrableOn (fun t : ℝ => Real.exp (-t / 2) / 2) (Ioi q) := by
    have := (exp_neg_integrableOn_Ioi q (by norm_num : (0 : ℝ) < 1 / 2)).div_const 2
    refine IntegrableOn.congr_fun (f := fun t : ℝ => Real.exp (-(1 / 2) * t) / 2) this (fun t _ => ?_) measurableSet_Ioi
    simp only
    congr 2
    ring
  rw [← ofReal_integral_eq_lintegral_ofReal hi (ae_of_all _ fun t => by positivity)]
  congr 1
  have h := integral_exp_mul_Ioi (by norm_num : (-(1 / 2) : ℝ) < 0) q
  rw [integral_div]
  have : ∀ t : ℝ, Real.exp (-t / 2) = Real.exp (-(1 / 2) * t) := fun t => by congr 1; ring
  simp only [this, h]
  ring

/-- The integral of a function of the length over the directions of `A`. -/
theorem integral_radial {A : Set (Fin d → ℝ)} (hA : MeasurableSet A) :
    ∫⁻ x in radial ⁻¹' A, ENNReal.ofReal (Real.exp (-(∑ i, x i ^ 2) / 2)) =
      (∫⁻ t in Ioi (0 : ℝ), ENNReal.ofReal (Real.exp (-t / 2) / 2) * ENNReal.ofReal (Real.sqrt t ^ d)) * volume (unitBall d ∩ radial ⁻¹' A) := by
  have hC : MeasurableSet (radial ⁻¹' A) := measurable_radial hA
  have hw : Measurable fun t : ℝ => ENNReal.ofReal (Real.exp (-t / 2) / 2) := by fun_prop
  have h1 : ∀ x : Fin d → ℝ, ENNReal.ofReal (Real.exp (-(∑ i, x i ^ 2) / 2)) =
      ∫⁻ t in Ioi (0 : ℝ), ({p : (Fin d → ℝ) × ℝ | ∑ i, p.1 i ^ 2 < p.2}.indicator (fun p => ENNReal.ofReal (Real.exp (-p.2 / 2) / 2))) (x, t) := by
    intro x
    have h0 : 0 ≤ ∑ i, x i ^ 2 := Finset.sum_nonneg fun i _ => sq_nonneg _
    rw [← lintegral_tail]
    have e : (fun t : ℝ => ({p : (Fin d → ℝ) × ℝ | ∑ i, p.1 i ^ 2 < p.2}.indicator (fun p => ENNReal.ofReal (Real.exp (-p.2 / 2) / 2))) (x, t)) =
        (Ioi (∑ i, x i ^ 2)).indicator fun t => ENNReal.ofReal (Real.exp (-t / 2) / 2) := by
      funext t; simp only [indicator, Set.mem_ofPred_eq, mem_Ioi]
    rw [e, lintegral_indicator measurableSet_Ioi, Measure.restrict_restrict measurableSet_Ioi, inter_eq_left.2 (Ioi_subset_Ioi h0)]
  have hm : Measurable ({p : (Fin d → ℝ) × ℝ | ∑ i, p.1 i ^ 2 < p.2}.indicator fun p => ENNReal.ofReal (Real.exp (-p.2 / 2) / 2)) := by
    refine Measurable.indicator (by fun_prop) (measurableSet_lt (by fun_prop) measurable_snd)
  simp only [h1]
  rw [lintegral_lintegral_swap (f := fun (x : Fin d → ℝ) (t : ℝ) => ({p : (Fin d → ℝ) × ℝ | ∑ i, p.1 i ^ 2 < p.2}.indicator
    (fun p => ENNReal.ofReal (Real.exp (-p.2 / 2) / 2))) (x, t)) hm.aemeasurable, ← lintegral_mul_const _ (by fun_prop)]
  refine setLIntegral_congr_fun measurableSet_Ioi fun t ht => ?_
  rw [mul_assoc, ← volume_scaled A ht]
  have e : (fun x : Fin d → ℝ => ({p : (Fin d → ℝ) × ℝ | ∑ i, p.1 i ^ 2 < p.2}.indicator (fun p => ENNReal.ofReal (Real.exp (-p.2 / 2) / 2))) (x, t)) =
      {x : Fin d → ℝ | ∑ i, x i ^ 2 < t}.indicator fun _ => ENNReal.ofReal (Real.exp (-t / 2) / 2) := by
    funext x; simp only [indicator, Set.mem_ofPred_eq]
  have hS : MeasurableSet {x : Fin d → ℝ | ∑ i, x i ^ 2 < t} := measurableSet_lt measurable_sq measurable_const
  simp only [e]
  rw [lintegral_indicator hS, setLIntegral_const, Measure.restrict_apply hS]

/-- The integral of a product. -/
theorem lintegral_prod_fin : ∀ {n : Nat} {μ : Fin n → Measure ℝ} [∀ i, SigmaFinite (μ i)] {f : Fin n → ℝ → ℝ≥0∞}, (∀ i, Measurable (f i)) →
    ∫⁻ x, ∏ i, f i (x i) ∂(Measure.pi μ) = ∏ i, ∫⁻ x, f i x ∂(μ i)
  | 0, _, _, _, _ => by simp
  | n + 1, μ, _, f, hf => by
    rw [← ((measurePreserving_piFinSuccAbove μ 0).symm).lintegral_comp (by fun_prop)]
    simp_rw [MeasurableEquiv.piFinSuccAbove_symm_apply, Fin.insertNthEquiv, Fin.prod_univ_succ, Fin.insertNth_zero, Equiv.coe_fn_mk, Fin.cons_succ,
      Fin.zero_succAbove, Fin.cons_zero]
    rw [← lintegral_prod_fin fun i => hf i.succ, 
      ← lintegral_prod_mul (hf 0).aemeasurable (Finset.measurable_prod _ fun i _ => (hf i.succ).comp (measurable_pi_apply i)).aemeasurable]
    rfl

theorem gauss_density : (Measure.pi fun _ : Fin d => gaussianReal 0 1) = volume.withDensity fun x => ∏ i, gaussianPDF 0 1 (x i) := by
  refine Measure.pi_eq fun s hs => ?_
  rw [withDensity_apply _ (MeasurableSet.univ_pi hs), volume_pi, Measure.restrict_pi_pi]
  rw [lintegral_prod_fin fun i => measurable_gaussianPDF 0 1]
  refine Finset.prod_congr rfl fun i _ => ?_
  rw [gaussianReal_of_var_ne_zero _ one_ne_zero, withDensity_apply _ (hs i)]

theorem gauss_product (x : Fin d → ℝ) : ∏ i, gaussianPDF 0 1 (x i) =
    ENNReal.ofReal ((Real.sqrt (2 * Real.pi))⁻¹ ^ d) * ENNReal.ofReal (Real.exp (-(∑ i, x i ^ 2) / 2)) := by
  rw [← ENNReal.ofReal_mul (by positivity)]
  unfold gaussianPDF
  rw [← ENNReal.ofReal_prod_of_nonneg fun i _ => gaussianPDFReal_nonneg 0 1 _]
  congr 1
  unfold gaussianPDFReal
  rw [Finset.prod_mul_distrib, Finset.prod_const, ← Real.exp_sum]
  simp [Finset.sum_div, neg_div]

theorem radial_gauss {A : Set (Fin d → ℝ)} (hA : MeasurableSet A) :
    (Measure.pi fun _ : Fin d => gaussianReal 0 1) (radial ⁻¹' A) = sphereLaw d A := by
  have key : ∀ B : Set (Fin d → ℝ), MeasurableSet B → (Measure.pi fun _ : Fin d => gaussianReal 0 1) (radial ⁻¹' B) =
      ENNReal.ofReal ((Real.sqrt (2 * Real.pi))⁻¹ ^ d) * (∫⁻ t in Ioi (0 : ℝ), ENNReal.ofReal (Real.exp (-t / 2) / 2) * ENNReal.ofReal (Real.sqrt t ^ d)) *
        volume (unitBall d ∩ radial ⁻¹' B) := by
    intro B hB
    rw [gauss_density, withDensity_apply _ (measurable_radial hB)]
    simp only [gauss_product]
    rw [lintegral_const_mul _ (by fun_prop), integral_radial hB, mul_assoc]
  have h1 := key univ MeasurableSet.univ
  rw [preimage_univ, inter_univ, measure_univ] at h1
  rw [key A hA]
  generalize ENNReal.ofReal ((Real.sqrt (2 * Real.pi))⁻¹ ^ d) *
    (∫⁻ t in Ioi (0 : ℝ), ENNReal.ofReal (Real.exp (-t / 2) / 2) * ENNReal.ofReal (Real.sqrt t ^ d)) = c at *
  have hv0 : volume (unitBall d) ≠ 0 := by rintro h; rw [h, mul_zero] at h1; exact one_ne_zero h1
  have hc0 : c ≠ 0 := by rintro rfl; rw [zero_mul] at h1; exact one_ne_zero h1
  have hvt : volume (unitBall d) ≠ ∞ := by rintro h; rw [h, ENNReal.mul_top hc0] at h1; exact ENNReal.one_ne_top h1
  have : c = (volume (unitBall d))⁻¹ := ENNReal.eq_inv_of_mul_eq_one_left h1.symm
  rw [this, sphereLaw, div_eq_mul_inv, mul_comm]

end Boost.Random.Sphere
