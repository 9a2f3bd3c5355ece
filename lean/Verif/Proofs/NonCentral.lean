import Verif.Proofs.PoissonMix
import Mathlib.Analysis.SpecialFunctions.Gaussian.GaussianIntegral
import Mathlib.Analysis.SpecialFunctions.Trigonometric.Series

/-!
# The law of `non_central_chi_squared_distribution`
-/

namespace Boost.Random
open Spec MeasureTheory Set ProbabilityTheory Gamma
open scoped ENNReal

namespace Gamma

/-- A translated density. -/
theorem withDensity_add (f : ℝ → ℝ≥0∞) (y : ℝ) {B : Set ℝ} (hB : MeasurableSet B) :
    (volume.withDensity f) {x | x + y ∈ B} = ∫⁻ z in B, f (z - y) := by
  have hm : Measurable fun x : ℝ => x + y := measurable_id.add_const y
  have hs : MeasurableSet {x : ℝ | x + y ∈ B} := hm hB
  rw [withDensity_apply _ hs, ← lintegral_indicator hs, ← lintegral_indicator hB,
    ← lintegral_add_right_eq_self (B.indicator fun z => f (z - y)) y]
  refine lintegral_congr fun x => ?_
  by_cases h : x + y ∈ B
  · rw [indicator_of_mem (show x ∈ {x | x + y ∈ B} from h), indicator_of_mem h, add_sub_cancel_right]
  · rw [indicator_of_notMem (show x ∉ {x | x + y ∈ B} from h), indicator_of_notMem h]

theorem lintegral_scale (f : ℝ → ℝ≥0∞) {c : ℝ} (hc : 0 < c) : ∫⁻ x, f x = ∫⁻ w, ENNReal.ofReal c * f (c * w) := by
  have h := withDensity_div (f := f) hc MeasurableSet.univ
  simpa using h

theorem conv_density {a b r : ℝ} (ha : 0 < a) (hb : 0 < b) (hr : 0 < r) {z : ℝ} (hz : 0 < z) {w : ℝ} (h0 : 0 < w) (h1 : w < 1) :
    z * (gammaPDFReal b r (z * w) * gammaPDFReal a r (z - z * w)) = gammaPDFReal (a + b) r z * betaPDFReal b a w := by
  have h1' : 0 < 1 - w := by linarith
  have g1 := Real.Gamma_pos_of_pos ha
  have g2 := Real.Gamma_pos_of_pos hb
  have g3 := Real.Gamma_pos_of_pos (add_pos ha hb)
  have e : z - z * w = z * (1 - w) := by ring
  rw [e, gammaPDFReal, if_pos (by positivity), gammaPDFReal, if_pos (by positivity), gammaPDFReal, if_pos hz.le, betaPDFReal, if_pos ⟨h0, h1⟩,
    ProbabilityTheory.beta, Real.mul_rpow hz.le h0.le, Real.mul_rpow hz.le h1'.le, Real.rpow_add hr]
  have e1 : z ^ (a + b - 1) = z * (z ^ (a - 1) * z ^ (b - 1)) := by
    rw [← Real.rpow_add hz]
    conv_rhs => rw [← Real.rpow_one z, ← Real.rpow_mul hz.le, one_mul, ← Real.rpow_add hz]
    congr 1
    ring
  have e2 : Real.exp (-(r * (z * w))) * Real.exp (-(r * (z * (1 - w)))) = Real.exp (-(r * z)) := by
    rw [← Real.exp_add]
    congr 1
    ring
  rw [e1, ← e2, add_comm b a]
  field_simp

/-- The sum of two gamma numbers. -/
theorem conv {a b r : ℝ} (ha : 0 < a) (hb : 0 < b) (hr : 0 < r) {B : Set ℝ} (hB : MeasurableSet B) :
    ((gammaMeasure a r).prod (gammaMeasure b r)) {p | p.1 + p.2 ∈ B} = gammaMeasure (a + b) r B := by
  have hpa := isProbabilityMeasure_gammaMeasure ha hr
  have hpb := isProbabilityMeasure_gammaMeasure hb hr
  have hm : MeasurableSet {p : ℝ × ℝ | p.1 + p.2 ∈ B} := (measurable_fst.add measurable_snd) hB
  rw [Measure.prod_apply_symm hm]
  have e1 : ∀ y, gammaMeasure a r ((fun x => (x, y)) ⁻¹' {p | p.1 + p.2 ∈ B}) = ∫⁻ z in B, gammaPDF a r (z - y) := by
    intro y
    have hs : (fun x : ℝ => (x, y)) ⁻¹' {p | p.1 + p.2 ∈ B} = {x | x + y ∈ B} := by
      ext x
      rw [Set.mem_preimage, Set.mem_ofPred_eq, Set.mem_ofPred_eq]
    rw [hs, gammaMeasure]
    exact withDensity_add (gammaPDF a r) y hB
  rw [lintegral_congr e1]
  have mj : Measurable fun p : ℝ × ℝ => gammaPDF a r (p.2 - p.1) := (measurable_gammaPDF a r).comp (by fun_prop)
  rw [lintegral_lintegral_swap mj.aemeasurable, gammaMeasure, gammaMeasure, withDensity_apply _ hB]
  refine lintegral_congr_ae (ae_restrict_of_ae ?_)
  have hz0 : ∀ᵐ z ∂(volume : Measure ℝ), z ≠ 0 := by
    rw [ae_iff]; simp
  filter_upwards [hz0] with z hz
  have mz : Measurable fun y => gammaPDF a r (z - y) := (measurable_gammaPDF a r).comp (by fun_prop)
  rw [lintegral_withDensity_eq_lintegral_mul _ (measurable_gammaPDF b r) mz]
  rcases lt_or_gt_of_ne hz with h | h
  · rw [gammaPDF_of_neg h, lintegral_eq_zero_iff ((measurable_gammaPDF b r).mul mz)]
    refine Filter.Eventually.of_forall fun y => ?_
    rw [Pi.mul_apply, Pi.zero_apply]
    rcases lt_or_ge y 0 with h' | h'
    · rw [gammaPDF_of_neg h', zero_mul]
    · rw [gammaPDF_of_neg (by linarith : z - y < 0), mul_zero]
  · rw [lintegral_scale _ h]
    have e2 : ∀ᵐ w ∂(volume : Measure ℝ), ENNReal.ofReal z * (gammaPDF b r * fun y => gammaPDF a r (z - y)) (z * w) = gammaPDF (a + b) r z * betaPDF b a w := by
      have h0 : ∀ᵐ w ∂(volume : Measure ℝ), w ≠ 0 := by
        rw [ae_iff]; simp
      have h1 : ∀ᵐ w ∂(volume : Measure ℝ), w ≠ 1 := by
        rw [ae_iff]; simp
      filter_upwards [h0, h1] with w h0 h1
      rw [Pi.mul_apply]
      rcases lt_or_gt_of_ne h0 with h0 | h0
      · rw [gammaPDF_of_neg (mul_neg_of_pos_of_neg h h0), betaPDF_eq_zero_of_nonpos h0.le, zero_mul, mul_zero, mul_zero]
      rcases lt_or_gt_of_ne h1 with h1 | h1
      · rw [gammaPDF, gammaPDF, gammaPDF, betaPDF, ← ENNReal.ofReal_mul (gammaPDFReal_nonneg hb hr _), ← ENNReal.ofReal_mul h.le,
          ← ENNReal.ofReal_mul (gammaPDFReal_nonneg (add_pos ha hb) hr _), conv_density ha hb hr h h0 h1]
      · rw [gammaPDF_of_neg (show z - z * w < 0 by nlinarith), betaPDF_eq_zero_of_one_le h1.le, mul_zero, mul_zero, mul_zero]
    rw [lintegral_congr_ae e2, lintegral_const_mul _ (show Measurable (betaPDF b a) from (measurable_betaPDFReal b a).ennreal_ofReal), lintegral_betaPDF_eq_one hb ha, mul_one]

end Gamma

namespace NonCentralChiSquared

/-- The terms of the two series agree. -/
theorem term (l y : ℝ) (hl : 0 < l) (hy : 0 < y) (j : Nat) :
    poissonPmf (l / 2) j * gammaPDFReal ((1 + 2 * j) / 2) (1 / 2) y =
      Real.exp (-(y + l) / 2) / (Real.sqrt (2 * Real.pi) * Real.sqrt y) * ((Real.sqrt l * Real.sqrt y) ^ (2 * j) / (2 * j).factorial) := by
  have e0 : ((1 + 2 * j) / 2 : ℝ) = j + 1 / 2 := by ring
  rw [poissonPmf, gammaPDFReal, if_pos hy.le, e0, Real.Gamma_nat_add_half, pow_mul, mul_pow, Real.sq_sqrt hl.le, Real.sq_sqrt hy.le, Real.rpow_add (by norm_num),
    Real.rpow_natCast, show (j : ℝ) + 1 / 2 - 1 = (j : ℝ) - 1 / 2 by ring, Real.rpow_sub hy, Real.rpow_natCast, ← Real.sqrt_eq_rpow, ← Real.sqrt_eq_rpow]
  have e1 : Real.exp (-(l / 2)) * Real.exp (-(1 / 2 * y)) = Real.exp (-(y + l) / 2) := by
    rw [← Real.exp_add]
    congr 1
    ring
  have e2 : Real.sqrt (2 * Real.pi) = Real.sqrt 2 * Real.sqrt Real.pi := Real.sqrt_mul (by norm_num) _
  have e3 : Real.sqrt (1 / 2) = 1 / Real.sqrt 2 := by rw [Real.sqrt_div (by norm_num), Real.sqrt_one]
  have e4 : ((2 * j).factorial : ℝ) = (2 * j - 1).doubleFactorial * 2 ^ j * j.factorial := by
    rcases j with - | j
    · simp
    · have := Nat.factorial_eq_mul_doubleFactorial (2 * j + 1)
      rw [show 2 * (j + 1) = 2 * j + 1 + 1 by ring, this, show 2 * j + 1 + 1 = 2 * (j + 1) by ring, Nat.doubleFactorial_two_mul]
      push_cast
      rw [show 2 * (j + 1) - 1 = 2 * j + 1 by omega]
      ring
  rw [← e1, e2, e3, e4]
  have p1 : 0 < Real.sqrt y := Real.sqrt_pos.2 hy
  have p2 : 0 < Real.sqrt 2 := Real.sqrt_pos.2 (by norm_num)
  have p3 : 0 < Real.sqrt Real.pi := Real.sqrt_pos.2 Real.pi_pos
  have p4 : (0 : ℝ) < (2 * j - 1).doubleFactorial := by exact_mod_cast Nat.doubleFactorial_pos _
  have p5 : (0 : ℝ) < j.factorial := by positivity
  rw [mul_pow, div_pow, div_pow, one_pow]
  field_simp

theorem cosh_density (l y : ℝ) (hl : 0 < l) (hy : 0 < y) :
    1 / (2 * Real.sqrt y) * gaussianPDFReal 0 1 (Real.sqrt y - Real.sqrt l) + 1 / (2 * Real.sqrt y) * gaussianPDFReal 0 1 (-Real.sqrt y - Real.sqrt l) =
      Real.exp (-(y + l) / 2) / (Real.sqrt (2 * Real.pi) * Real.sqrt y) * Real.cosh (Real.sqrt l * Real.sqrt y) := by
  have hs := Real.sq_sqrt hl.le
  have hw := Real.sq_sqrt hy.le
  have e1 : Real.exp (-(Real.sqrt y - Real.sqrt l - 0) ^ 2 / (2 * ((1 : NNReal) : ℝ))) = Real.exp (-(y + l) / 2) * Real.exp (Real.sqrt l * Real.sqrt y) := by
    rw [← Real.exp_add]
    congr 1
    push_cast
    linear_combination (-1 / 2) * hs - 1 / 2 * hw
  have e2 : Real.exp (-(-Real.sqrt y - Real.sqrt l - 0) ^ 2 / (2 * ((1 : NNReal) : ℝ))) = Real.exp (-(y + l) / 2) * Real.exp (-(Real.sqrt l * Real.sqrt y)) := by
    rw [← Real.exp_add]
    congr 1
    push_cast
    linear_combination (-1 / 2) * hs - 1 / 2 * hw
  rw [gaussianPDFReal, gaussianPDFReal, e1, e2, Real.cosh_eq]
  have p1 : 0 < Real.sqrt y := Real.sqrt_pos.2 hy
  have p2 : 0 < Real.sqrt (2 * Real.pi) := Real.sqrt_pos.2 (by positivity)
  push_cast
  rw [mul_one]
  field_simp

/-- The two series as densities. -/
theorem series (l y : ℝ) (hl : 0 < l) (hy : 0 < y) :
    ∑' j : Nat, ENNReal.ofReal (poissonPmf (l / 2) j) * gammaPDF ((1 + 2 * j) / 2) (1 / 2) y =
      ENNReal.ofReal (1 / (2 * Real.sqrt y)) * gaussianPDF 0 1 (Real.sqrt y - Real.sqrt l) +
        ENNReal.ofReal (1 / (2 * Real.sqrt y)) * gaussianPDF 0 1 (-Real.sqrt y - Real.sqrt l) := by
  have p1 : 0 < Real.sqrt y := Real.sqrt_pos.2 hy
  have hq : 0 ≤ 1 / (2 * Real.sqrt y) := by positivity
  rw [gaussianPDF, gaussianPDF, ← ENNReal.ofReal_mul hq, ← ENNReal.ofReal_mul hq,
    ← ENNReal.ofReal_add (mul_nonneg hq (gaussianPDFReal_nonneg _ _ _)) (mul_nonneg hq (gaussianPDFReal_nonneg _ _ _)), cosh_density l y hl hy]
  have hsum := (Real.hasSum_cosh (Real.sqrt l * Real.sqrt y)).mul_left (Real.exp (-(y + l) / 2) / (Real.sqrt (2 * Real.pi) * Real.sqrt y))
  rw [← hsum.tsum_eq, ENNReal.ofReal_tsum_of_nonneg (fun j => by positivity) hsum.summable]
  refine tsum_congr fun j => ?_
  rw [gammaPDF, ← ENNReal.ofReal_mul (poissonPmf_nonneg (by positivity) j), term l y hl hy]

theorem image_sqrt (B : Set ℝ) : (fun y : ℝ => Real.sqrt y) '' (B ∩ Ioi 0) = {w | w * w ∈ B} ∩ Ioi 0 := by
  ext w
  constructor
  · rintro ⟨y, ⟨h1, h2⟩, rfl⟩
    have h2 : 0 < y := h2
    refine ⟨?_, Real.sqrt_pos.2 h2⟩
    change Real.sqrt y * Real.sqrt y ∈ B
    rwa [Real.mul_self_sqrt h2.le]
  · rintro ⟨h1, h2⟩
    have h2 : 0 < w := h2
    exact ⟨w * w, ⟨h1, mul_pos h2 h2⟩, Real.sqrt_mul_self h2.le⟩

theorem image_neg_sqrt (B : Set ℝ) : (fun y : ℝ => -Real.sqrt y) '' (B ∩ Ioi 0) = {w | w * w ∈ B} ∩ Iio 0 := by
  ext w
  constructor
  · rintro ⟨y, ⟨h1, h2⟩, rfl⟩
    have h2 : 0 < y := h2
    refine ⟨?_, neg_lt_zero.2 (Real.sqrt_pos.2 h2)⟩
    change -Real.sqrt y * -Real.sqrt y ∈ B
    rwa [neg_mul_neg, Real.mul_self_sqrt h2.le]
  · rintro ⟨h1, h2⟩
    have h2 : w < 0 := h2
    refine ⟨w * w, ⟨h1, mul_pos_of_neg_of_neg h2 h2⟩, ?_⟩
    beta_reduce
    rw [← neg_mul_neg, Real.sqrt_mul_self (by linarith), neg_neg]

theorem sq_pos_part {B : Set ℝ} (hB : MeasurableSet B) (f : ℝ → ℝ≥0∞) :
    ∫⁻ w in {w | w * w ∈ B} ∩ Ioi 0, f w = ∫⁻ y in B ∩ Ioi 0, ENNReal.ofReal (1 / (2 * Real.sqrt y)) * f (Real.sqrt y) := by
  rw [← image_sqrt, lintegral_image_eq_lintegral_abs_deriv_mul (hB.inter measurableSet_Ioi) (f' := fun y => 1 / (2 * Real.sqrt y))
    (fun y hy => (Real.hasDerivAt_sqrt (ne_of_gt hy.2)).hasDerivWithinAt)
    (fun x hx y hy h => (Real.sqrt_inj (le_of_lt hx.2) (le_of_lt hy.2)).1 h)]
  refine setLIntegral_congr_fun (hB.inter measurableSet_Ioi) fun y hy => ?_
  have : 0 < Real.sqrt y := Real.sqrt_pos.2 hy.2
  rw [abs_of_pos (by positivity)]

theorem sq_neg_part {B : Set ℝ} (hB : MeasurableSet B) (f : ℝ → ℝ≥0∞) :
    ∫⁻ w in {w | w * w ∈ B} ∩ Iio 0, f w = ∫⁻ y in B ∩ Ioi 0, ENNReal.ofReal (1 / (2 * Real.sqrt y)) * f (-Real.sqrt y) := by
  rw [← image_neg_sqrt, lintegral_image_eq_lintegral_abs_deriv_mul (hB.inter measurableSet_Ioi) (f' := fun y => -(1 / (2 * Real.sqrt y)))
    (f := fun y => -Real.sqrt y) (fun y hy => (Real.hasDerivAt_sqrt (ne_of_gt hy.2)).neg.hasDerivWithinAt)
    (fun x hx y hy h => (Real.sqrt_inj (le_of_lt hx.2) (le_of_lt hy.2)).1 (neg_injective h))]
  refine setLIntegral_congr_fun (hB.inter measurableSet_Ioi) fun y hy => ?_
  have : 0 < Real.sqrt y := Real.sqrt_pos.2 hy.2
  rw [abs_neg, abs_of_pos (by positivity)]

theorem split_sign (Q : Set ℝ) (f : ℝ → ℝ≥0∞) : ∫⁻ w in Q, f w = (∫⁻ w in Q ∩ Ioi 0, f w) + ∫⁻ w in Q ∩ Iio 0, f w := by
  rw [← lintegral_inter_add_sdiff f Q (measurableSet_Ioi (a := (0 : ℝ)))]
  congr 1
  refine setLIntegral_congr ?_
  have h0 : ∀ᵐ w ∂(volume : Measure ℝ), w ≠ 0 := by
    rw [ae_iff]; simp
  filter_upwards [h0] with w hw
  refine propext ⟨fun h => ⟨h.1, lt_of_le_of_ne (not_lt.1 h.2) hw⟩, fun h => ⟨h.1, fun h' => lt_asymm (show 0 < w from h') (show w < 0 from h.2)⟩⟩

/-- The square of a normal number with the mean `sqrt l`. -/
theorem square {l : ℝ} (hl : 0 < l) {B : Set ℝ} (hB : MeasurableSet B) :
    gaussianReal 0 1 {z | (z + Real.sqrt l) * (z + Real.sqrt l) ∈ B} = nonCentralChiSquared 1 l B := by
  have hQ : MeasurableSet {w : ℝ | w * w ∈ B} := (measurable_id.mul measurable_id) hB
  have ma : Measurable fun y : ℝ => ENNReal.ofReal (1 / (2 * Real.sqrt y)) * gaussianPDF 0 1 (Real.sqrt y - Real.sqrt l) :=
    Measurable.mul (by fun_prop) ((measurable_gaussianPDF 0 1).comp (by fun_prop))
  have e : {z : ℝ | (z + Real.sqrt l) * (z + Real.sqrt l) ∈ B} = {z | z + Real.sqrt l ∈ {w : ℝ | w * w ∈ B}} := rfl
  rw [e, gaussianReal_of_var_ne_zero 0 one_ne_zero, withDensity_add (gaussianPDF 0 1) _ hQ, split_sign, sq_pos_part hB, sq_neg_part hB,
    ← lintegral_add_left ma]
  rw [nonCentralChiSquared, Measure.sum_apply _ hB]
  have e1 : ∀ j : Nat, (ENNReal.ofReal (poissonPmf (l / 2) j) • gammaMeasure ((1 + 2 * j) / 2) (1 / 2)) B =
      ∫⁻ y in B, ENNReal.ofReal (poissonPmf (l / 2) j) * gammaPDF ((1 + 2 * j) / 2) (1 / 2) y := by
    intro j
    rw [Measure.smul_apply, smul_eq_mul, gammaMeasure, withDensity_apply _ hB, lintegral_const_mul _ (measurable_gammaPDF _ _)]
  rw [tsum_congr e1, ← lintegral_tsum fun j => (((measurable_gammaPDF _ _).const_mul _).aemeasurable), split_sign B]
  have e2 : ∫⁻ y in B ∩ Iio 0, ∑' j : Nat, ENNReal.ofReal (poissonPmf (l / 2) j) * gammaPDF ((1 + 2 * j) / 2) (1 / 2) y = 0 := by
    rw [← lintegral_zero (μ := volume.restrict (B ∩ Iio 0))]
    refine setLIntegral_congr_fun (hB.inter measurableSet_Iio) fun y hy => ?_
    rw [ENNReal.tsum_eq_zero.2]
    intro j
    rw [gammaPDF_of_neg hy.2, mul_zero]
  rw [e2, add_zero]
  refine setLIntegral_congr_fun (hB.inter measurableSet_Ioi) fun y hy => ?_
  exact (series l y hl hy.2).symm

theorem apply_Iic (k l t : ℝ) : nonCentralChiSquared k l (Iic t) =
    ∑' j : Nat, ENNReal.ofReal (poissonPmf (l / 2) j) * gammaMeasure ((k + 2 * j) / 2) (1 / 2) (Iic t) := by
  rw [nonCentralChiSquared, Measure.sum_apply _ measurableSet_Iic]
  exact tsum_congr fun j => by rw [Measure.smul_apply, smul_eq_mul]

theorem measurable_Iic_sub (μ : Measure ℝ) (t : ℝ) : Measurable fun x : ℝ => μ (Iic (t - x)) :=
  Antitone.measurable fun x y h => measure_mono (Iic_subset_Iic.2 (by linarith))

/-- The sum of a square and a chi-squared number. -/
theorem sum_law {k l : ℝ} (hk : 1 < k) (hl : 0 < l) (t : ℝ) :
    ((gaussianReal 0 1).prod (gammaMeasure ((k - 1) / 2) 1)) {p | (p.1 + Real.sqrt l) * (p.1 + Real.sqrt l) + 2 * p.2 ∈ Iic t} =
      nonCentralChiSquared k l (Iic t) := by
  have hk2 : 0 < (k - 1) / 2 := by linarith
  have hpb := isProbabilityMeasure_gammaMeasure (a := (k - 1) / 2) (r := 1) hk2 one_pos
  have hpc := isProbabilityMeasure_gammaMeasure (a := (k - 1) / 2) (r := 1 / 2) hk2 (by norm_num)
  have hm : MeasurableSet {p : ℝ × ℝ | (p.1 + Real.sqrt l) * (p.1 + Real.sqrt l) + 2 * p.2 ∈ Iic t} :=
    (show Measurable fun p : ℝ × ℝ => (p.1 + Real.sqrt l) * (p.1 + Real.sqrt l) + 2 * p.2 by fun_prop) measurableSet_Iic
  rw [Measure.prod_apply_symm hm]
  have e1 : ∀ y, gaussianReal 0 1 ((fun x => (x, y)) ⁻¹' {p : ℝ × ℝ | (p.1 + Real.sqrt l) * (p.1 + Real.sqrt l) + 2 * p.2 ∈ Iic t}) =
      nonCentralChiSquared 1 l (Iic (t - 2 * y)) := by
    intro y
    rw [← square hl measurableSet_Iic]
    congr 1
    ext x
    rw [Set.mem_preimage, Set.mem_ofPred_eq, Set.mem_ofPred_eq, mem_Iic, mem_Iic, le_sub_iff_add_le]
  rw [lintegral_congr e1, ← lintegral_map (measurable_Iic_sub (nonCentralChiSquared 1 l) t) (measurable_const_mul (2 : ℝ)), map_gamma _ one_pos two_pos]
  simp only [apply_Iic]
  rw [lintegral_tsum fun j => ((measurable_Iic_sub _ t).const_mul _).aemeasurable]
  refine tsum_congr fun j => ?_
  have hj : (0 : ℝ) < (1 + 2 * j) / 2 := by positivity
  have hpj := isProbabilityMeasure_gammaMeasure (r := 1 / 2) hj (by norm_num)
  rw [lintegral_const_mul _ (measurable_Iic_sub _ t)]
  congr 1
  have hc := conv hj hk2 (show (0 : ℝ) < 1 / 2 by norm_num) (measurableSet_Iic (a := t))
  have hs : MeasurableSet {p : ℝ × ℝ | p.1 + p.2 ∈ Iic t} := (measurable_fst.add measurable_snd) measurableSet_Iic
  rw [Measure.prod_apply_symm hs] at hc
  rw [show (k + 2 * (j : ℝ)) / 2 = (1 + 2 * j) / 2 + (k - 1) / 2 by ring, ← hc]
  refine lintegral_congr fun y => ?_
  congr 1
  ext x
  rw [Set.mem_preimage, Set.mem_ofPred_eq, mem_Iic, mem_Iic, le_sub_iff_add_le]

theorem generate_large {k : ℝ} (hk : 1 < k) (lambda u v : ℝ) (l : List ℝ) : NonCentralChiSquared.generate exactOps k lambda idealCompound (u :: v :: l) =
    .done ((quantile (gaussianReal 0 1) u + Real.sqrt lambda) * (quantile (gaussianReal 0 1) u + Real.sqrt lambda) + 2 * quantile (gammaMeasure ((k - 1) / 2) 1) v) l := by
  unfold NonCentralChiSquared.generate
  rw [if_pos hk, StudentT.normal_eq, Run.bind_done, efl, ChiSquared.generate_eq, Run.bind_done]
  simp only [efl]
  have e : exactOps.sqrt lambda = Real.sqrt lambda := by simp [exactOps]
  rw [e]

theorem generate_small {k : ℝ} (hk : k ≤ 1) (lambda u : ℝ) (l : List ℝ) : NonCentralChiSquared.generate exactOps k lambda idealCompound (u :: l) =
    ChiSquared.generate exactOps (k + 2 * (poissonQuantile (lambda / 2) u : ℝ)) idealCompound l := by
  have hp : idealCompound.poisson (lambda / 2) (u :: l) = .done ((poissonQuantile (lambda / 2) u : Nat) : Int) l := rfl
  unfold NonCentralChiSquared.generate
  rw [if_neg (not_lt.2 hk), efl, hp, Run.bind_done, efl, efl]
  push_cast
  rfl

/-- What is integrated over a uniform number through a Poisson number. -/
theorem lintegral_poisson {μ : ℝ} (hμ : 0 ≤ μ) (f : Nat → ℝ≥0∞) : ∫⁻ u, f (poissonQuantile μ u) ∂unitM = ∑' j, ENNReal.ofReal (poissonPmf μ j) * f j := by
  have hA := measurableSet_poisson hμ
  have hd : Pairwise (Function.onFun Disjoint fun j : Nat => {u : ℝ | IsLeast {k | u ≤ Spec.cdf (poissonPmf μ) k} j}) := by
    intro i j hij
    refine Set.disjoint_left.2 fun u hi hj => hij ?_
    exact IsLeast.unique (show IsLeast {k | u ≤ Spec.cdf (poissonPmf μ) k} i from hi) hj
  have hc : ∀ᵐ u ∂unitM, u ∈ ⋃ j : Nat, {u : ℝ | IsLeast {k | u ≤ Spec.cdf (poissonPmf μ) k} j} :=
    unitM_mem.mono fun u hu => Set.mem_iUnion.2 ⟨_, (poissonQuantile_iff hu.2).1 rfl⟩
  rw [← Measure.restrict_eq_self_of_ae_mem hc, lintegral_iUnion hA hd]
  refine tsum_congr fun j => ?_
  rw [← unitM_poisson hμ j, mul_comm, ← setLIntegral_const]
  refine lintegral_congr_ae ((ae_restrict_iff' (hA j)).2 (unitM_mem.mono fun u hu hj => ?_))
  beta_reduce
  rw [(poissonQuantile_iff hu.2).2 hj]

theorem law (n : Nat) {k lambda : ℝ} (hk : 0 < k) (hl : 0 < lambda) (t : ℝ) :
    chance (n + 2) (fun l => Spec.Run.Le (NonCentralChiSquared.generate exactOps k lambda idealCompound l) t) = nonCentralChiSquared k lambda (Iic t) := by
  rcases lt_or_ge 1 k with h | h
  · have hk2 : 0 < (k - 1) / 2 := by linarith
    have hpb := isProbabilityMeasure_gammaMeasure (a := (k - 1) / 2) (r := 1) hk2 one_pos
    have hm : MeasurableSet {p : ℝ × ℝ | (p.1 + Real.sqrt lambda) * (p.1 + Real.sqrt lambda) + 2 * p.2 ∈ Iic t} :=
      (show Measurable fun p : ℝ × ℝ => (p.1 + Real.sqrt lambda) * (p.1 + Real.sqrt lambda) + 2 * p.2 by fun_prop) measurableSet_Iic
    rw [← sum_law h hl t]
    refine chance_pair (r := fun l => NonCentralChiSquared.generate exactOps k lambda idealCompound l) (P := fun r => Spec.Run.Le r t) hm fun u _ v _ l => ?_
    rw [generate_large h, le_done, Set.mem_ofPred_eq, mem_Iic]
  · rw [apply_Iic, ← lintegral_poisson (by positivity) (fun j => gammaMeasure ((k + 2 * j) / 2) (1 / 2) (Iic t)), chance_succ]
    refine lintegral_congr fun u => ?_
    rw [← ChiSquared.law n (by positivity) t]
    refine chance_congr fun l => ?_
    rw [generate_small h]

end NonCentralChiSquared

end Boost.Random
