import Verif.Proofs.GammaMeasure
import Verif.Proofs.Variates
import Verif.Spec.Gamma

/-!
# Quotients of gamma numbers
-/

namespace Boost.Random.Gamma
open Spec MeasureTheory Set ProbabilityTheory
open scoped ENNReal

theorem gamma_Iic {a r : ℝ} : gammaMeasure a r (Iic 0) = 0 := by
  rw [gammaMeasure, withDensity_apply _ measurableSet_Iic, Measure.restrict_congr_set Iio_ae_eq_Iic.symm]
  exact lintegral_gammaPDF_of_nonpos le_rfl

theorem gamma_pos (a r : ℝ) : ∀ᵐ x ∂gammaMeasure a r, 0 < x := by
  rw [ae_iff]
  simp only [not_lt]
  exact gamma_Iic

theorem quantile_pos {a r u : ℝ} (ha : 0 < a) (hr : 0 < r) (hu : u ∈ Ioo (0 : ℝ) 1) : 0 < quantile (gammaMeasure a r) u := by
  have := isProbabilityMeasure_gammaMeasure ha hr
  by_contra h
  rw [not_lt, quantile_le_iff hu, cdf_eq_real, Measure.real, gamma_Iic, ENNReal.toReal_zero] at h
  exact absurd hu.1 (not_lt.2 h)

/-- Two numbers that are obtained by inversion. -/
theorem chance_pair {n : Nat} {σ α : Type} {r : List ℝ → Run σ α} {P : Run σ α → Prop} {μ ν : Measure ℝ} [IsProbabilityMeasure μ] [IsProbabilityMeasure ν]
    {S : Set (ℝ × ℝ)} (hS : MeasurableSet S)
    (h : ∀ u ∈ Ioo (0 : ℝ) 1, ∀ v ∈ Ioo (0 : ℝ) 1, ∀ l, P (r (u :: v :: l)) ↔ (quantile μ u, quantile ν v) ∈ S) :
    chance (n + 2) (fun l => P (r l)) = (μ.prod ν) S := by
  have hm : Measurable (Prod.map (quantile μ) (quantile ν)) := (measurable_quantile μ).prodMap (measurable_quantile ν)
  rw [chance_two (A := Prod.map (quantile μ) (quantile ν) ⁻¹' S) (hm hS) (unitM_mem.mono fun u hu => unitM_mem.mono fun v hv l => h u hu v hv l),
    ← Measure.map_apply hm hS, ← Measure.map_prod_map _ _ (measurable_quantile μ) (measurable_quantile ν), map_quantile, map_quantile]

/-- A scaled density. -/
theorem withDensity_div {f : ℝ → ℝ≥0∞} {c : ℝ} (hc : 0 < c) {B : Set ℝ} (hB : MeasurableSet B) :
    (volume.withDensity f) {x | x / c ∈ B} = ∫⁻ z in B, ENNReal.ofReal c * f (c * z) := by
  have hm : Measurable fun x : ℝ => x / c := measurable_id.div_const c
  rw [withDensity_apply _ (show MeasurableSet {x | x / c ∈ B} from hm hB)]
  have e : {x | x / c ∈ B} = (fun z => c * z) '' B := by
    ext x
    simp only [Set.mem_ofPred_eq, mem_image]
    constructor
    · exact fun h => ⟨_, h, mul_div_cancel₀ _ hc.ne'⟩
    · rintro ⟨z, hz, rfl⟩
      rwa [mul_div_cancel_left₀ _ hc.ne']
  rw [e, lintegral_image_eq_lintegral_abs_deriv_mul hB (f' := fun _ => c) (fun x _ => by simpa using ((hasDerivAt_id x).const_mul c).hasDerivWithinAt)
    (fun x _ y _ h => mul_left_cancel₀ hc.ne' h)]
  rw [abs_of_pos hc]

/-- The density of the quotient. -/
noncomputable def quotPDF (a b z : ℝ) : ℝ := if 0 < z then z ^ (a - 1) * (1 + z) ^ (-(a + b)) / ProbabilityTheory.beta a b else 0

theorem quot_density {a b y z : ℝ} (ha : 0 < a) (hb : 0 < b) (hy : 0 < y) (hz : 0 < z) :
    gammaPDFReal b 1 y * (y * gammaPDFReal a 1 (y * z)) = quotPDF a b z * gammaPDFReal (a + b) (1 + z) y := by
  have h1 := (Real.Gamma_pos_of_pos ha).ne'
  have h2 := (Real.Gamma_pos_of_pos hb).ne'
  have h3 := (Real.Gamma_pos_of_pos (add_pos ha hb)).ne'
  have h4 : (1 + z) ^ (a + b) ≠ 0 := (Real.rpow_pos_of_pos (by linarith) _).ne'
  rw [quotPDF, if_pos hz, gammaPDFReal, gammaPDFReal, gammaPDFReal, if_pos hy.le, if_pos hy.le, if_pos (by positivity), ProbabilityTheory.beta,
    Real.rpow_neg (by linarith), Real.one_rpow, Real.one_rpow, Real.mul_rpow hy.le hz.le, one_mul, one_mul]
  have e1 : Real.exp (-((1 + z) * y)) = Real.exp (-y) * Real.exp (-(y * z)) := by rw [← Real.exp_add]; congr 1; ring
  have e2 : y ^ (a + b - 1) = y ^ (b - 1) * (y * y ^ (a - 1)) := by
    rw [← Real.rpow_one_add' hy.le (by linarith), ← Real.rpow_add hy]; congr 1; ring
  rw [e1, e2]
  field_simp

theorem quot_density_zero {a b y z : ℝ} (hy : 0 < y) (hz : z < 0) :
    gammaPDFReal b 1 y * (y * gammaPDFReal a 1 (y * z)) = quotPDF a b z * gammaPDFReal (a + b) (1 + z) y := by
  rw [quotPDF, if_neg (not_lt.2 hz.le), gammaPDFReal, gammaPDFReal, if_neg (not_le.2 (mul_neg_of_pos_of_neg hy hz)), mul_zero, mul_zero, zero_mul]

theorem quotPDF_nonneg {a b : ℝ} (ha : 0 < a) (hb : 0 < b) (z : ℝ) : 0 ≤ quotPDF a b z := by
  rw [quotPDF]
  have := beta_pos ha hb
  split <;> positivity

theorem measurable_quotPDF (a b : ℝ) : Measurable (quotPDF a b) := by
  unfold quotPDF
  exact Measurable.ite measurableSet_Ioi (by fun_prop) measurable_const

/-- The law of the quotient of two gamma numbers. -/
theorem quotient {a b : ℝ} (ha : 0 < a) (hb : 0 < b) {B : Set ℝ} (hB : MeasurableSet B) :
    ((gammaMeasure a 1).prod (gammaMeasure b 1)) {p | p.1 / p.2 ∈ B} = ∫⁻ z in B, ENNReal.ofReal (quotPDF a b z) := by
  have hpa := isProbabilityMeasure_gammaMeasure (a := a) (r := 1) ha one_pos
  have hpb := isProbabilityMeasure_gammaMeasure (a := b) (r := 1) hb one_pos
  have hm : MeasurableSet {p : ℝ × ℝ | p.1 / p.2 ∈ B} := (measurable_fst.div measurable_snd) hB
  rw [Measure.prod_apply_symm hm]
  have e1 : ∀ᵐ y ∂gammaMeasure b 1, gammaMeasure a 1 ((fun x => (x, y)) ⁻¹' {p | p.1 / p.2 ∈ B}) = ∫⁻ z in B, ENNReal.ofReal y * gammaPDF a 1 (y * z) :=
    (gamma_pos b 1).mono fun y hy => withDensity_div hy hB
  rw [lintegral_congr_ae e1]
  have mj : Measurable fun p : ℝ × ℝ => ENNReal.ofReal p.1 * gammaPDF a 1 (p.1 * p.2) :=
    measurable_fst.ennreal_ofReal.mul ((measurable_gammaPDF a 1).comp (measurable_fst.mul measurable_snd))
  rw [lintegral_lintegral_swap mj.aemeasurable]
  have e2 : ∀ᵐ z ∂(volume : Measure ℝ), ∫⁻ y, ENNReal.ofReal y * gammaPDF a 1 (y * z) ∂gammaMeasure b 1 = ENNReal.ofReal (quotPDF a b z) := by
    have hz0 : ∀ᵐ z ∂(volume : Measure ℝ), z ≠ 0 := by
      rw [ae_iff]; simp
    filter_upwards [hz0] with z hz
    have mz : Measurable fun y => ENNReal.ofReal y * gammaPDF a 1 (y * z) :=
      measurable_id.ennreal_ofReal.mul ((measurable_gammaPDF a 1).comp (measurable_id.mul_const z))
    rw [gammaMeasure, lintegral_withDensity_eq_lintegral_mul _ (measurable_gammaPDF b 1) mz]
    have e3 : ∀ᵐ y ∂(volume : Measure ℝ), (gammaPDF b 1 * fun y => ENNReal.ofReal y * gammaPDF a 1 (y * z)) y =
        ENNReal.ofReal (quotPDF a b z) * gammaPDF (a + b) (1 + z) y := by
      have hy0 : ∀ᵐ y ∂(volume : Measure ℝ), y ≠ 0 := by
        rw [ae_iff]; simp
      filter_upwards [hy0] with y hy
      rw [Pi.mul_apply]
      rcases lt_or_gt_of_ne hy with h | h
      · rw [gammaPDF_of_neg h, gammaPDF_of_neg h, zero_mul, mul_zero]
      · rw [gammaPDF, gammaPDF, gammaPDF, ← ENNReal.ofReal_mul h.le, ← ENNReal.ofReal_mul (gammaPDFReal_nonneg hb one_pos _),
          ← ENNReal.ofReal_mul (quotPDF_nonneg ha hb z)]
        rcases lt_or_gt_of_ne hz with h' | h'
        · rw [quot_density_zero h h']
        · rw [quot_density ha hb h h']
    rw [lintegral_congr_ae e3, lintegral_const_mul _ (measurable_gammaPDF _ _)]
    rcases lt_or_gt_of_ne hz with h' | h'
    · rw [quotPDF, if_neg (not_lt.2 h'.le), ENNReal.ofReal_zero, zero_mul]
    · rw [lintegral_gammaPDF_eq_one (by linarith) (by linarith), mul_one]
  exact lintegral_congr_ae (ae_restrict_of_ae e2)

end Boost.Random.Gamma
