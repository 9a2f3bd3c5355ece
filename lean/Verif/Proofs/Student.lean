import Verif.Proofs.Compound

/-!
# The law of `student_t_distribution`
-/

namespace Boost.Random
open Spec MeasureTheory Set ProbabilityTheory Gamma
open scoped ENNReal

namespace StudentT

/-- The density. -/
noncomputable def pdf (n x : ℝ) : ℝ :=
  Real.Gamma ((n + 1) / 2) / (Real.sqrt (n * Real.pi) * Real.Gamma (n / 2)) * (1 + x ^ 2 / n) ^ (-((n + 1) / 2))

theorem pdf_nonneg {n : ℝ} (hn : 0 < n) (x : ℝ) : 0 ≤ pdf n x := by
  have h1 := Real.Gamma_pos_of_pos (s := (n + 1) / 2) (by linarith)
  have h2 := Real.Gamma_pos_of_pos (s := n / 2) (by linarith)
  unfold pdf
  positivity

theorem density {n : ℝ} (hn : 0 < n) (z : ℝ) {y : ℝ} (hy : 0 < y) :
    gammaPDFReal (n / 2) 1 y * (Real.sqrt (2 * y / n) * gaussianPDFReal 0 1 (Real.sqrt (2 * y / n) * z)) =
      pdf n z * gammaPDFReal ((n + 1) / 2) (1 + z ^ 2 / n) y := by
  have h1 := Real.Gamma_pos_of_pos (s := (n + 1) / 2) (by linarith)
  have h2 := Real.Gamma_pos_of_pos (s := n / 2) (by linarith)
  have hz : 0 < 1 + z ^ 2 / n := by positivity
  have hz' := Real.rpow_pos_of_pos hz ((n + 1) / 2)
  rw [gammaPDFReal, if_pos hy.le, gammaPDFReal, if_pos hy.le, gaussianPDFReal, pdf, Real.one_rpow, Real.rpow_neg hz.le]
  have e1 : (n + 1) / 2 - 1 = (n / 2 - 1) + 1 / 2 := by ring
  have e2 : Real.exp (-(1 * y)) * Real.exp (-(Real.sqrt (2 * y / n) * z - 0) ^ 2 / (2 * ((1 : NNReal) : ℝ))) = Real.exp (-((1 + z ^ 2 / n) * y)) := by
    rw [← Real.exp_add, sub_zero, mul_pow, Real.sq_sqrt (by positivity)]
    congr 1
    push_cast
    field_simp
    ring
  rw [e1, Real.rpow_add hy, ← Real.sqrt_eq_rpow, ← e2]
  have e3 : Real.sqrt (2 * y / n) = Real.sqrt 2 * Real.sqrt y / Real.sqrt n := by
    rw [Real.sqrt_div (by positivity), Real.sqrt_mul (by norm_num)]
  have e4 : Real.sqrt (n * Real.pi) = Real.sqrt n * Real.sqrt Real.pi := Real.sqrt_mul hn.le _
  have e5 : Real.sqrt (2 * Real.pi * ((1 : NNReal) : ℝ)) = Real.sqrt 2 * Real.sqrt Real.pi := by
    push_cast
    rw [mul_one, Real.sqrt_mul (by norm_num)]
  generalize Real.exp (-(Real.sqrt (2 * y / n) * z - 0) ^ 2 / (2 * ((1 : NNReal) : ℝ))) = E
  rw [e3, e4, e5]
  have p1 : 0 < Real.sqrt n := Real.sqrt_pos.2 hn
  have p2 : 0 < Real.sqrt 2 := Real.sqrt_pos.2 (by norm_num)
  have p3 : 0 < Real.sqrt Real.pi := Real.sqrt_pos.2 Real.pi_pos
  field_simp

/-- The law of the quotient. -/
theorem quotient {n : ℝ} (hn : 0 < n) {B : Set ℝ} (hB : MeasurableSet B) :
    ((gaussianReal 0 1).prod (gammaMeasure (n / 2) 1)) {p | p.1 / Real.sqrt (2 * p.2 / n) ∈ B} = ∫⁻ z in B, ENNReal.ofReal (pdf n z) := by
  have hn2 : 0 < n / 2 := by positivity
  have hpb := isProbabilityMeasure_gammaMeasure (a := n / 2) (r := 1) hn2 one_pos
  have hm : MeasurableSet {p : ℝ × ℝ | p.1 / Real.sqrt (2 * p.2 / n) ∈ B} :=
    (show Measurable fun p : ℝ × ℝ => p.1 / Real.sqrt (2 * p.2 / n) by fun_prop) hB
  rw [Measure.prod_apply_symm hm]
  have e1 : ∀ᵐ y ∂gammaMeasure (n / 2) 1, gaussianReal 0 1 ((fun x => (x, y)) ⁻¹' {p | p.1 / Real.sqrt (2 * p.2 / n) ∈ B}) =
      ∫⁻ z in B, ENNReal.ofReal (Real.sqrt (2 * y / n)) * gaussianPDF 0 1 (Real.sqrt (2 * y / n) * z) := by
    refine (gamma_pos (n / 2) 1).mono fun y hy => ?_
    have hy : 0 < y := hy
    have hc : 0 < Real.sqrt (2 * y / n) := Real.sqrt_pos.2 (by positivity)
    have hs : (fun x : ℝ => (x, y)) ⁻¹' {p | p.1 / Real.sqrt (2 * p.2 / n) ∈ B} = {x | x / Real.sqrt (2 * y / n) ∈ B} := by
      ext x
      rw [Set.mem_preimage, Set.mem_ofPred_eq, Set.mem_ofPred_eq]
    rw [hs, gaussianReal_of_var_ne_zero 0 one_ne_zero]
    generalize Real.sqrt (2 * y / n) = c at hc
    exact withDensity_div (f := gaussianPDF 0 1) hc hB
  rw [lintegral_congr_ae e1]
  have mj : Measurable fun p : ℝ × ℝ => ENNReal.ofReal (Real.sqrt (2 * p.1 / n)) * gaussianPDF 0 1 (Real.sqrt (2 * p.1 / n) * p.2) :=
    Measurable.mul (by fun_prop) ((measurable_gaussianPDF 0 1).comp (by fun_prop))
  rw [lintegral_lintegral_swap mj.aemeasurable]
  refine lintegral_congr fun z => ?_
  have mz : Measurable fun y => ENNReal.ofReal (Real.sqrt (2 * y / n)) * gaussianPDF 0 1 (Real.sqrt (2 * y / n) * z) :=
    Measurable.mul (by fun_prop) ((measurable_gaussianPDF 0 1).comp (by fun_prop))
  rw [gammaMeasure, lintegral_withDensity_eq_lintegral_mul _ (measurable_gammaPDF (n / 2) 1) mz]
  have e3 : ∀ᵐ y ∂(volume : Measure ℝ), (gammaPDF (n / 2) 1 * fun y => ENNReal.ofReal (Real.sqrt (2 * y / n)) * gaussianPDF 0 1 (Real.sqrt (2 * y / n) * z)) y =
      ENNReal.ofReal (pdf n z) * gammaPDF ((n + 1) / 2) (1 + z ^ 2 / n) y := by
    have hy0 : ∀ᵐ y ∂(volume : Measure ℝ), y ≠ 0 := by
      rw [ae_iff]; simp
    filter_upwards [hy0] with y hy
    rw [Pi.mul_apply]
    rcases lt_or_gt_of_ne hy with h | h
    · rw [gammaPDF_of_neg h, gammaPDF_of_neg h, zero_mul, mul_zero]
    · rw [gammaPDF, gammaPDF, gaussianPDF, ← ENNReal.ofReal_mul (Real.sqrt_nonneg _), ← ENNReal.ofReal_mul (gammaPDFReal_nonneg hn2 one_pos _),
        ← ENNReal.ofReal_mul (pdf_nonneg hn z), density hn z h]
  rw [lintegral_congr_ae e3, lintegral_const_mul _ (measurable_gammaPDF _ _), lintegral_gammaPDF_eq_one (by linarith) (by positivity), mul_one]

theorem measure_eq (n t : ℝ) : studentMeasure n (Iic t) = ∫⁻ z in Iic t, ENNReal.ofReal (pdf n z) := by
  rw [studentMeasure, withDensity_apply _ measurableSet_Iic]
  rfl

theorem normal_eq (u : ℝ) (l : List ℝ) : idealCompound.toNumbers.normal exactOps 0 1 (u :: l) = .done (quantile (gaussianReal 0 1) u) l := by
  change Run.done (quantile (gaussianReal 0 1) u * 1 + 0) l = _
  rw [mul_one, add_zero]

theorem value {n t x y : ℝ} (hn : 0 < n) (hy : 0 < y) (l : List ℝ) :
    Spec.Run.LeI (.done (Ieee.div exactOps (.fin x) (Ieee.sqrt exactOps (Ieee.div exactOps (.fin (2 * y)) (.fin n)))) l) t ↔
      (x, y) ∈ {p : ℝ × ℝ | p.1 / Real.sqrt (2 * p.2 / n) ∈ Iic t} := by
  have h : 0 < 2 * y / n := by positivity
  rw [Set.mem_ofPred_eq, mem_Iic, div_fin hn.ne', Ieee.sqrt, if_neg h.not_gt]
  have e : exactOps.sqrt (2 * y / n) = Real.sqrt (2 * y / n) := by simp [exactOps]
  rw [e, div_fin (Real.sqrt_pos.2 h).ne', leI_done]

theorem generate_false (n u v : ℝ) (l : List ℝ) : StudentT.generate exactOps false n idealCompound (u :: v :: l) =
    .done (Ieee.div exactOps (.fin (quantile (gaussianReal 0 1) v)) (Ieee.sqrt exactOps (Ieee.div exactOps (.fin (2 * quantile (gammaMeasure (n / 2) 1) u)) (.fin n)))) l := by
  unfold StudentT.generate Run.both
  simp only [if_neg (show ¬ (false = true) by decide), ChiSquared.generate_eq, Run.bind_done, ChiSquared.n_exact, normal_eq]

theorem generate_true (n u v : ℝ) (l : List ℝ) : StudentT.generate exactOps true n idealCompound (u :: v :: l) =
    .done (Ieee.div exactOps (.fin (quantile (gaussianReal 0 1) u)) (Ieee.sqrt exactOps (Ieee.div exactOps (.fin (2 * quantile (gammaMeasure (n / 2) 1) v)) (.fin n)))) l := by
  unfold StudentT.generate Run.both
  simp only [if_true, ChiSquared.generate_eq, Run.bind_done, ChiSquared.n_exact, normal_eq]

theorem law (order : Bool) (k : Nat) {n : ℝ} (hn : 0 < n) (t : ℝ) :
    chance (k + 2) (fun l => Spec.Run.LeI (StudentT.generate exactOps order n idealCompound l) t) = studentMeasure n (Iic t) := by
  have hn2 : 0 < n / 2 := by positivity
  have hpb := isProbabilityMeasure_gammaMeasure (a := n / 2) (r := 1) hn2 one_pos
  have hS : MeasurableSet {p : ℝ × ℝ | p.1 / Real.sqrt (2 * p.2 / n) ∈ Iic t} :=
    (show Measurable fun p : ℝ × ℝ => p.1 / Real.sqrt (2 * p.2 / n) by fun_prop) measurableSet_Iic
  rw [measure_eq, ← quotient hn measurableSet_Iic]
  refine chance_order (r := fun b l => StudentT.generate exactOps b n idealCompound l) order (P := fun r => Spec.Run.LeI r t) hS (fun u hu v hv l => ?_) (fun u hu v hv l => ?_)
  · beta_reduce
    rw [generate_true]
    exact value hn (quantile_pos hn2 one_pos hv) l
  · beta_reduce
    rw [generate_false]
    exact value hn (quantile_pos hn2 one_pos hu) l

end StudentT

end Boost.Random
