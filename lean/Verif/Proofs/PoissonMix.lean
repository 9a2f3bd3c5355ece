import Verif.Proofs.Student
import Verif.Props.Poisson

/-!
# Poisson numbers whose mean is drawn, and the law of `negative_binomial_distribution`
-/

namespace Boost.Random
open Spec MeasureTheory Set ProbabilityTheory Gamma
open scoped ENNReal

theorem hasSum_poissonPmf (μ : ℝ) : HasSum (poissonPmf μ) 1 := by
  have h := (NormedSpace.expSeries_div_hasSum_exp (𝔸 := ℝ) μ).mul_left (Real.exp (-μ))
  rw [← Real.exp_eq_exp_ℝ, ← Real.exp_add, neg_add_cancel, Real.exp_zero] at h
  refine h.congr_fun fun k => ?_
  rw [poissonPmf, mul_div_assoc]

theorem poisson_reached (μ : ℝ) {u : ℝ} (hu : u < 1) : ∃ k, u ≤ Spec.cdf (poissonPmf μ) k := by
  have h := (hasSum_poissonPmf μ).tendsto_sum_nat.eventually (lt_mem_nhds hu)
  obtain ⟨n, hn⟩ := h.exists_forall_of_atTop
  exact ⟨n, (hn (n + 1) (by omega)).le⟩

theorem poissonQuantile_iff {μ u : ℝ} (hu : u < 1) {j : Nat} : poissonQuantile μ u = j ↔ IsLeast {k | u ≤ Spec.cdf (poissonPmf μ) k} j := by
  have hne : {k | u ≤ Spec.cdf (poissonPmf μ) k}.Nonempty := poisson_reached μ hu
  constructor
  · rintro rfl
    exact ⟨Nat.sInf_mem hne, fun k hk => Nat.sInf_le hk⟩
  · exact fun h => (IsLeast.csInf_eq h)

theorem measurableSet_poisson {μ : ℝ} (hμ : 0 ≤ μ) (j : Nat) : MeasurableSet {u : ℝ | IsLeast {k | u ≤ Spec.cdf (poissonPmf μ) k} j} := by
  have e : {u : ℝ | IsLeast {k | u ≤ Spec.cdf (poissonPmf μ) k} j} =
      {u | u ≤ Spec.cdf (poissonPmf μ) j} ∩ ({_u | j = 0} ∪ {u | Spec.cdf (poissonPmf μ) j - poissonPmf μ j < u}) := by
    ext u
    rw [Set.mem_ofPred_eq, isLeast_cdf_iff (poissonPmf_nonneg hμ)]
    rfl
  rw [e]
  exact measurableSet_Iic.inter ((MeasurableSet.const _).union measurableSet_Ioi)

theorem unitM_poisson {μ : ℝ} (hμ : 0 ≤ μ) (j : Nat) : unitM {u : ℝ | IsLeast {k | u ≤ Spec.cdf (poissonPmf μ) k} j} = ENNReal.ofReal (poissonPmf μ j) := by
  rw [← volume_cdf (poissonPmf_nonneg hμ) (cdf_poissonPmf_le hμ j), unitM, Measure.restrict_apply (measurableSet_poisson hμ j)]
  congr 1
  ext u
  simp only [Set.mem_inter_iff, Set.mem_ofPred_eq, mem_Ico]
  tauto

/-- A Poisson number read from one uniform number. -/
theorem chance_poisson {μ : ℝ} (hμ : 0 ≤ μ) (n j : Nat) :
    chance (n + 1) (fun l => ∃ s, idealCompound.poisson μ l = .done (j : Int) s) = ENNReal.ofReal (poissonPmf μ j) := by
  rw [← unitM_poisson hμ j]
  refine chance_one (measurableSet_poisson hμ j) (unitM_mem.mono fun u hu l => ?_)
  rw [Set.mem_ofPred_eq, ← poissonQuantile_iff hu.2]
  change (∃ s, Run.done ((poissonQuantile μ u : Nat) : Int) l = .done (j : Int) s) ↔ _
  constructor
  · rintro ⟨s, h⟩
    have h := (Run.done.inj h).1
    exact_mod_cast h
  · rintro h
    exact ⟨l, by rw [h]⟩

namespace NegativeBinomial

theorem pmf_nonneg {k j : Nat} {p : ℝ} (h0 : 0 < p) (h1 : p < 1) : 0 ≤ negativeBinomialPmf k p j := by
  have : 0 < 1 - p := by linarith
  unfold negativeBinomialPmf
  positivity

theorem density {k j : Nat} (hk : 0 < k) {p x : ℝ} (h0 : 0 < p) (h1 : p < 1) (hx : 0 < x) :
    gammaPDFReal k (p / (1 - p)) x * poissonPmf x j = negativeBinomialPmf k p j * gammaPDFReal (k + j) (1 / (1 - p)) x := by
  have hq : 0 < 1 - p := by linarith
  obtain ⟨k, rfl⟩ : ∃ i, k = i + 1 := ⟨k - 1, by omega⟩
  have g1 : Real.Gamma ((k + 1 : Nat) : ℝ) = k.factorial := by push_cast; exact Real.Gamma_nat_eq_factorial k
  have g2 : Real.Gamma (((k + 1 : Nat) : ℝ) + j) = (k + j).factorial := by
    rw [← Real.Gamma_nat_eq_factorial (k + j)]
    congr 1
    push_cast
    ring
  rw [gammaPDFReal, if_pos hx.le, gammaPDFReal, if_pos hx.le, g1, g2, poissonPmf, negativeBinomialPmf]
  have e1 : x ^ (((k + 1 : Nat) : ℝ) - 1) = x ^ k := by
    rw [show ((k + 1 : Nat) : ℝ) - 1 = (k : ℝ) by push_cast; ring, Real.rpow_natCast]
  have e2 : x ^ (((k + 1 : Nat) : ℝ) + j - 1) = x ^ k * x ^ j := by
    rw [show ((k + 1 : Nat) : ℝ) + j - 1 = ((k + j : Nat) : ℝ) by push_cast; ring, Real.rpow_natCast, pow_add]
  have e3 : (1 / (1 - p)) ^ (((k + 1 : Nat) : ℝ) + j) = 1 / ((1 - p) ^ (k + 1) * (1 - p) ^ j) := by
    rw [show ((k + 1 : Nat) : ℝ) + j = ((k + 1 + j : Nat) : ℝ) by push_cast; ring, Real.rpow_natCast, div_pow, one_pow, pow_add]
  have e4 : Real.exp (-(p / (1 - p) * x)) * Real.exp (-x) = Real.exp (-(1 / (1 - p) * x)) := by
    rw [← Real.exp_add]
    congr 1
    field_simp
    ring
  have e5 : ((k + 1 + j - 1).choose j : ℝ) = (k + j).factorial / (j.factorial * k.factorial) := by
    rw [show k + 1 + j - 1 = k + j by omega, Nat.cast_choose ℝ (Nat.le_add_left j k), Nat.add_sub_cancel]
  rw [e1, e2, e3, e5, ← e4, Real.rpow_natCast, div_pow]
  have f1 : (k.factorial : ℝ) ≠ 0 := by positivity
  have f2 : (j.factorial : ℝ) ≠ 0 := by positivity
  have f3 : ((k + j).factorial : ℝ) ≠ 0 := by positivity
  field_simp

theorem mixture {k j : Nat} (hk : 0 < k) {p : ℝ} (h0 : 0 < p) (h1 : p < 1) :
    ∫⁻ x, ENNReal.ofReal (poissonPmf x j) ∂gammaMeasure k (p / (1 - p)) = ENNReal.ofReal (negativeBinomialPmf k p j) := by
  have hq : 0 < 1 - p := by linarith
  have hk' : (0 : ℝ) < k := by exact_mod_cast hk
  have mz : Measurable fun x : ℝ => ENNReal.ofReal (poissonPmf x j) := by
    unfold poissonPmf
    fun_prop
  rw [gammaMeasure, lintegral_withDensity_eq_lintegral_mul _ (measurable_gammaPDF _ _) mz]
  have e3 : ∀ᵐ x ∂(volume : Measure ℝ), (gammaPDF k (p / (1 - p)) * fun x : ℝ => ENNReal.ofReal (poissonPmf x j)) x =
      ENNReal.ofReal (negativeBinomialPmf k p j) * gammaPDF (k + j) (1 / (1 - p)) x := by
    have hy0 : ∀ᵐ y ∂(volume : Measure ℝ), y ≠ 0 := by
      rw [ae_iff]; simp
    filter_upwards [hy0] with x hx
    rw [Pi.mul_apply]
    rcases lt_or_gt_of_ne hx with h | h
    · rw [gammaPDF_of_neg h, gammaPDF_of_neg h, zero_mul, mul_zero]
    · rw [gammaPDF, gammaPDF, ← ENNReal.ofReal_mul (gammaPDFReal_nonneg hk' (by positivity) _), ← ENNReal.ofReal_mul (pmf_nonneg h0 h1), density hk h0 h1 h]
  rw [lintegral_congr_ae e3, lintegral_const_mul _ (measurable_gammaPDF _ _), lintegral_gammaPDF_eq_one (by positivity) (by positivity), mul_one]

theorem law (n : Nat) {k j : Nat} (hk : 0 < k) {p : ℝ} (h0 : 0 < p) (h1 : p < 1) :
    chance (n + 2) (fun l => ∃ s, NegativeBinomial.generate exactOps k p idealCompound l = .done (j : Int) s) = ENNReal.ofReal (negativeBinomialPmf k p j) := by
  have hq : 0 < 1 - p := by linarith
  have hk' : (0 : ℝ) < k := by exact_mod_cast hk
  have hp := isProbabilityMeasure_gammaMeasure (a := k) (r := p / (1 - p)) hk' (by positivity)
  have mz : Measurable fun x : ℝ => ENNReal.ofReal (poissonPmf x j) := by
    unfold poissonPmf
    fun_prop
  have e : ∀ u ∈ Ioo (0 : ℝ) 1, ∀ l, NegativeBinomial.generate exactOps k p idealCompound (u :: l) = idealCompound.poisson (quantile (gammaMeasure k (p / (1 - p))) u) l := by
    intro u hu l
    have hb : 0 < (1 - p) / p := by positivity
    have hx := quantile_pos hk' (show 0 < p / (1 - p) by positivity) hu
    have hg : idealCompound.gamma k ((1 - p) / p) (u :: l) = .done (quantile (gammaMeasure k (p / (1 - p))) u) l := by
      change Run.done (quantile (gammaMeasure k (1 / ((1 - p) / p))) u) l = _
      rw [one_div_div]
    unfold NegativeBinomial.generate
    simp only [efl]
    rw [if_neg (by push Not; exact ⟨h0.ne', by exact_mod_cast hk, hb⟩)]
    push_cast
    rw [hg, Run.bind_done, if_pos hx]
  rw [chance_succ, ← mixture hk h0 h1, ← map_quantile (μ := gammaMeasure k (p / (1 - p))), lintegral_map mz (measurable_quantile _)]
  refine lintegral_congr_ae (unitM_mem.mono fun u hu => ?_)
  beta_reduce
  rw [← chance_poisson (quantile_pos hk' (by positivity) hu).le n j]
  refine chance_congr fun l => ?_
  rw [e u hu]

end NegativeBinomial

end Boost.Random
