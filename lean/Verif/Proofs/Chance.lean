import Verif.Spec.Variates

/-!
# Probabilities over independent uniform numbers
-/

namespace Boost.Random.Spec
open MeasureTheory Set ProbabilityTheory
open scoped ENNReal

/-- The uniform distribution on `[0, 1)`. -/
noncomputable def unitM : Measure ℝ := volume.restrict (Ico (0 : ℝ) 1)

instance : IsProbabilityMeasure unitM := ⟨by simp [unitM]⟩

theorem unitM_Ioo : unitM = volume.restrict (Ioo (0 : ℝ) 1) := Measure.restrict_congr_set Ioo_ae_eq_Ico.symm

theorem chance_succ (n : Nat) (p : List ℝ → Prop) : chance (n + 1) p = ∫⁻ u, chance n (fun l => p (u :: l)) ∂unitM := rfl

theorem chance_congr {n : Nat} {p q : List ℝ → Prop} (h : ∀ l, p l ↔ q l) : chance n p = chance n q := by
  rw [show p = q from funext fun l => propext (h l)]

theorem chance_le_one (n : Nat) (p : List ℝ → Prop) : chance n p ≤ 1 := by
  induction n generalizing p with
  | zero => rw [chance]; split <;> simp
  | succ n ih =>
    rw [chance_succ]
    calc ∫⁻ u, chance n (fun l => p (u :: l)) ∂unitM ≤ ∫⁻ _, 1 ∂unitM := lintegral_mono fun u => ih _
      _ = 1 := by simp

theorem chance_true (n : Nat) {p : List ℝ → Prop} (h : ∀ l, p l) : chance n p = 1 := by
  induction n generalizing p with
  | zero => rw [chance, if_pos (h [])]
  | succ n ih => rw [chance_succ, lintegral_congr fun u => ih (p := fun l => p (u :: l)) fun l => h _]; simp

theorem chance_false (n : Nat) {p : List ℝ → Prop} (h : ∀ l, ¬ p l) : chance n p = 0 := by
  induction n generalizing p with
  | zero => rw [chance, if_neg (h [])]
  | succ n ih => rw [chance_succ, lintegral_congr fun u => ih (p := fun l => p (u :: l)) fun l => h _]; simp

open Classical in
theorem chance_const (n : Nat) (c : Prop) : chance n (fun _ => c) = if c then 1 else 0 := by
  split
  · exact chance_true n fun _ => ‹c›
  · exact chance_false n fun _ => ‹¬ c›

/-- What depends on the first number only. -/
theorem chance_one {n : Nat} {p : List ℝ → Prop} {A : Set ℝ} (hA : MeasurableSet A) (h : ∀ᵐ u ∂unitM, ∀ l, p (u :: l) ↔ u ∈ A) :
    chance (n + 1) p = unitM A := by
  classical
  rw [chance_succ, ← lintegral_indicator_one hA]
  refine lintegral_congr_ae (h.mono fun u hu => ?_)
  change chance n (fun l => p (u :: l)) = _
  rw [chance_congr hu, chance_const, indicator_apply]
  rfl

/-- What depends on the first two numbers only. -/
theorem chance_two {n : Nat} {p : List ℝ → Prop} {A : Set (ℝ × ℝ)} (hA : MeasurableSet A)
    (h : ∀ᵐ u ∂unitM, ∀ᵐ w ∂unitM, ∀ l, p (u :: w :: l) ↔ (u, w) ∈ A) : chance (n + 2) p = (unitM.prod unitM) A := by
  rw [chance_succ, Measure.prod_apply hA]
  refine lintegral_congr_ae (h.mono fun u hu => ?_)
  exact chance_one (measurable_prodMk_left hA) hu

/-- The quantile function is measurable, and it transforms the uniform distribution into the distribution. -/
theorem quantile_le_iff {μ : Measure ℝ} [IsProbabilityMeasure μ] {u t : ℝ} (hu : u ∈ Ioo (0 : ℝ) 1) : quantile μ u ≤ t ↔ u ≤ ProbabilityTheory.cdf μ t := by
  have hne : {x | u ≤ ProbabilityTheory.cdf μ x}.Nonempty := by
    have := (tendsto_cdf_atTop μ).eventually (lt_mem_nhds hu.2)
    obtain ⟨x, hx⟩ := this.exists
    exact ⟨x, hx.le⟩
  have hbdd : BddBelow {x | u ≤ ProbabilityTheory.cdf μ x} := by
    have := (tendsto_cdf_atBot μ).eventually (gt_mem_nhds hu.1)
    obtain ⟨x, hx⟩ := this.exists
    refine ⟨x, fun y hy => ?_⟩
    by_contra hlt
    exact absurd (monotone_cdf μ (not_le.mp hlt).le) (not_le.mpr (lt_of_lt_of_le hx hy))
  rw [quantile, if_pos hu]
  constructor
  · intro h
    have key : ∀ x, t < x → u ≤ ProbabilityTheory.cdf μ x := by
      intro x hx
      obtain ⟨y, hy, hyx⟩ := exists_lt_of_csInf_lt hne (lt_of_le_of_lt h hx)
      exact le_trans hy (monotone_cdf μ hyx.le)
    have hc := (ProbabilityTheory.cdf μ).right_continuous t
    refine ge_of_tendsto (hc.mono_left (nhdsWithin_mono _ Ioi_subset_Ici_self)) ?_
    exact eventually_mem_nhdsWithin.mono key
  · exact fun h => csInf_le hbdd h

theorem measurable_quantile (μ : Measure ℝ) [IsProbabilityMeasure μ] : Measurable (quantile μ) := by
  refine measurable_of_Iic fun t => ?_
  have e : quantile μ ⁻¹' Iic t = (Ioo 0 1 ∩ Iic (ProbabilityTheory.cdf μ t)) ∪ ((Ioo 0 1)ᶜ ∩ {_u | (0 : ℝ) ≤ t}) := by
    ext u
    by_cases hu : u ∈ Ioo (0 : ℝ) 1
    · simp only [mem_preimage, mem_Iic, mem_union, mem_inter_iff, mem_compl_iff, hu, true_and, not_true, false_and, or_false]
      exact quantile_le_iff hu
    · simp only [mem_preimage, mem_Iic, mem_union, mem_inter_iff, mem_compl_iff, hu, false_and, not_false_iff, true_and, false_or]
      rw [quantile, if_neg hu]; rfl
  rw [e]
  exact (measurableSet_Ioo.inter measurableSet_Iic).union (measurableSet_Ioo.compl.inter (MeasurableSet.const _))

theorem unitM_mem : ∀ᵐ u ∂unitM, u ∈ Ioo (0 : ℝ) 1 := by
  rw [unitM_Ioo]
  exact ae_restrict_mem measurableSet_Ioo

/-- The part of `[0, 1)` up to `c`. -/
theorem unitM_Iic {c : ℝ} (h1 : c ≤ 1) : unitM (Iic c) = ENNReal.ofReal c := by
  rw [unitM_Ioo, Measure.restrict_congr_set Ioo_ae_eq_Ioc, Measure.restrict_apply measurableSet_Iic]
  have : Iic c ∩ Ioc 0 1 = Ioc 0 c := by
    ext x; simp only [mem_inter_iff, mem_Iic, mem_Ioc]
    constructor
    · rintro ⟨a, b, _⟩; exact ⟨b, a⟩
    · rintro ⟨a, b⟩; exact ⟨b, a, b.trans h1⟩
  rw [this, Real.volume_Ioc, sub_zero]

theorem unitM_Ici {c : ℝ} (h0 : 0 ≤ c) : unitM (Ici c) = ENNReal.ofReal (1 - c) := by
  rw [unitM, Measure.restrict_apply measurableSet_Ici]
  have : Ici c ∩ Ico 0 1 = Ico c 1 := by
    ext x; simp only [mem_inter_iff, mem_Ici, mem_Ico]
    constructor
    · rintro ⟨a, _, b⟩; exact ⟨a, b⟩
    · rintro ⟨a, b⟩; exact ⟨a, h0.trans a, b⟩
  rw [this, Real.volume_Ico]

theorem unitM_Iio {c : ℝ} (h1 : c ≤ 1) : unitM (Iio c) = ENNReal.ofReal c := by
  rw [unitM, Measure.restrict_apply measurableSet_Iio]
  have : Iio c ∩ Ico 0 1 = Ico 0 c := by
    ext x; simp only [mem_inter_iff, mem_Iio, mem_Ico]
    constructor
    · rintro ⟨a, b, _⟩; exact ⟨b, a⟩
    · rintro ⟨a, b⟩; exact ⟨b, a, b.trans_le h1⟩
  rw [this, Real.volume_Ico, sub_zero]

theorem map_quantile (μ : Measure ℝ) [IsProbabilityMeasure μ] : unitM.map (quantile μ) = μ := by
  have : IsProbabilityMeasure (unitM.map (quantile μ)) := Measure.isProbabilityMeasure_map (measurable_quantile μ).aemeasurable
  refine Measure.eq_of_cdf _ _ (StieltjesFunction.ext fun t => ?_)
  rw [cdf_eq_real, cdf_eq_real, Measure.real, Measure.real, Measure.map_apply (measurable_quantile μ) measurableSet_Iic]
  congr 1
  have e : unitM (quantile μ ⁻¹' Iic t) = unitM (Iic (ProbabilityTheory.cdf μ t)) := by
    refine measure_congr (unitM_mem.mono fun u hu => ?_)
    exact propext (quantile_le_iff hu)
  rw [e, unitM_Iic (cdf_le_one μ t), ← ofReal_cdf]

end Boost.Random.Spec
