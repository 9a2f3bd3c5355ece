import Verif.Proofs.Variates
import Verif.Model.Gamma
import Verif.Proofs.Rejection
import Verif.Proofs.GammaMeasure
import Mathlib.Analysis.Complex.ExponentialBounds

/-!
# The loop of `gamma_distribution` for a parameter below one
-/

namespace Boost.Random.Gamma
open Spec MeasureTheory Set ProbabilityTheory
open scoped ENNReal

/-- `_p` -/
noncomputable def pp (alpha : ℝ) : ℝ := Real.exp 1 / (alpha + Real.exp 1)

/-- The first candidate. -/
noncomputable def x1 (alpha v : ℝ) : ℝ := Real.exp (-(-Real.log (1 - v) / 1) / alpha)

/-- The second candidate. -/
noncomputable def x2 (v : ℝ) : ℝ := 1 + -Real.log (1 - v) / 1

theorem measurable_x1 (alpha : ℝ) : Measurable (x1 alpha) := by unfold x1; fun_prop
theorem measurable_x2 : Measurable x2 := by unfold x2; fun_prop

section
variable {alpha : ℝ} (ha : 0 < alpha)
include ha

theorem pp_pos : 0 < pp alpha := by have := Real.exp_pos 1; rw [pp]; positivity
theorem pp_lt : pp alpha < 1 := by
  have := Real.exp_pos 1
  rw [pp, div_lt_one (by positivity)]
  linarith

theorem image_x1 : (fun x : ℝ => 1 - x ^ alpha) '' Ioo 0 1 = Ioo 0 1 := by
  ext v
  simp only [mem_image, mem_Ioo]
  constructor
  · rintro ⟨x, ⟨h0, h1⟩, rfl⟩
    have := Real.rpow_pos_of_pos h0 alpha
    have := Real.rpow_lt_one h0.le h1 ha
    constructor <;> linarith
  · rintro ⟨h0, h1⟩
    refine ⟨(1 - v) ^ (1 / alpha), ⟨Real.rpow_pos_of_pos (by linarith) _, Real.rpow_lt_one (by linarith) (by linarith) (by positivity)⟩, ?_⟩
    rw [← Real.rpow_mul (by linarith), one_div_mul_cancel ha.ne', Real.rpow_one]
    ring

theorem x1_image {x : ℝ} (h : x ∈ Ioo (0 : ℝ) 1) : x1 alpha (1 - x ^ alpha) = x := by
  rw [x1, sub_sub_cancel, Real.log_rpow h.1]
  have : -(-(alpha * Real.log x) / 1) / alpha = Real.log x := by field_simp
  rw [this, Real.exp_log h.1]

theorem lintegral_x1 (F : ℝ → ℝ≥0∞) : ∫⁻ v, F (x1 alpha v) ∂unitM = ∫⁻ x in Ioo 0 1, ENNReal.ofReal (alpha * x ^ (alpha - 1)) * F x := by
  rw [unitM_Ioo]
  conv_lhs => rw [← image_x1 ha]
  rw [lintegral_image_eq_lintegral_abs_deriv_mul measurableSet_Ioo (f' := fun x => -(alpha * x ^ (alpha - 1)))]
  · refine setLIntegral_congr_fun measurableSet_Ioo fun x hx => ?_
    have := Real.rpow_pos_of_pos hx.1 (alpha - 1)
    simp only [x1_image ha hx, abs_neg]
    rw [abs_of_nonneg (by positivity)]
  · intro x hx
    exact ((Real.hasDerivAt_rpow_const (Or.inl hx.1.ne')).const_sub 1).hasDerivWithinAt
  · intro x hx y hy h
    have h : 1 - x ^ alpha = 1 - y ^ alpha := h
    exact Real.rpow_left_injOn ha.ne' hx.1.le hy.1.le (by simpa using h)
end

theorem image_x2 : (fun x : ℝ => 1 - Real.exp (1 - x)) '' Ioi 1 = Ioo 0 1 := by
  ext v
  simp only [mem_image, mem_Ioo, mem_Ioi]
  constructor
  · rintro ⟨x, h, rfl⟩
    have := Real.exp_pos (1 - x)
    have : Real.exp (1 - x) < 1 := Real.exp_lt_one_iff.2 (by linarith)
    constructor <;> linarith
  · rintro ⟨h0, h1⟩
    have := Real.log_neg (show 0 < 1 - v by linarith) (by linarith)
    refine ⟨1 - Real.log (1 - v), by linarith, ?_⟩
    rw [sub_sub_cancel, Real.exp_log (by linarith), sub_sub_cancel]

theorem x2_image (x : ℝ) : x2 (1 - Real.exp (1 - x)) = x := by
  rw [x2, sub_sub_cancel, Real.log_exp]
  ring

theorem lintegral_x2 (F : ℝ → ℝ≥0∞) : ∫⁻ v, F (x2 v) ∂unitM = ∫⁻ x in Ioi 1, ENNReal.ofReal (Real.exp (1 - x)) * F x := by
  rw [unitM_Ioo]
  conv_lhs => rw [← image_x2]
  rw [lintegral_image_eq_lintegral_abs_deriv_mul measurableSet_Ioi (f' := fun x => Real.exp (1 - x))]
  · refine lintegral_congr fun x => ?_
    rw [x2_image, abs_of_pos (Real.exp_pos _)]
  · intro x _
    have := (((hasDerivAt_id x).const_sub 1).exp).const_sub 1
    simpa using this.hasDerivWithinAt
  · intro x hx y hy h
    have h : 1 - Real.exp (1 - x) = 1 - Real.exp (1 - y) := h
    have := Real.exp_injective (show Real.exp (1 - x) = Real.exp (1 - y) by linarith)
    linarith

/-- The accepted pairs with a value in `B`. -/
def accS (alpha : ℝ) (B : Set ℝ) : Set (ℝ × ℝ) :=
  {z | (z.1 < pp alpha ∧ z.1 < pp alpha * Real.exp (-x1 alpha z.2) ∧ x1 alpha z.2 ∈ B) ∨
    (¬ z.1 < pp alpha ∧ z.1 < pp alpha + (1 - pp alpha) * x2 z.2 ^ (alpha - 1) ∧ x2 z.2 ∈ B)}

theorem measurableSet_accS (alpha : ℝ) {B : Set ℝ} (hB : MeasurableSet B) : MeasurableSet (accS alpha B) := by
  have m1 : Measurable fun z : ℝ × ℝ => x1 alpha z.2 := (measurable_x1 alpha).comp measurable_snd
  have m2 : Measurable fun z : ℝ × ℝ => x2 z.2 := measurable_x2.comp measurable_snd
  have c : MeasurableSet {z : ℝ × ℝ | z.1 < pp alpha} := measurableSet_lt measurable_fst measurable_const
  exact (c.inter ((measurableSet_lt measurable_fst (m1.neg.exp.const_mul _)).inter (m1 hB))).union
    (c.compl.inter ((measurableSet_lt measurable_fst (((m2.pow_const _).const_mul _).const_add _)).inter (m2 hB)))

/-- The acceptance rate. -/
noncomputable def rateS (alpha : ℝ) : ℝ := Real.Gamma alpha * (alpha * pp alpha)

theorem rateS_pos {alpha : ℝ} (ha : 0 < alpha) : 0 < rateS alpha := by
  have := pp_pos ha
  have := Real.Gamma_pos_of_pos ha
  rw [rateS]; positivity

theorem rateS_pdf {alpha x : ℝ} (ha : 0 < alpha) (hx : 0 < x) : rateS alpha * gammaPDFReal alpha 1 x = alpha * pp alpha * (x ^ (alpha - 1) * Real.exp (-x)) := by
  have := (Real.Gamma_pos_of_pos ha).ne'
  rw [rateS, gammaPDFReal, if_pos hx.le, Real.one_rpow, one_mul]
  field_simp

theorem measure_accS {alpha : ℝ} (ha : 0 < alpha) (ha1 : alpha < 1) {B : Set ℝ} (hB : MeasurableSet B) :
    (unitM.prod unitM) (accS alpha B) = ENNReal.ofReal (rateS alpha) * gammaMeasure alpha 1 B := by
  classical
  have hp := pp_pos ha
  have hp1 := pp_lt ha
  rw [Measure.prod_apply_symm (measurableSet_accS alpha hB)]
  have e1 : ∀ v ∈ Ioo (0 : ℝ) 1, unitM ((fun u => (u, v)) ⁻¹' accS alpha B) =
      B.indicator (fun x => ENNReal.ofReal (pp alpha * Real.exp (-x))) (x1 alpha v) + B.indicator (fun x => ENNReal.ofReal ((1 - pp alpha) * x ^ (alpha - 1))) (x2 v) := by
    intro v hv
    have hlog : Real.log (1 - v) < 0 := Real.log_neg (by linarith [hv.2]) (by linarith [hv.1])
    have hx1 : 0 < x1 alpha v := Real.exp_pos _
    have hx2 : 1 < x2 v := by rw [x2]; linarith
    have hpow : 0 < x2 v ^ (alpha - 1) := Real.rpow_pos_of_pos (by linarith) _
    have hpow1 : x2 v ^ (alpha - 1) ≤ 1 := Real.rpow_le_one_of_one_le_of_nonpos hx2.le (by linarith)
    have hexp : Real.exp (-x1 alpha v) < 1 := Real.exp_lt_one_iff.2 (by linarith)
    have hexp0 := Real.exp_pos (-x1 alpha v)
    have split : (fun u => (u, v)) ⁻¹' accS alpha B = {u | u < pp alpha * Real.exp (-x1 alpha v) ∧ x1 alpha v ∈ B} ∪
        {u | u ∈ Ico (pp alpha) (pp alpha + (1 - pp alpha) * x2 v ^ (alpha - 1)) ∧ x2 v ∈ B} := by
      ext u
      simp only [accS, mem_preimage, mem_union, Set.mem_ofPred_eq, mem_Ico, not_lt]
      have : u < pp alpha * Real.exp (-x1 alpha v) → u < pp alpha := fun h => h.trans (mul_lt_of_lt_one_right hp hexp)
      tauto
    have hdisj : Disjoint {u | u < pp alpha * Real.exp (-x1 alpha v) ∧ x1 alpha v ∈ B}
        {u | u ∈ Ico (pp alpha) (pp alpha + (1 - pp alpha) * x2 v ^ (alpha - 1)) ∧ x2 v ∈ B} := by
      rw [Set.disjoint_left]
      intro u h1 h2
      have := h1.1.trans (mul_lt_of_lt_one_right hp hexp)
      exact absurd h2.1.1 (not_le.2 this)
    have m2 : MeasurableSet {u | u ∈ Ico (pp alpha) (pp alpha + (1 - pp alpha) * x2 v ^ (alpha - 1)) ∧ x2 v ∈ B} := measurableSet_Ico.inter (MeasurableSet.const _)
    rw [split, measure_union hdisj m2]
    congr 1
    · by_cases h : x1 alpha v ∈ B
      · rw [indicator_of_mem h, ← unitM_Iio (show pp alpha * Real.exp (-x1 alpha v) ≤ 1 by nlinarith)]
        congr 1
        ext u; exact ⟨fun hu => hu.1, fun hu => ⟨hu, h⟩⟩
      · rw [indicator_of_notMem h]
        have : {u | u < pp alpha * Real.exp (-x1 alpha v) ∧ x1 alpha v ∈ B} = ∅ := by
          ext u; simp only [mem_empty_iff_false, iff_false]; exact fun hu => h hu.2
        rw [this, measure_empty]
    · by_cases h : x2 v ∈ B
      · rw [indicator_of_mem h]
        have : {u | u ∈ Ico (pp alpha) (pp alpha + (1 - pp alpha) * x2 v ^ (alpha - 1)) ∧ x2 v ∈ B} = Ico (pp alpha) (pp alpha + (1 - pp alpha) * x2 v ^ (alpha - 1)) := by
          ext u; exact ⟨fun hu => hu.1, fun hu => ⟨hu, h⟩⟩
        rw [this, unitM, Measure.restrict_apply measurableSet_Ico, inter_eq_left.2, Real.volume_Ico, add_sub_cancel_left]
        intro u hu
        refine ⟨hp.le.trans hu.1, lt_of_lt_of_le hu.2 ?_⟩
        nlinarith
      · rw [indicator_of_notMem h]
        have : {u | u ∈ Ico (pp alpha) (pp alpha + (1 - pp alpha) * x2 v ^ (alpha - 1)) ∧ x2 v ∈ B} = ∅ := by
          ext u; simp only [mem_empty_iff_false, iff_false]; exact fun hu => h hu.2
        rw [this, measure_empty]
  rw [lintegral_congr_ae (unitM_mem.mono fun v hv => e1 v hv), lintegral_add_left, lintegral_x1 ha, lintegral_x2]
  swap
  · exact (Measurable.indicator (by fun_prop) hB).comp (measurable_x1 alpha)
  have key : alpha * pp alpha = Real.exp 1 * (1 - pp alpha) := by
    have := Real.exp_pos 1
    have : alpha + Real.exp 1 ≠ 0 := by positivity
    rw [pp]; field_simp; ring
  have e2 : ∀ x ∈ Ioo (0 : ℝ) 1, ENNReal.ofReal (alpha * x ^ (alpha - 1)) * B.indicator (fun x => ENNReal.ofReal (pp alpha * Real.exp (-x))) x =
      B.indicator (fun x => ENNReal.ofReal (rateS alpha) * gammaPDF alpha 1 x) x := by
    intro x hx
    have := Real.rpow_pos_of_pos hx.1 (alpha - 1)
    by_cases h : x ∈ B
    · rw [indicator_of_mem h, indicator_of_mem h, gammaPDF, ← ENNReal.ofReal_mul (by positivity), ← ENNReal.ofReal_mul (rateS_pos ha).le, rateS_pdf ha hx.1]
      congr 1; ring
    · rw [indicator_of_notMem h, indicator_of_notMem h, mul_zero]
  have e3 : ∀ x ∈ Ioi (1 : ℝ), ENNReal.ofReal (Real.exp (1 - x)) * B.indicator (fun x => ENNReal.ofReal ((1 - pp alpha) * x ^ (alpha - 1))) x =
      B.indicator (fun x => ENNReal.ofReal (rateS alpha) * gammaPDF alpha 1 x) x := by
    intro x hx
    have hx : 1 < x := hx
    by_cases h : x ∈ B
    · rw [indicator_of_mem h, indicator_of_mem h, gammaPDF, ← ENNReal.ofReal_mul (Real.exp_pos _).le, ← ENNReal.ofReal_mul (rateS_pos ha).le,
        rateS_pdf ha (by linarith), key, sub_eq_add_neg, Real.exp_add]
      congr 1; ring
    · rw [indicator_of_notMem h, indicator_of_notMem h, mul_zero]
  rw [setLIntegral_congr_fun measurableSet_Ioo e2, setLIntegral_congr_fun measurableSet_Ioi e3]
  have e4 : volume.restrict (Ioi (1 : ℝ)) = volume.restrict (Ici 1) := Measure.restrict_congr_set Ioi_ae_eq_Ici
  rw [e4, ← lintegral_union measurableSet_Ici (by
    rw [Set.disjoint_left]
    exact fun x h1 h2 => absurd h1.2 (not_lt.2 h2)), Ioo_union_Ici_eq_Ioi one_pos, lintegral_indicator hB, Measure.restrict_restrict hB,
    lintegral_const_mul _ (measurable_gammaPDF _ _), gammaMeasure, withDensity_apply _ hB]
  congr 1
  have e5 : volume.restrict (B ∩ Ioi (0 : ℝ)) = volume.restrict (B ∩ Ici 0) :=
    Measure.restrict_congr_set (ae_eq_set_inter (ae_eq_refl _) Ioi_ae_eq_Ici)
  rw [e5, ← lintegral_inter_add_sdiff _ B (measurableSet_Ici (a := (0 : ℝ)))]
  have e6 : ∫⁻ x in B \ Ici 0, gammaPDF alpha 1 x = 0 := by
    refine (setLIntegral_congr_fun (hB.diff measurableSet_Ici) (g := fun _ => 0) fun x hx => ?_).trans lintegral_zero
    exact gammaPDF_of_neg (not_le.1 hx.2)
  rw [e6, add_zero]

theorem rateS_le {alpha : ℝ} (ha : 0 < alpha) (ha1 : alpha < 1) : 1 / 4 ≤ rateS alpha ∧ rateS alpha ≤ 1 := by
  have hprob := isProbabilityMeasure_gammaMeasure (a := alpha) (r := 1) ha one_pos
  have h := measure_accS ha ha1 MeasurableSet.univ
  rw [measure_univ, mul_one] at h
  have hp := pp_pos ha
  have hp1 := pp_lt ha
  have he := Real.exp_one_lt_d9
  have he0 := Real.exp_pos 1
  constructor
  · have hsub : {z : ℝ × ℝ | z.1 < pp alpha / Real.exp 1} ∩ {z | z.2 ∈ Ioo (0 : ℝ) 1} ⊆ accS alpha univ := by
      rintro ⟨u, v⟩ ⟨h1, h2⟩
      have h1 : u < pp alpha / Real.exp 1 := h1
      have h2 : v ∈ Ioo (0 : ℝ) 1 := h2
      have hlog : Real.log (1 - v) < 0 := Real.log_neg (by linarith [h2.2]) (by linarith [h2.1])
      have hx1 : x1 alpha v < 1 := Real.exp_lt_one_iff.2 (div_neg_of_neg_of_pos (by linarith) ha)
      have h3 : u < pp alpha * Real.exp (-x1 alpha v) := by
        refine h1.trans_le ?_
        rw [div_eq_mul_inv, ← Real.exp_neg]
        exact mul_le_mul_of_nonneg_left (Real.exp_le_exp.2 (by linarith)) hp.le
      refine Or.inl ⟨h3.trans (mul_lt_of_lt_one_right hp (Real.exp_lt_one_iff.2 ?_)), h3, trivial⟩
      rw [x1]
      exact neg_lt_zero.2 (Real.exp_pos _)
    have h5 := measure_mono (μ := unitM.prod unitM) hsub
    have e : {z : ℝ × ℝ | z.1 < pp alpha / Real.exp 1} ∩ {z | z.2 ∈ Ioo (0 : ℝ) 1} = Iio (pp alpha / Real.exp 1) ×ˢ Ioo 0 1 := rfl
    have hle : pp alpha / Real.exp 1 ≤ 1 := by
      rw [div_le_one he0]
      have := Real.add_one_le_exp 1
      linarith
    rw [e, Measure.prod_prod, unitM_Iio hle, h] at h5
    have e2 : unitM (Ioo 0 1) = 1 := by rw [unitM_Ioo, Measure.restrict_apply_self, Real.volume_Ioo]; norm_num
    rw [e2, mul_one, ENNReal.ofReal_le_ofReal_iff (rateS_pos ha).le] at h5
    refine le_trans ?_ h5
    rw [pp, div_div, mul_comm, ← div_div, div_self he0.ne']
    exact one_div_le_one_div_of_le (by positivity) (by linarith)
  · have := prob_le_one (μ := unitM.prod unitM) (s := accS alpha univ)
    rw [h] at this
    exact ENNReal.ofReal_le_one.1 this

theorem small_step {alpha beta : ℝ} (m : Nat) (u v : ℝ) (l : List ℝ) : small exactOps (init exactOps alpha beta) idealNumbers (m + 1) (u :: v :: l) =
    if (if u < pp alpha then (x1 alpha v, pp alpha * Real.exp (-x1 alpha v)) else (x2 v, pp alpha + (1 - pp alpha) * x2 v ^ (alpha - 1))).2 ≤ u then
      small exactOps (init exactOps alpha beta) idealNumbers m l
    else .done ((if u < pp alpha then (x1 alpha v, pp alpha * Real.exp (-x1 alpha v)) else (x2 v, pp alpha + (1 - pp alpha) * x2 v ^ (alpha - 1))).1 * beta) l := rfl

/-- The loop after at most `m` iterations. -/
theorem small_chance {alpha beta : ℝ} (ha : 0 < alpha) (ha1 : alpha < 1) (t : ℝ) (m N : Nat) (hN : 2 * m ≤ N) :
    chance N (fun l => Spec.Run.Le (small exactOps (init exactOps alpha beta) idealNumbers m l) t) =
      geo (ENNReal.ofReal (rateS alpha) * gammaMeasure alpha 1 {x | x * beta ≤ t}) (ENNReal.ofReal (rateS alpha)) m := by
  have hB : MeasurableSet {x : ℝ | x * beta ≤ t} := measurableSet_le (measurable_id.mul_const _) measurable_const
  have hprob := isProbabilityMeasure_gammaMeasure (a := alpha) (r := 1) ha one_pos
  have h1 := measure_accS ha ha1 hB
  have h2 := measure_accS ha ha1 MeasurableSet.univ
  rw [measure_univ, mul_one] at h2
  rw [← h1, ← h2]
  refine chance_loop (P := fun r => Spec.Run.Le r t) (L := fun m l => small exactOps (init exactOps alpha beta) idealNumbers m l) (U := ∅)
    (measurableSet_accS _ hB) (measurableSet_accS _ MeasurableSet.univ) ?_ ?_ (fun m u hu => hu.elim) ?_ ?_ m N hN
  · rintro z (h | h)
    · exact Or.inl ⟨h.1, h.2.1, trivial⟩
    · exact Or.inr ⟨h.1, h.2.1, trivial⟩
  · rintro l ⟨v, s, h, _⟩
    cases h
  · intro m u _ v l hz
    rw [small_step, if_pos]
    by_contra hc
    by_cases hu : u < pp alpha
    · rw [if_pos hu] at hc
      exact hz (Or.inl ⟨hu, not_le.1 hc, trivial⟩)
    · rw [if_neg hu] at hc
      exact hz (Or.inr ⟨hu, not_le.1 hc, trivial⟩)
  · intro m u _ v l hz
    by_cases hu : u < pp alpha
    · have hz' : u < pp alpha * Real.exp (-x1 alpha v) := by
        rcases hz with h | h
        · exact h.2.1
        · exact absurd hu h.1
      rw [small_step, if_pos hu, if_neg (not_le.2 hz')]
      constructor
      · rintro ⟨x, s, h, hx⟩
        cases h
        exact Or.inl ⟨hu, hz', hx⟩
      · rintro (h | h)
        · exact ⟨_, _, rfl, h.2.2⟩
        · exact absurd hu h.1
    · have hz' : u < pp alpha + (1 - pp alpha) * x2 v ^ (alpha - 1) := by
        rcases hz with h | h
        · exact absurd h.1 hu
        · exact h.2.1
      rw [small_step, if_neg hu, if_neg (not_le.2 hz')]
      constructor
      · rintro ⟨x, s, h, hx⟩
        cases h
        exact Or.inr ⟨hu, hz', hx⟩
      · rintro (h | h)
        · exact absurd h.1 hu
        · exact ⟨_, _, rfl, h.2.2⟩

end Boost.Random.Gamma
