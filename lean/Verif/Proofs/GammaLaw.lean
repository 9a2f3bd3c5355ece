import Verif.Proofs.GammaLarge
import Verif.Proofs.GammaSmall
import Mathlib.Probability.Distributions.Exponential

/-!
# The law of `gamma_distribution`
-/

namespace Boost.Random.Gamma
open Spec MeasureTheory Set ProbabilityTheory
open scoped ENNReal

theorem gamma_scaled {alpha beta : ℝ} (ha : 0 < alpha) (hb : 0 < beta) (t : ℝ) :
    gammaMeasure alpha 1 {x | x * beta ≤ t} = ENNReal.ofReal (ProbabilityTheory.cdf (gammaMeasure alpha (1 / beta)) t) := by
  have := isProbabilityMeasure_gammaMeasure (a := alpha) (r := 1 / beta) ha (by positivity)
  rw [ofReal_cdf, ← map_gamma alpha one_pos hb, Measure.map_apply (by fun_prop) measurableSet_Iic]
  congr 1
  ext x
  simp only [Set.mem_ofPred_eq, mem_preimage, mem_Iic, mul_comm]

/-- A value that is accepted in proportion to its density, when the values outside of `C` are not proposed. -/
theorem conditional {μ : Measure ℝ} [IsProbabilityMeasure μ] {B C : Set ℝ} (hB : MeasurableSet B) (hC : MeasurableSet C) {k : ℝ} (hk : 0 ≤ k)
    {c : ℝ≥0∞} (hc : c = ENNReal.ofReal k) {q0 : ℝ} (h0 : 0 < q0) (hq : ENNReal.ofReal q0 ≤ c * μ C) (hq1 : c * μ C ≤ 1) (m : Nat) :
    |(geo (c * μ (B ∩ C)) (c * μ C) m).toReal - (μ B).toReal| ≤ (μ Cᶜ).toReal + (1 - q0) ^ m := by
  have hle : c * μ (B ∩ C) ≤ c * μ C := mul_le_mul_right (measure_mono inter_subset_right) _
  obtain ⟨e, -⟩ := geo_toReal hle hq1 m
  have hct : c.toReal = k := by rw [hc, ENNReal.toReal_ofReal hk]
  rw [ENNReal.toReal_mul, ENNReal.toReal_mul, hct] at e
  have q1 : q0 ≤ k * (μ C).toReal := by
    have := ENNReal.toReal_mono (hq1.trans_lt (by simp)).ne hq
    rwa [ENNReal.toReal_ofReal h0.le, ENNReal.toReal_mul, hct] at this
  have q2 : k * (μ C).toReal ≤ 1 := by
    have := ENNReal.toReal_mono (by simp) hq1
    rwa [ENNReal.toReal_mul, hct] at this
  have r1 : (μ Cᶜ).toReal = 1 - (μ C).toReal := by
    rw [prob_compl_eq_one_sub hC, ENNReal.toReal_sub_of_le prob_le_one (by simp), ENNReal.toReal_one]
  have r2 : (μ B).toReal = (μ (B ∩ C)).toReal + (μ (B \ C)).toReal := by
    rw [← ENNReal.toReal_add (measure_ne_top _ _) (measure_ne_top _ _), measure_inter_add_sdiff _ hC]
  have r3 : (μ (B \ C)).toReal ≤ (μ Cᶜ).toReal := ENNReal.toReal_mono (measure_ne_top _ _) (measure_mono fun x hx => hx.2)
  have r4 : (μ (B ∩ C)).toReal ≤ (μ C).toReal := ENNReal.toReal_mono (measure_ne_top _ _) (measure_mono inter_subset_right)
  have r5 : 0 ≤ (μ (B \ C)).toReal := ENNReal.toReal_nonneg
  have r6 : 0 ≤ (μ (B ∩ C)).toReal := ENNReal.toReal_nonneg
  generalize (geo (c * μ (B ∩ C)) (c * μ C) m).toReal = P at *
  generalize (μ (B ∩ C)).toReal = x at *
  generalize (μ (B \ C)).toReal = y at *
  generalize (μ C).toReal = z at *
  generalize (μ Cᶜ).toReal = e1 at *
  rw [r2]
  clear r2
  have hz : 0 < z := by
    by_contra hn
    have : k * z ≤ 0 := mul_nonpos_of_nonneg_of_nonpos hk (not_lt.1 hn)
    linarith
  have hk0 : 0 < k := by
    rcases hk.lt_or_eq with h | h
    · exact h
    · rw [← h, zero_mul] at q1; linarith
  have hP : P = x / z * (1 - (1 - k * z) ^ m) := by
    have : P * z = x * (1 - (1 - k * z) ^ m) := mul_left_cancel₀ hk0.ne' (by linear_combination e)
    field_simp
    linear_combination this
  have hb : (1 - k * z) ^ m ≤ (1 - q0) ^ m := pow_le_pow_left₀ (by linarith) (by linarith) m
  have hb0 : 0 ≤ (1 - k * z) ^ m := pow_nonneg (by linarith) m
  have hx1 : x / z ≤ 1 := (div_le_one hz).2 r4
  have hx0 : 0 ≤ x / z := div_nonneg r6 hz.le
  have hx2 : x ≤ x / z := by
    rw [le_div_iff₀ hz]; nlinarith
  have hx3 : x / z ≤ x + e1 := by
    rw [div_le_iff₀ hz, r1]; nlinarith
  rw [hP, abs_le]
  constructor <;> nlinarith

theorem law {alpha beta : ℝ} (ha : 0 < alpha) (hb : 0 < beta) (t : ℝ) (m N : Nat) (hN : 2 * m ≤ N) :
    |(chance N fun l => Spec.Run.Le (generate exactTrig (init exactOps alpha beta) idealNumbers m l) t).toReal -
      ProbabilityTheory.cdf (gammaMeasure alpha (1 / beta)) t| ≤ (if 1 < alpha then 2 / 10 ^ 19 else 0) + (23 / 24) ^ m := by
  have hprob := isProbabilityMeasure_gammaMeasure (a := alpha) (r := 1) ha one_pos
  have hB : MeasurableSet {x : ℝ | x * beta ≤ t} := measurableSet_le (measurable_id.mul_const _) measurable_const
  have hcdf : ProbabilityTheory.cdf (gammaMeasure alpha (1 / beta)) t = (gammaMeasure alpha 1 {x | x * beta ≤ t}).toReal := by
    rw [gamma_scaled ha hb, ENNReal.toReal_ofReal (cdf_nonneg _ _)]
  rcases lt_trichotomy alpha 1 with h | h | h
  · have hg : ∀ l, generate exactTrig (init exactOps alpha beta) idealNumbers m l = small exactOps (init exactOps alpha beta) idealNumbers m l := by
      intro l
      unfold generate
      rw [if_neg (show ¬ (init exactOps alpha beta).alpha = 1 from h.ne), if_neg (show ¬ 1 < (init exactOps alpha beta).alpha from not_lt.2 h.le)]
      rfl
    simp only [hg]
    rw [if_neg (not_lt.2 h.le), small_chance ha h t m N hN, hcdf]
    obtain ⟨h1, h2⟩ := rateS_le ha h
    have := conditional (μ := gammaMeasure alpha 1) hB MeasurableSet.univ (rateS_pos ha).le rfl (show (0 : ℝ) < 1 / 24 by norm_num)
      (by rw [measure_univ, mul_one]; exact ENNReal.ofReal_le_ofReal (by linarith)) (by rw [measure_univ, mul_one]; exact ENNReal.ofReal_le_one.2 h2) m
    rw [inter_univ, measure_univ, mul_one, compl_univ, measure_empty, ENNReal.toReal_zero] at this
    refine this.trans (le_of_eq ?_)
    norm_num
  · subst h
    rw [if_neg (lt_irrefl _), zero_add]
    rcases N with _ | N
    · obtain rfl : m = 0 := by omega
      rw [chance, if_neg]
      · rw [ENNReal.toReal_zero, zero_sub, abs_neg, abs_of_nonneg (cdf_nonneg _ _), pow_zero]
        exact cdf_le_one _ _
      · rintro ⟨v, s, h, _⟩
        unfold generate at h
        rw [if_pos (show (init exactOps 1 beta).alpha = 1 from rfl)] at h
        cases h
    · have hg : ∀ u l, generate exactTrig (init exactOps 1 beta) idealNumbers m (u :: l) = .done (-Real.log (1 - u) / 1 * beta) l := by
        intro u l
        unfold generate
        rw [if_pos (show (init exactOps 1 beta).alpha = 1 from rfl)]
        rfl
      have hc := cdf_expMeasure_eq (show 0 < 1 / beta by positivity) t
      rw [expMeasure] at hc
      have hle : (if 0 ≤ t then 1 - Real.exp (-(1 / beta * t)) else 0) ≤ 1 := by
        split
        · have := Real.exp_pos (-(1 / beta * t)); linarith
        · exact zero_le_one
      rw [chance_take hg (A := Iic (if 0 ≤ t then 1 - Real.exp (-(1 / beta * t)) else 0)) measurableSet_Iic, unitM_Iic hle, hc, ENNReal.toReal_ofReal]
      · rw [sub_self, abs_zero]; positivity
      · rw [← hc]; exact cdf_nonneg _ _
      · intro u hu
        have hl : Real.log (1 - u) < 0 := Real.log_neg (by linarith [hu.2]) (by linarith [hu.1])
        rw [mem_Iic, div_one]
        split
        · rename_i h0
          rw [le_sub_comm, ← Real.le_log_iff_exp_le (by linarith [hu.2])]
          have : 1 / beta * t = t / beta := by ring
          rw [this, neg_le, le_div_iff₀ hb]
        · rename_i h0
          have := mul_pos (neg_pos.2 hl) hb
          constructor
          · intro h; linarith
          · intro h; linarith [hu.1]
  · have hg : ∀ l, generate exactTrig (init exactOps alpha beta) idealNumbers m l = large exactTrig (init exactOps alpha beta) idealNumbers m l := by
      intro l
      unfold generate
      rw [if_neg (show ¬ (init exactOps alpha beta).alpha = 1 from h.ne'), if_pos (show 1 < (init exactOps alpha beta).alpha from h)]
    simp only [hg]
    rw [if_pos h, large_chance h t m N hN, hcdf]
    have hs : 0 < Real.sqrt (2 * alpha - 1) := Real.sqrt_pos.2 (by linarith)
    have hs2 : Real.sqrt (2 * alpha - 1) ^ 2 = 2 * (alpha - 1) + 1 := by rw [Real.sq_sqrt (by linarith)]; ring
    have ha' : 0 < alpha - 1 := by linarith
    have h1 := rate_reach ha' hs hs2
    have h2 := measure_acc ha' hs hs2 MeasurableSet.univ
    have h3 := gamma_unreached ha' hs hs2
    rw [sub_add_cancel] at h1 h2 h3
    rw [univ_inter] at h2
    have := conditional (μ := gammaMeasure alpha 1) hB (measurableSet_reach (alpha - 1) (Real.sqrt (2 * alpha - 1))) (rate_pos ha' hs).le rfl
      (show (0 : ℝ) < 1 / 24 by norm_num) h1 (by rw [← h2]; exact prob_le_one) m
    refine this.trans ?_
    have e : (1 - 1 / 24 : ℝ) = 23 / 24 := by norm_num
    rw [e]
    linarith

/-- Below one, the law after any number of iterations. -/
theorem law_small {alpha beta : ℝ} (ha : 0 < alpha) (ha1 : alpha < 1) (hb : 0 < beta) (t : ℝ) (m N : Nat) (hN : 2 * m ≤ N) :
    (chance N fun l => Spec.Run.Le (generate exactTrig (init exactOps alpha beta) idealNumbers m l) t).toReal =
      ProbabilityTheory.cdf (gammaMeasure alpha (1 / beta)) t * (1 - (1 - rateS alpha) ^ m) := by
  have hprob := isProbabilityMeasure_gammaMeasure (a := alpha) (r := 1) ha one_pos
  have hcdf : ProbabilityTheory.cdf (gammaMeasure alpha (1 / beta)) t = (gammaMeasure alpha 1 {x | x * beta ≤ t}).toReal := by
    rw [gamma_scaled ha hb, ENNReal.toReal_ofReal (cdf_nonneg _ _)]
  have hg : ∀ l, generate exactTrig (init exactOps alpha beta) idealNumbers m l = small exactOps (init exactOps alpha beta) idealNumbers m l := by
    intro l
    unfold generate
    rw [if_neg (show ¬ (init exactOps alpha beta).alpha = 1 from ha1.ne), if_neg (show ¬ 1 < (init exactOps alpha beta).alpha from not_lt.2 ha1.le)]
    rfl
  simp only [hg]
  rw [small_chance ha ha1 t m N hN, hcdf]
  obtain ⟨h1, h2⟩ := rateS_le ha ha1
  have hr := rateS_pos ha
  obtain ⟨e, -⟩ := geo_toReal (r := ENNReal.ofReal (rateS alpha) * gammaMeasure alpha 1 {x | x * beta ≤ t}) (q := ENNReal.ofReal (rateS alpha))
    (mul_le_of_le_one_right zero_le prob_le_one) (ENNReal.ofReal_le_one.2 h2) m
  rw [ENNReal.toReal_ofReal hr.le, ENNReal.toReal_mul, ENNReal.toReal_ofReal hr.le] at e
  exact mul_right_cancel₀ hr.ne' (by linear_combination e)

end Boost.Random.Gamma
