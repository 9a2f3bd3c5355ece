import Verif.Proofs.Chance
import Mathlib.Analysis.Real.Pi.Bounds
import Mathlib.Analysis.SpecialFunctions.ImproperIntegrals
import Mathlib.Probability.Distributions.Cauchy

/-!
# Laws of the distributions obtained by inversion
-/

namespace Boost.Random
open Spec MeasureTheory Set ProbabilityTheory
open scoped ENNReal

/-- A function of one uniform number. -/
theorem chance_take {n : Nat} {r : List ℝ → Run (List ℝ) ℝ} {f : ℝ → ℝ} (h : ∀ u l, r (u :: l) = .done (f u) l) {t : ℝ} {A : Set ℝ} (hA : MeasurableSet A)
    (hf : ∀ u ∈ Ioo (0 : ℝ) 1, f u ≤ t ↔ u ∈ A) : chance (n + 1) (fun l => Spec.Run.Le (r l) t) = unitM A := by
  refine chance_one hA (unitM_mem.mono fun u hu l => ?_)
  rw [← hf u hu, Spec.Run.Le, h]
  constructor
  · rintro ⟨v, s, hv, hvt⟩; cases hv; exact hvt
  · exact fun hv => ⟨_, _, rfl, hv⟩

/-- The same with a result that may be infinite. -/
theorem chance_takeI {n : Nat} {r : List ℝ → Run (List ℝ) (Ieee ℝ)} {f : ℝ → Ieee ℝ} (h : ∀ u l, r (u :: l) = .done (f u) l) {t : ℝ} {A : Set ℝ}
    (hA : MeasurableSet A) (hf : ∀ u ∈ Ioo (0 : ℝ) 1, IeeeLe (f u) t ↔ u ∈ A) : chance (n + 1) (fun l => Spec.Run.LeI (r l) t) = unitM A := by
  refine chance_one hA (unitM_mem.mono fun u hu l => ?_)
  rw [← hf u hu, Spec.Run.LeI, h]
  constructor
  · rintro ⟨v, s, hv, hvt⟩; cases hv; exact hvt
  · exact fun hv => ⟨_, _, rfl, hv⟩

theorem unitM_Iic' (c : ℝ) : unitM (Iic c) = ENNReal.ofReal (min c 1) := by
  rcases le_total c 1 with h | h
  · rw [unitM_Iic h, min_eq_left h]
  · rw [min_eq_right h, ENNReal.ofReal_one]
    refine (prob_compl_eq_zero_iff measurableSet_Iic).1 ?_
    refine measure_mono_null ?_ (show unitM (Ioo 0 1)ᶜ = 0 from unitM_mem)
    intro x hx hx'
    exact hx (hx'.2.le.trans h)

namespace Cauchy

/-- The literal `3.14159265358979323846`. -/
noncomputable def lit : ℝ := 314159265358979323846 / 10 ^ 20

theorem lit_lt : lit < Real.pi := by
  have := Real.pi_gt_d20
  rw [lit]; norm_num at this ⊢; linarith

theorem lit_gt : Real.pi - 1 / 10 ^ 20 < lit := by
  have := Real.pi_lt_d20
  rw [lit]; norm_num at this ⊢; linarith

theorem three_lt : (3 : ℝ) < lit := by rw [lit]; norm_num

theorem cdf_cauchy (m : ℝ) {σ : NNReal} (hσ : σ ≠ 0) (t : ℝ) :
    ProbabilityTheory.cdf (cauchyMeasure m σ) t = 1 / 2 + Real.arctan ((t - m) / σ) / Real.pi := by
  have hs : (0 : ℝ) < σ := lt_of_le_of_ne σ.2 (fun h => hσ (NNReal.coe_eq_zero.1 h.symm))
  rw [cdf_eq_real, cauchyMeasure_of_scale_ne_zero m hσ, measureReal_def, withDensity_apply _ measurableSet_Iic]
  unfold cauchyPDF
  rw [← integral_eq_lintegral_of_nonneg_ae (ae_of_all _ fun x => (cauchyPDF_pos m hσ x).le) (by fun_prop)]
  have hd : ∀ x ∈ Iic t, HasDerivAt (fun x : ℝ => 1 / 2 + Real.arctan ((x - m) / σ) / Real.pi) (cauchyPDFReal m σ x) x := by
    intro x _
    have h1 : HasDerivAt (fun x : ℝ => (x - m) / σ) (1 / (σ : ℝ)) x := ((hasDerivAt_id x).sub_const m).div_const σ
    convert! (h1.arctan.div_const Real.pi).const_add (1 / 2 : ℝ) using 1
    rw [cauchyPDFReal_def', NNReal.coe_inv]
    field_simp
  have hlim : Filter.Tendsto (fun x : ℝ => 1 / 2 + Real.arctan ((x - m) / σ) / Real.pi) Filter.atBot (nhds 0) := by
    have h1 : Filter.Tendsto (fun x : ℝ => (x - m) / σ) Filter.atBot Filter.atBot :=
      (Filter.tendsto_atBot_add_const_right _ (-m) Filter.tendsto_id).atBot_div_const hs
    have h2 := ((tendsto_nhds_of_tendsto_nhdsWithin Real.tendsto_arctan_atBot).comp h1).div_const Real.pi |>.const_add (1 / 2 : ℝ)
    convert! h2 using 2
    field_simp; ring
  rw [integral_Iic_of_hasDerivAt_of_tendsto' hd (integrable_cauchyPDFReal m).integrableOn hlim, sub_zero]

theorem angle_bounds {u : ℝ} (h0 : 0 ≤ u) (h1 : u < 1) : -(Real.pi / 2) < lit * (u - 1 / 2) ∧ lit * (u - 1 / 2) < Real.pi / 2 := by
  have := three_lt; have := lit_lt
  constructor <;> nlinarith

theorem tan_le_iff {x t : ℝ} (h1 : -(Real.pi / 2) < x) (h2 : x < Real.pi / 2) : Real.tan x ≤ t ↔ x ≤ Real.arctan t := by
  rw [← Real.arctan_le_arctan_iff, Real.arctan_tan h1 h2]

theorem generate_eq (m σ u : ℝ) (l : List ℝ) : generate exactTrig m σ idealNumbers (u :: l) = .done (m + σ * Real.tan (lit * (u - 1 / 2))) l := rfl

theorem law (n : Nat) (m : ℝ) {σ : ℝ} (hσ : 0 < σ) (t : ℝ) :
    |(chance (n + 1) fun l => Spec.Run.Le (generate exactTrig m σ idealNumbers l) t).toReal - (1 / 2 + Real.arctan ((t - m) / σ) / Real.pi)| ≤ 1 / 10 ^ 20 := by
  have hl := three_lt; have hl1 := lit_lt; have hl2 := lit_gt
  rw [chance_take (generate_eq m σ) (measurableSet_Iic (a := 1 / 2 + Real.arctan ((t - m) / σ) / lit)) ?_, unitM_Iic']
  · have ha1 := Real.arctan_lt_pi_div_two ((t - m) / σ)
    have ha2 := Real.neg_pi_div_two_lt_arctan ((t - m) / σ)
    generalize Real.arctan ((t - m) / σ) = A at ha1 ha2
    have hd : |1 / 2 + A / lit - (1 / 2 + A / Real.pi)| ≤ 1 / 10 ^ 20 := by
      have e : 1 / 2 + A / lit - (1 / 2 + A / Real.pi) = A / Real.pi * ((Real.pi - lit) / lit) := by
        have : lit ≠ 0 := by linarith
        field_simp; ring
      rw [e, abs_mul]
      have h1 : |A / Real.pi| ≤ 1 := by
        rw [abs_div, abs_of_pos Real.pi_pos, div_le_one Real.pi_pos, abs_le]
        constructor <;> linarith [Real.pi_pos]
      have h2 : |(Real.pi - lit) / lit| ≤ 1 / 10 ^ 20 := by
        rw [abs_of_nonneg (div_nonneg (by linarith) (by linarith)), div_le_iff₀ (by linarith)]
        linarith
      calc |A / Real.pi| * |(Real.pi - lit) / lit| ≤ 1 * (1 / 10 ^ 20) := mul_le_mul h1 h2 (abs_nonneg _) zero_le_one
        _ = _ := one_mul _
    have hF0 : 0 < 1 / 2 + A / Real.pi := by
      have : -(1 / 2) < A / Real.pi := by rw [lt_div_iff₀ Real.pi_pos]; linarith
      linarith
    have hF1 : 1 / 2 + A / Real.pi < 1 := by
      have : A / Real.pi < 1 / 2 := by rw [div_lt_iff₀ Real.pi_pos]; linarith
      linarith
    rw [ENNReal.toReal_ofReal']
    generalize 1 / 2 + A / Real.pi = F at *
    generalize 1 / 2 + A / lit = c at *
    rw [abs_le] at hd ⊢
    rcases le_total c 1 with h | h
    · rw [min_eq_left h]
      rcases le_total c 0 with h' | h'
      · rw [max_eq_right h']; constructor <;> linarith
      · rw [max_eq_left h']; exact hd
    · rw [min_eq_right h, max_eq_left zero_le_one]; constructor <;> linarith
  · intro u hu
    obtain ⟨b1, b2⟩ := angle_bounds hu.1.le hu.2
    rw [mem_Iic, ← sub_le_iff_le_add', le_div_iff₀ (by linarith), mul_comm _ lit, ← tan_le_iff b1 b2, le_div_iff₀ hσ]
    constructor <;> intro h <;> linarith

end Cauchy

namespace Weibull

theorem law (n : Nat) {a b : ℝ} (ha : 0 < a) (hb : 0 < b) (t : ℝ) :
    chance (n + 1) (fun l => Spec.Run.Le (generate exactOps a b idealNumbers l) t) = ENNReal.ofReal (weibullCdf a b t) := by
  have hg : ∀ u l, generate exactOps a b idealNumbers (u :: l) = .done (b * (-Real.log (1 - u)) ^ (1 / a)) l := fun u l => rfl
  rw [weibullCdf]
  have hpos : ∀ u ∈ Ioo (0 : ℝ) 1, 0 < -Real.log (1 - u) := fun u hu =>
    neg_pos.2 (Real.log_neg (by linarith [hu.2]) (by linarith [hu.1]))
  split
  · rename_i ht
    rw [chance_take hg MeasurableSet.empty, measure_empty, ENNReal.ofReal_zero]
    intro u hu
    simp only [mem_empty_iff_false, iff_false, not_le]
    exact ht.trans_lt (mul_pos hb (Real.rpow_pos_of_pos (hpos u hu) _))
  · rename_i ht
    have ht := not_le.1 ht
    rw [chance_take hg (measurableSet_Iic (a := 1 - Real.exp (-(t / b) ^ a))), unitM_Iic (by linarith [Real.exp_pos (-(t / b) ^ a)])]
    intro u hu
    have h1 : 0 < 1 - u := by linarith [hu.2]
    rw [← le_div_iff₀' hb, one_div, Real.rpow_inv_le_iff_of_pos (hpos u hu).le (by positivity) ha, mem_Iic, le_sub_comm,
      ← Real.le_log_iff_exp_le h1, neg_le]

end Weibull

namespace ExtremeValue

/-- The value, for a positive uniform number. -/
noncomputable def value (a b u : ℝ) : ℝ := a - Real.log (-Real.log u) * b

theorem generate_pos (a b : ℝ) {u : ℝ} (hu : u ∈ Ioo (0 : ℝ) 1) (l : List ℝ) :
    generate exactOps a b idealNumbers (u :: l) = .done (.fin (value a b u)) l := by
  have h1 := Real.log_neg hu.1 hu.2
  have e : Ieee.log exactOps (.fin u) = .fin (Real.log u) := by
    unfold Ieee.log
    simp only [if_neg (not_lt.2 hu.1.le), if_neg hu.1.ne']; rfl
  have e2 : Ieee.log exactOps (.fin (-Real.log u)) = .fin (Real.log (-Real.log u)) := by
    unfold Ieee.log
    have : ¬ -Real.log u < 0 := by linarith
    have h3 : ¬ -Real.log u = 0 := by linarith
    simp only [if_neg this, if_neg h3]; rfl
  change Run.done (Ieee.sub exactOps (.fin a) (Ieee.mul exactOps (Ieee.log exactOps (Ieee.neg (Ieee.log exactOps (.fin u)))) (.fin b))) l = _
  rw [e]
  change Run.done (Ieee.sub exactOps (.fin a) (Ieee.mul exactOps (Ieee.log exactOps (.fin (-Real.log u))) (.fin b))) l = _
  rw [e2]
  rfl

theorem law (n : Nat) (a : ℝ) {b : ℝ} (hb : 0 < b) (t : ℝ) :
    chance (n + 1) (fun l => Spec.Run.LeI (generate exactOps a b idealNumbers l) t) = ENNReal.ofReal (gumbelCdf a b t) := by
  have hle : gumbelCdf a b t ≤ 1 := Real.exp_le_one_iff.2 (neg_nonpos.2 (Real.exp_pos _).le)
  rw [← unitM_Iic hle]
  refine chance_one measurableSet_Iic (unitM_mem.mono fun u hu l => ?_)
  have h1 := Real.log_neg hu.1 hu.2
  have key : value a b u ≤ t ↔ u ∈ Iic (gumbelCdf a b t) := by
    rw [mem_Iic, gumbelCdf, ← Real.log_le_iff_le_exp hu.1, le_neg, ← Real.le_log_iff_exp_le (by linarith), div_le_iff₀ hb, value]
    constructor <;> intro h <;> linarith
  rw [← key, Spec.Run.LeI, generate_pos a b hu]
  constructor
  · rintro ⟨v, s, hv, hvt⟩; cases hv; exact hvt
  · exact fun hv => ⟨_, _, rfl, hv⟩

end ExtremeValue

namespace Triangle

theorem init_q1 (b : ℝ) {a c : ℝ} (hac : a < c) : (init exactOps a b c).q1 = .fin ((b - a) / (c - a)) := by
  change Ieee.div exactOps (.fin (b - a)) (.fin (c - a)) = _
  unfold Ieee.div
  simp only [if_neg (show ¬ c - a = 0 by linarith)]
  rfl

theorem value_low {a b c u : ℝ} (hab : a ≤ b) (hac : a < c) (hu : 0 ≤ u) (h : u ≤ (b - a) / (c - a)) :
    value exactOps (init exactOps a b c) u = .fin (a + Real.sqrt ((b - a) * (c - a) * u)) := by
  unfold value
  rw [init_q1 b hac]
  have : Ieee.le (.fin u) (.fin ((b - a) / (c - a))) = true := decide_eq_true h
  rw [if_pos this]
  have e : Ieee.sqrt exactOps (.fin u) = .fin (Real.sqrt u) := by
    unfold Ieee.sqrt; simp only [if_neg (not_lt.2 hu)]; rfl
  rw [e, Real.sqrt_mul (mul_nonneg (by linarith) (by linarith))]
  rfl

theorem value_high {a b c u : ℝ} (hbc : b ≤ c) (hac : a < c) (h : (b - a) / (c - a) < u) :
    value exactOps (init exactOps a b c) u = .fin (c - Real.sqrt ((c - b) * ((c - a) * u - (b - a)))) := by
  unfold value
  rw [init_q1 b hac]
  have : ¬ Ieee.le (.fin u) (.fin ((b - a) / (c - a))) = true := by
    change ¬ decide (u ≤ (b - a) / (c - a)) = true
    rw [decide_eq_true_eq]; exact not_le.2 h
  rw [if_neg this]
  have hp : 0 < (c - a) * u - (b - a) := by
    rw [div_lt_iff₀ (by linarith)] at h; linarith
  have e : Ieee.sqrt exactOps (.fin ((c - a) * u - (b - a))) = .fin (Real.sqrt ((c - a) * u - (b - a))) := by
    unfold Ieee.sqrt; simp only [if_neg (not_lt.2 hp.le)]; rfl
  change Ieee.sub exactOps (.fin c) (Ieee.mul exactOps (.fin (Real.sqrt (c - b))) (Ieee.sqrt exactOps (.fin ((c - a) * u - (b - a))))) = _
  rw [e, Real.sqrt_mul (by linarith)]
  rfl

/-- The second half never falls below the mode. -/
theorem high_ge {a b c u : ℝ} (hbc : b ≤ c) (hac : a < c) (hu : u < 1) : b ≤ c - Real.sqrt ((c - b) * ((c - a) * u - (b - a))) := by
  have : Real.sqrt ((c - b) * ((c - a) * u - (b - a))) ≤ c - b := by
    rw [show c - b = Real.sqrt ((c - b) ^ 2) from (Real.sqrt_sq (by linarith)).symm]
    refine Real.sqrt_le_sqrt ?_
    rw [Real.sqrt_sq (by linarith)]
    have : (c - a) * u ≤ c - a := by nlinarith
    nlinarith
  linarith

/-- The first half never exceeds the mode. -/
theorem low_le {a b c u : ℝ} (hab : a ≤ b) (hac : a < c) (h : u ≤ (b - a) / (c - a)) : a + Real.sqrt ((b - a) * (c - a) * u) ≤ b := by
  have : Real.sqrt ((b - a) * (c - a) * u) ≤ b - a := by
    rw [show b - a = Real.sqrt ((b - a) ^ 2) from (Real.sqrt_sq (by linarith)).symm]
    refine Real.sqrt_le_sqrt ?_
    rw [Real.sqrt_sq (by linarith)]
    rw [le_div_iff₀ (by linarith)] at h
    nlinarith
  linarith

theorem law (n : Nat) {a b c : ℝ} (hab : a ≤ b) (hbc : b ≤ c) (hac : a < c) (t : ℝ) :
    chance (n + 1) (fun l => Spec.Run.LeI (generate exactOps (init exactOps a b c) idealNumbers l) t) = ENNReal.ofReal (triangleCdf a b c t) := by
  have hg : ∀ u l, generate exactOps (init exactOps a b c) idealNumbers (u :: l) = .done (value exactOps (init exactOps a b c) u) l := fun u l => rfl
  have hc : 0 < c - a := by linarith
  have hv : ∀ u ∈ Ioo (0 : ℝ) 1, IeeeLe (value exactOps (init exactOps a b c) u) t ↔
      (u ≤ (b - a) / (c - a) ∧ a + Real.sqrt ((b - a) * (c - a) * u) ≤ t) ∨
      ((b - a) / (c - a) < u ∧ c - Real.sqrt ((c - b) * ((c - a) * u - (b - a))) ≤ t) := by
    intro u hu
    rcases le_or_gt u ((b - a) / (c - a)) with h | h
    · rw [value_low hab hac hu.1.le h]
      simp only [h, true_and, not_lt.2 h, false_and, or_false]; rfl
    · rw [value_high hbc hac h]
      simp only [h, true_and, not_le.2 h, false_and, false_or]; rfl
  rw [triangleCdf]
  split_ifs with h1 h2 h3
  · rw [chance_takeI hg MeasurableSet.empty, measure_empty, ENNReal.ofReal_zero]
    intro u hu
    rw [hv u hu]
    simp only [mem_empty_iff_false, iff_false]
    rintro (⟨_, h⟩ | ⟨_, h⟩)
    · linarith [Real.sqrt_nonneg ((b - a) * (c - a) * u)]
    · linarith [high_ge (a := a) hbc hac hu.2]
  · have hb : 0 < b - a := by linarith
    have hq : (t - a) ^ 2 / ((c - a) * (b - a)) ≤ (b - a) / (c - a) := by
      rw [div_le_div_iff₀ (by positivity) hc]
      have : (t - a) ^ 2 ≤ (b - a) ^ 2 := by nlinarith
      nlinarith
    have hq1 : (b - a) / (c - a) ≤ 1 := by rw [div_le_one hc]; linarith
    rw [chance_takeI hg (measurableSet_Iic (a := (t - a) ^ 2 / ((c - a) * (b - a)))), unitM_Iic (hq.trans hq1)]
    intro u hu
    have hcb : 0 < (c - a) * (b - a) := mul_pos hc hb
    rw [hv u hu, mem_Iic]
    have e : a + Real.sqrt ((b - a) * (c - a) * u) ≤ t ↔ u ≤ (t - a) ^ 2 / ((c - a) * (b - a)) := by
      rw [le_div_iff₀ hcb, ← le_sub_iff_add_le', Real.sqrt_le_left (by linarith), show (b - a) * (c - a) * u = u * ((c - a) * (b - a)) by ring]
    constructor
    · rintro (⟨_, h⟩ | ⟨_, h⟩)
      · exact e.1 h
      · exact absurd h (not_le.2 (h2.trans_le (high_ge hbc hac hu.2)))
    · intro h
      refine .inl ⟨?_, e.2 h⟩
      exact h.trans hq
  · have hb : 0 < c - b := by linarith
    have hr : (b - a) / (c - a) < ((b - a) + (c - t) ^ 2 / (c - b)) / (c - a) := by
      have : 0 < (c - t) ^ 2 / (c - b) := div_pos (by nlinarith) hb
      exact div_lt_div_of_pos_right (by linarith) hc
    have hq0 : 0 ≤ (b - a) / (c - a) := div_nonneg (by linarith) hc.le
    have hr1 : ((b - a) + (c - t) ^ 2 / (c - b)) / (c - a) ≤ 1 := by
      rw [div_le_one hc]
      have : (c - t) ^ 2 / (c - b) ≤ c - b := by rw [div_le_iff₀ hb]; nlinarith
      linarith
    have hq1 : (b - a) / (c - a) ≤ 1 := hr.le.trans hr1
    rw [chance_takeI hg ((measurableSet_Iic (a := (b - a) / (c - a))).union (measurableSet_Ici (a := ((b - a) + (c - t) ^ 2 / (c - b)) / (c - a)))),
      measure_union _ measurableSet_Ici, unitM_Iic hq1, unitM_Ici (hq0.trans hr.le), ← ENNReal.ofReal_add hq0 (by linarith)]
    · congr 1
      field_simp; ring
    · rw [Set.disjoint_left]
      intro x hx hx'
      exact absurd (hr.trans_le hx') (not_lt.2 hx)
    · intro u hu
      rw [hv u hu, mem_union, mem_Iic, mem_Ici]
      have e : c - Real.sqrt ((c - b) * ((c - a) * u - (b - a))) ≤ t ↔ ((b - a) + (c - t) ^ 2 / (c - b)) / (c - a) ≤ u := by
        rw [sub_le_comm, Real.le_sqrt' (by linarith), div_le_iff₀ hc, ← le_sub_iff_add_le', div_le_iff₀ hb, mul_comm (c - b), mul_comm (c - a) u]
      constructor
      · rintro (⟨h, _⟩ | ⟨_, h⟩)
        · exact .inl h
        · exact .inr (e.1 h)
      · rintro (h | h)
        · exact .inl ⟨h, (low_le hab hac h).trans (not_lt.1 h2)⟩
        · exact .inr ⟨hr.trans_le h, e.2 h⟩
  · rw [chance_takeI hg MeasurableSet.univ, measure_univ, ENNReal.ofReal_one]
    intro u hu
    rw [hv u hu]
    simp only [mem_univ, iff_true]
    rcases le_or_gt u ((b - a) / (c - a)) with h | h
    · exact .inl ⟨h, (low_le hab hac h).trans (not_lt.1 h2)⟩
    · exact .inr ⟨h, by linarith [Real.sqrt_nonneg ((c - b) * ((c - a) * u - (b - a)))]⟩

end Triangle

namespace Laplace

theorem generate_eq (m b u w : ℝ) (l : List ℝ) :
    generate exactOps m b idealNumbers (u :: w :: l) = .done (m + b * (if w < 1 / 2 then -(-Real.log (1 - u) / 1) else -Real.log (1 - u) / 1)) l := rfl

theorem law (n : Nat) (m : ℝ) {b : ℝ} (hb : 0 < b) (t : ℝ) :
    chance (n + 2) (fun l => Spec.Run.Le (generate exactOps m b idealNumbers l) t) = ENNReal.ofReal (laplaceCdf m b t) := by
  have hexp : ∀ c : ℝ, ∀ u ∈ Ioo (0 : ℝ) 1, c ≤ -Real.log (1 - u) ↔ 1 - Real.exp (-c) ≤ u := by
    intro c u hu
    rw [le_neg, Real.log_le_iff_le_exp (by linarith [hu.2])]
    constructor <;> intro h <;> linarith
  have hexp' : ∀ c : ℝ, ∀ u ∈ Ioo (0 : ℝ) 1, -Real.log (1 - u) ≤ c ↔ u ≤ 1 - Real.exp (-c) := by
    intro c u hu
    rw [neg_le, Real.le_log_iff_exp_le (by linarith [hu.2])]
    constructor <;> intro h <;> linarith
  have e1 : ((t - m) / b) = -((m - t) / b) := by ring
  have hA : MeasurableSet (Ici (1 - Real.exp ((t - m) / b)) ×ˢ Iio (1 / 2 : ℝ) ∪ Iic (1 - Real.exp (-((t - m) / b))) ×ˢ Ici (1 / 2 : ℝ)) :=
    (measurableSet_Ici.prod measurableSet_Iio).union (measurableSet_Iic.prod measurableSet_Ici)
  rw [chance_two hA, measure_union _ (measurableSet_Iic.prod measurableSet_Ici), Measure.prod_prod, Measure.prod_prod,
    unitM_Iio (by norm_num), unitM_Ici (c := (1 : ℝ) / 2) (by norm_num), unitM_Iic (by linarith [Real.exp_pos (-((t - m) / b))]), laplaceCdf]
  · split
    · rename_i h
      have hneg : (t - m) / b < 0 := div_neg_of_neg_of_pos (by linarith) hb
      have h1 : Real.exp ((t - m) / b) ≤ 1 := Real.exp_le_one_iff.2 hneg.le
      have h2 : 1 - Real.exp (-((t - m) / b)) ≤ 0 := by
        have := Real.one_le_exp (show 0 ≤ -((t - m) / b) by linarith)
        linarith
      rw [unitM_Ici (by linarith), ENNReal.ofReal_of_nonpos h2, zero_mul, add_zero, ← ENNReal.ofReal_mul (by linarith [Real.exp_pos ((t - m) / b)])]
      congr 1; ring
    · rename_i h
      have hpos : 0 ≤ (t - m) / b := div_nonneg (by linarith) hb.le
      have h1 : 1 - Real.exp ((t - m) / b) ≤ 0 := by linarith [Real.one_le_exp hpos]
      have h2 : Real.exp (-((t - m) / b)) ≤ 1 := Real.exp_le_one_iff.2 (by linarith)
      have h3 : unitM (Ici (1 - Real.exp ((t - m) / b))) = 1 := by
        refine (prob_compl_eq_zero_iff measurableSet_Ici).1 ?_
        refine measure_mono_null ?_ (show unitM (Ioo 0 1)ᶜ = 0 from unitM_mem)
        intro x hx hx'
        exact hx (h1.trans hx'.1.le)
      rw [h3, ← ENNReal.ofReal_one, ← ENNReal.ofReal_mul zero_le_one, ← ENNReal.ofReal_mul (by linarith), ← ENNReal.ofReal_add (by norm_num) (by nlinarith)]
      congr 1
      rw [show (m - t) / b = -((t - m) / b) by ring]; ring
  · rw [Set.disjoint_left]
    rintro ⟨x, y⟩ h h'
    exact absurd (show y < 1 / 2 from h.2) (not_lt.2 h'.2)
  · refine unitM_mem.mono fun u hu => ae_of_all _ fun w l => ?_
    have : Spec.Run.Le (generate exactOps m b idealNumbers (u :: w :: l)) t ↔
        m + b * (if w < 1 / 2 then -(-Real.log (1 - u) / 1) else -Real.log (1 - u) / 1) ≤ t := by
      rw [generate_eq, Spec.Run.Le]
      constructor
      · rintro ⟨v, s, hv, hvt⟩; cases hv; exact hvt
      · exact fun hv => ⟨_, _, rfl, hv⟩
    rw [this]
    simp only [mem_union, mem_prod, mem_Ici, mem_Iio, mem_Iic]
    by_cases hw : w < 1 / 2
    · have h1 := hexp (-((t - m) / b)) u hu
      rw [neg_neg] at h1
      simp only [hw, if_true, and_true, not_le.2 hw, and_false, or_false]
      rw [← h1, neg_le, le_div_iff₀ hb, div_one]
      constructor <;> intro h <;> linarith
    · have h1 := hexp' ((t - m) / b) u hu
      simp only [hw, if_false, and_false, not_lt.1 hw, and_true, false_or]
      rw [← h1, le_div_iff₀ hb, div_one]
      constructor <;> intro h <;> linarith

end Laplace

namespace Lognormal

/-- A function of one normal number. -/
theorem chance_norm {n : Nat} {r : List ℝ → Run (List ℝ) ℝ} {f : ℝ → ℝ} (hf : Measurable f)
    (h : ∀ u l, r (u :: l) = .done (f (quantile (gaussianReal 0 1) u)) l) (t : ℝ) :
    chance (n + 1) (fun l => Spec.Run.Le (r l) t) = ((gaussianReal 0 1).map f) (Iic t) := by
  rw [chance_take h (A := quantile (gaussianReal 0 1) ⁻¹' (f ⁻¹' Iic t)) (measurable_quantile _ (hf measurableSet_Iic)) (fun u _ => Iff.rfl),
    ← Measure.map_apply (measurable_quantile _) (hf measurableSet_Iic), map_quantile, Measure.map_apply hf measurableSet_Iic]

theorem affine (m s : ℝ) : (gaussianReal 0 1).map (fun x => x * s + m) = gaussianReal m (.mk (s ^ 2) (sq_nonneg s)) := by
  have h1 := gaussianReal_map_mul_const (μ := 0) (v := 1) s
  rw [mul_zero, mul_one] at h1
  have h2 := gaussianReal_map_add_const (μ := 0) (v := (.mk (s ^ 2) (sq_nonneg s))) m
  rw [zero_add, ← h1, Measure.map_map (by fun_prop) (by fun_prop)] at h2
  rw [← h2]
  rfl

theorem law (n : Nat) (m s t : ℝ) :
    chance (n + 1) (fun l => Spec.Run.Le (generate exactOps m s idealNumbers l) t) = ((gaussianReal m (.mk (s ^ 2) (sq_nonneg s))).map Real.exp) (Iic t) := by
  rw [chance_norm (f := fun x => Real.exp (x * s + m)) (by fun_prop) (fun u l => rfl), ← affine, Measure.map_map (by fun_prop) (by fun_prop)]
  rfl

theorem law_old (n : Nat) (mean sigma t : ℝ) :
    chance (n + 1) (fun l => Spec.Run.Le (LognormalOld.generate exactOps mean sigma idealNumbers l) t) =
      ((gaussianReal (LognormalOld.nmean exactOps mean sigma) (.mk (LognormalOld.nsigma exactOps mean sigma ^ 2) (sq_nonneg _))).map Real.exp) (Iic t) := by
  have h : ∀ u l, LognormalOld.generate exactOps mean sigma idealNumbers (u :: l) =
      .done (Real.exp ((quantile (gaussianReal 0 1) u * 1 + 0) * LognormalOld.nsigma exactOps mean sigma + LognormalOld.nmean exactOps mean sigma)) l := fun u l => rfl
  rw [chance_norm (f := fun x => Real.exp ((x * 1 + 0) * LognormalOld.nsigma exactOps mean sigma + LognormalOld.nmean exactOps mean sigma)) (by fun_prop) h,
    ← affine, Measure.map_map (by fun_prop) (by fun_prop)]
  simp only [mul_one, add_zero]
  rfl

theorem moment (m : ℝ) (v : NNReal) (k : ℝ) : ∫ x, x ^ k ∂((gaussianReal m v).map Real.exp) = Real.exp (m * k + v * k ^ 2 / 2) := by
  rw [integral_map Real.measurable_exp.aemeasurable (by fun_prop)]
  have h := congrFun (mgf_fun_id_gaussianReal (μ := m) (v := v)) k
  simp only [mgf] at h
  rw [← h]
  simp only [← Real.exp_mul, mul_comm k]

theorem params {mean sigma : ℝ} (hm : mean ≠ 0) :
    Real.exp (LognormalOld.nmean exactOps mean sigma) = mean ^ 2 / Real.sqrt (sigma ^ 2 + mean ^ 2) ∧
      Real.exp (LognormalOld.nsigma exactOps mean sigma ^ 2) = (sigma ^ 2 + mean ^ 2) / mean ^ 2 := by
  have hm2 : 0 < mean ^ 2 := by positivity
  have hmm : 0 < mean * mean := mul_self_pos.2 hm
  have e1 : LognormalOld.nmean exactOps mean sigma = Real.log (mean * mean / Real.sqrt (sigma * sigma + mean * mean)) := rfl
  have e2 : LognormalOld.nsigma exactOps mean sigma = Real.sqrt (Real.log (sigma * sigma / mean / mean + 1)) := rfl
  have hs : 0 ≤ sigma * sigma / mean / mean := by
    rw [div_div, ← pow_two, ← pow_two]; positivity
  rw [e1, e2, Real.sq_sqrt (Real.log_nonneg (by linarith)), Real.exp_log (div_pos hmm (Real.sqrt_pos.2 (by linarith [mul_self_nonneg sigma]))), Real.exp_log (by linarith)]
  refine ⟨by simp only [pow_two], ?_⟩
  field_simp

end Lognormal

end Boost.Random
