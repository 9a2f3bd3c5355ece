import Verif.Proofs.Ratio

/-!
# The laws of the distributions made of gamma numbers
-/

namespace Boost.Random
open Spec MeasureTheory Set ProbabilityTheory Gamma
open scoped ENNReal

/-! ## `chi_squared_distribution` -/

theorem ChiSquared.law (k : Nat) {n : ℝ} (hn : 0 < n) (t : ℝ) :
    chance (k + 1) (fun l => Spec.Run.Le (ChiSquared.generate exactOps n idealCompound l) t) = gammaMeasure (n / 2) (1 / 2) (Iic t) := by
  have hp := isProbabilityMeasure_gammaMeasure (a := n / 2) (r := 1) (by linarith) one_pos
  have hg : ∀ u l, ChiSquared.generate exactOps n idealCompound (u :: l) = .done (2 * quantile (gammaMeasure (n / 2) 1) u) l := by
    intro u l
    change Run.done (2 * quantile (gammaMeasure (n / 2) (1 / 1)) u) l = _
    rw [div_one]
  rw [chance_take hg (A := quantile (gammaMeasure (n / 2) 1) ⁻¹' {x | 2 * x ≤ t}) ?_ (fun u _ => Iff.rfl),
    ← Measure.map_apply (measurable_quantile _) ?_, map_quantile, ← map_gamma (n / 2) one_pos two_pos, Measure.map_apply (by fun_prop) measurableSet_Iic]
  · rfl
  · exact measurableSet_le (measurable_id.const_mul _) measurable_const
  · exact measurable_quantile _ (measurableSet_le (measurable_id.const_mul _) measurable_const)

theorem ChiSquared.generate_eq {n : ℝ} (u : ℝ) (l : List ℝ) : ChiSquared.generate exactOps n idealCompound (u :: l) = .done (2 * quantile (gammaMeasure (n / 2) 1) u) l := by
  change Run.done (2 * quantile (gammaMeasure (n / 2) (1 / 1)) u) l = _
  rw [div_one]

theorem Run.bind_done {σ α β : Type} (v : α) (s : σ) (f : α → σ → Run σ β) : (Run.done v s).bind f = f v s := by rw [Run.bind]

theorem efl (x : ℝ) : exactOps.fl x = x := by simp [exactOps]

theorem ChiSquared.n_exact (n : ℝ) : ChiSquared.n exactOps n = n := by
  change 2 * (n / 2) = n
  ring

/-! ## `beta_distribution` -/

theorem div_fin {x y : ℝ} (hy : y ≠ 0) : Ieee.div exactOps (.fin x) (.fin y) = .fin (x / y) := by
  unfold Ieee.div
  simp only [if_neg hy]
  rfl

theorem leI_done {σ : Type} {v t : ℝ} {s : σ} : Spec.Run.LeI (.done (.fin v) s) t ↔ v ≤ t := by
  constructor
  · rintro ⟨_, _, h, h'⟩
    cases h
    exact h'
  · exact fun h => ⟨_, _, rfl, h⟩

theorem le_done {σ : Type} {v t : ℝ} {s : σ} : Spec.Run.Le (.done v s) t ↔ v ≤ t := by
  constructor
  · rintro ⟨_, _, h, h'⟩
    cases h
    exact h'
  · exact fun h => ⟨_, _, rfl, h⟩

theorem image_quot {B : Set ℝ} : (fun z : ℝ => z / (1 + z)) '' {z | 0 < z ∧ z / (1 + z) ∈ B} = Ioo 0 1 ∩ B := by
  ext w
  simp only [mem_image, Set.mem_ofPred_eq, mem_inter_iff, mem_Ioo]
  constructor
  · rintro ⟨z, ⟨h0, hB⟩, rfl⟩
    exact ⟨⟨by positivity, (div_lt_one (by linarith)).2 (by linarith)⟩, hB⟩
  · rintro ⟨⟨h0, h1⟩, hB⟩
    have h2 : 0 < 1 - w := by linarith
    have e : w / (1 - w) / (1 + w / (1 - w)) = w := by
      have : (1 : ℝ) + w / (1 - w) = 1 / (1 - w) := by field_simp; ring
      rw [this]; field_simp
    exact ⟨w / (1 - w), ⟨by positivity, by rwa [e]⟩, e⟩

theorem beta_density {a b z : ℝ} (hz : 0 < z) : 1 / (1 + z) ^ 2 * betaPDFReal a b (z / (1 + z)) = quotPDF a b z := by
  have h1 : 0 < 1 + z := by linarith
  have e : 1 - z / (1 + z) = 1 / (1 + z) := by field_simp; ring
  rw [betaPDFReal, if_pos ⟨by positivity, (div_lt_one h1).2 (by linarith)⟩, quotPDF, if_pos hz, e, Real.div_rpow hz.le h1.le, Real.div_rpow zero_le_one h1.le,
    Real.one_rpow, Real.rpow_neg h1.le]
  have e2 : (1 + z) ^ (a + b) = (1 + z) ^ 2 * ((1 + z) ^ (a - 1) * (1 + z) ^ (b - 1)) := by
    rw [← Real.rpow_natCast, ← Real.rpow_add h1, ← Real.rpow_add h1]; congr 1; push_cast; ring
  rw [e2]
  have := (Real.rpow_pos_of_pos h1 (a - 1)).ne'
  have := (Real.rpow_pos_of_pos h1 (b - 1)).ne'
  field_simp

theorem beta_quotient (a b : ℝ) {B : Set ℝ} (hB : MeasurableSet B) : betaMeasure a b B = ∫⁻ z in {z | z / (1 + z) ∈ B}, ENNReal.ofReal (quotPDF a b z) := by
  have mq : Measurable fun z : ℝ => z / (1 + z) := measurable_id.div (measurable_id.const_add 1)
  have mB : MeasurableSet {z : ℝ | z / (1 + z) ∈ B} := mq hB
  have e1 : betaMeasure a b B = ∫⁻ x in Ioo 0 1 ∩ B, betaPDF a b x := by
    rw [betaMeasure, withDensity_apply _ hB, ← lintegral_inter_add_sdiff _ B (measurableSet_Ioo (a := (0 : ℝ)) (b := 1)), inter_comm]
    have : ∫⁻ x in B \ Ioo 0 1, betaPDF a b x = 0 := by
      refine (setLIntegral_congr_fun (hB.diff measurableSet_Ioo) (g := fun _ => 0) fun x hx => ?_).trans lintegral_zero
      rw [betaPDF, betaPDFReal, if_neg (show ¬ (0 < x ∧ x < 1) from hx.2), ENNReal.ofReal_zero]
    rw [this, add_zero]
  have e2 : ∫⁻ z in {z | z / (1 + z) ∈ B}, ENNReal.ofReal (quotPDF a b z) = ∫⁻ z in {z | 0 < z ∧ z / (1 + z) ∈ B}, ENNReal.ofReal (quotPDF a b z) := by
    rw [← lintegral_inter_add_sdiff _ {z : ℝ | z / (1 + z) ∈ B} (measurableSet_Ioi (a := (0 : ℝ)))]
    have : ∫⁻ z in {z | z / (1 + z) ∈ B} \ Ioi 0, ENNReal.ofReal (quotPDF a b z) = 0 := by
      refine (setLIntegral_congr_fun (mB.diff measurableSet_Ioi) (g := fun _ => 0) fun x hx => ?_).trans lintegral_zero
      simp only [quotPDF]
      rw [if_neg (show ¬ 0 < x from hx.2), ENNReal.ofReal_zero]
    rw [this, add_zero, inter_comm]
    rfl
  rw [e1, e2, ← image_quot, lintegral_image_eq_lintegral_abs_deriv_mul (f' := fun z => 1 / (1 + z) ^ 2)]
  · refine setLIntegral_congr_fun (measurableSet_Ioi.inter mB) fun z hz => ?_
    have hz0 : 0 < z := hz.1
    rw [abs_of_nonneg (by positivity), betaPDF, ← ENNReal.ofReal_mul (by positivity), beta_density hz.1]
  · exact measurableSet_Ioi.inter mB
  · intro z hz
    have hz0 : 0 < z := hz.1
    have h1 : (1 : ℝ) + z ≠ 0 := by positivity
    have := (hasDerivAt_id z).div ((hasDerivAt_id z).const_add 1) h1
    refine HasDerivAt.hasDerivWithinAt ?_
    convert! this using 1
    simp
  · intro x hx y hy h
    have h1 : 0 < x := hx.1
    have h2 : 0 < y := hy.1
    have h : x / (1 + x) = y / (1 + y) := h
    rw [div_eq_div_iff (by positivity) (by positivity)] at h
    linarith

theorem Beta.law (k : Nat) {a b : ℝ} (ha : 0 < a) (hb : 0 < b) (t : ℝ) :
    chance (k + 2) (fun l => Spec.Run.LeI (Beta.generate exactOps a b idealCompound l) t) = betaMeasure a b (Iic t) := by
  have hpa := isProbabilityMeasure_gammaMeasure (a := a) (r := 1) ha one_pos
  have hpb := isProbabilityMeasure_gammaMeasure (a := b) (r := 1) hb one_pos
  have mq : Measurable fun z : ℝ => z / (1 + z) := measurable_id.div (measurable_id.const_add 1)
  have mB : MeasurableSet {z : ℝ | z / (1 + z) ∈ Iic t} := mq measurableSet_Iic
  rw [beta_quotient a b measurableSet_Iic, ← quotient ha hb mB]
  refine chance_pair (P := fun r => Spec.Run.LeI r t) ((measurable_fst.div measurable_snd) mB) fun u hu v hv l => ?_
  have hx := quantile_pos ha one_pos hu
  have hy := quantile_pos hb one_pos hv
  have hg : Beta.generate exactOps a b idealCompound (u :: v :: l) =
      .done (Ieee.div exactOps (.fin (quantile (gammaMeasure a 1) u)) (.fin (quantile (gammaMeasure a 1) u + quantile (gammaMeasure b 1) v))) l := by
    change Run.done (Ieee.div exactOps (.fin (quantile (gammaMeasure a (1 / 1)) u)) (.fin (quantile (gammaMeasure a (1 / 1)) u + quantile (gammaMeasure b (1 / 1)) v))) l = _
    rw [div_one]
  rw [hg, div_fin (by positivity), leI_done]
  simp only [Set.mem_ofPred_eq, mem_Iic]
  have e : quantile (gammaMeasure a 1) u / quantile (gammaMeasure b 1) v / (1 + quantile (gammaMeasure a 1) u / quantile (gammaMeasure b 1) v) =
      quantile (gammaMeasure a 1) u / (quantile (gammaMeasure a 1) u + quantile (gammaMeasure b 1) v) := by
    field_simp
    rw [add_comm]
  rw [e]

/-! ## `fisher_f_distribution` -/

theorem fisher_quotient {m n : ℝ} (hm : 0 < m) (hn : 0 < n) (t : ℝ) :
    fisherMeasure m n (Iic t) = ∫⁻ z in Iic (m / n * t), ENNReal.ofReal (quotPDF (m / 2) (n / 2) z) := by
  have hc : 0 < m / n := by positivity
  rw [fisherMeasure, withDensity_apply _ measurableSet_Iic]
  have e : Iic (m / n * t) = (fun x => m / n * x) '' Iic t := by
    ext y
    simp only [mem_Iic, mem_image]
    constructor
    · intro h
      refine ⟨y / (m / n), ?_, mul_div_cancel₀ _ hc.ne'⟩
      rw [div_le_iff₀ hc]
      linarith
    · rintro ⟨x, hx, rfl⟩
      exact mul_le_mul_of_nonneg_left hx hc.le
  rw [e, lintegral_image_eq_lintegral_abs_deriv_mul measurableSet_Iic (f' := fun _ => m / n)
    (fun x _ => by simpa using ((hasDerivAt_id x).const_mul (m / n)).hasDerivWithinAt) (fun x _ y _ h => mul_left_cancel₀ hc.ne' h)]
  refine lintegral_congr fun x => ?_
  rw [abs_of_pos hc, ← ENNReal.ofReal_mul hc.le, quotPDF]
  congr 1
  by_cases hx : 0 < x
  · rw [if_pos hx, if_pos (mul_pos hc hx), Real.mul_rpow hc.le hx.le, Real.rpow_sub_one hc.ne']
    have : m / 2 + n / 2 = (m + n) / 2 := by ring
    rw [this]
    field_simp
  · rw [if_neg hx, if_neg (by rw [not_lt] at *; exact mul_nonpos_of_nonneg_of_nonpos hc.le hx), mul_zero]

theorem prod_swap_apply {μ ν : Measure ℝ} [IsProbabilityMeasure μ] [IsProbabilityMeasure ν] {S : Set (ℝ × ℝ)} (hS : MeasurableSet S) :
    (ν.prod μ) (Prod.swap ⁻¹' S) = (μ.prod ν) S := by
  rw [← Measure.map_apply measurable_swap hS, Measure.prod_swap]

theorem chance_order (order : Bool) {n : Nat} {σ α : Type} {r : Bool → List ℝ → Run σ α} {P : Run σ α → Prop} {μ ν : Measure ℝ} [IsProbabilityMeasure μ]
    [IsProbabilityMeasure ν] {S : Set (ℝ × ℝ)} (hS : MeasurableSet S)
    (ht : ∀ u ∈ Ioo (0 : ℝ) 1, ∀ v ∈ Ioo (0 : ℝ) 1, ∀ l, P (r true (u :: v :: l)) ↔ (quantile μ u, quantile ν v) ∈ S)
    (hf : ∀ u ∈ Ioo (0 : ℝ) 1, ∀ v ∈ Ioo (0 : ℝ) 1, ∀ l, P (r false (u :: v :: l)) ↔ (quantile μ v, quantile ν u) ∈ S) :
    chance (n + 2) (fun l => P (r order l)) = (μ.prod ν) S := by
  cases order
  · rw [← prod_swap_apply hS]
    exact chance_pair (r := r false) (measurable_swap hS) fun u hu v hv l => (hf u hu v hv l).trans (by rw [Set.mem_preimage, Prod.swap_prod_mk])
  · exact chance_pair (r := r true) hS ht

theorem FisherF.value {m n t x y : ℝ} (hm : 0 < m) (hn : 0 < n) (hy : 0 < y) (l : List ℝ) :
    Spec.Run.LeI (.done (Ieee.div exactOps (.fin (2 * x * n)) (.fin (2 * y * m))) l) t ↔ (x, y) ∈ {p : ℝ × ℝ | p.1 / p.2 ∈ Iic (m / n * t)} := by
  rw [Set.mem_ofPred_eq, mem_Iic, div_fin (by positivity), leI_done, div_le_iff₀ (by positivity), div_le_iff₀ hy, div_mul_eq_mul_div, div_mul_eq_mul_div, le_div_iff₀ hn]
  constructor <;> intro h <;> nlinarith

theorem FisherF.generate_false (m n u v : ℝ) (l : List ℝ) : FisherF.generate exactOps false m n idealCompound (u :: v :: l) =
    .done (Ieee.div exactOps (.fin (2 * quantile (gammaMeasure (m / 2) 1) v * n)) (.fin (2 * quantile (gammaMeasure (n / 2) 1) u * m))) l := by
  unfold FisherF.generate Run.both
  simp only [if_neg (show ¬ (false = true) by decide), ChiSquared.generate_eq, Run.bind_done, ChiSquared.n_exact, efl]

theorem FisherF.generate_true (m n u v : ℝ) (l : List ℝ) : FisherF.generate exactOps true m n idealCompound (u :: v :: l) =
    .done (Ieee.div exactOps (.fin (2 * quantile (gammaMeasure (m / 2) 1) u * n)) (.fin (2 * quantile (gammaMeasure (n / 2) 1) v * m))) l := by
  unfold FisherF.generate Run.both
  simp only [if_true, ChiSquared.generate_eq, Run.bind_done, ChiSquared.n_exact, efl]

theorem FisherF.law (order : Bool) (k : Nat) {m n : ℝ} (hm : 0 < m) (hn : 0 < n) (t : ℝ) :
    chance (k + 2) (fun l => Spec.Run.LeI (FisherF.generate exactOps order m n idealCompound l) t) = fisherMeasure m n (Iic t) := by
  have hm2 : 0 < m / 2 := by positivity
  have hn2 : 0 < n / 2 := by positivity
  have hpa := isProbabilityMeasure_gammaMeasure (a := m / 2) (r := 1) hm2 one_pos
  have hpb := isProbabilityMeasure_gammaMeasure (a := n / 2) (r := 1) hn2 one_pos
  have hS : MeasurableSet {p : ℝ × ℝ | p.1 / p.2 ∈ Iic (m / n * t)} := (measurable_fst.div measurable_snd) measurableSet_Iic
  rw [fisher_quotient hm hn, ← quotient hm2 hn2 measurableSet_Iic]
  refine chance_order (r := fun b l => FisherF.generate exactOps b m n idealCompound l) order (P := fun r => Spec.Run.LeI r t) hS (fun u hu v hv l => ?_) (fun u hu v hv l => ?_)
  · beta_reduce
    rw [FisherF.generate_true]
    exact FisherF.value hm hn (quantile_pos hn2 one_pos hv) l
  · beta_reduce
    rw [FisherF.generate_false]
    exact FisherF.value hm hn (quantile_pos hn2 one_pos hu) l

end Boost.Random
