import Verif.Spec.Trd
import Mathlib.MeasureTheory.Measure.Lebesgue.Basic
import Mathlib.MeasureTheory.Integral.IntervalIntegral.FundThmCalculus
import Mathlib.MeasureTheory.Integral.DivergenceTheorem
import Mathlib.Analysis.Calculus.Deriv.Inv
import Mathlib.MeasureTheory.Measure.Lebesgue.EqHaar

/-!
# Transformed rejection: the area of the accepted pairs
-/

namespace Boost.Random.Spec.Trd
open MeasureTheory Set

section
variable {a b c : ℝ} (ha : 0 < a) (hb : 0 < b)

theorem point_of_nonneg {u : ℝ} (h : 0 ≤ u) : point a b c u = (2 * a / (1 / 2 - u) + b) * u + c := by rw [point, abs_of_nonneg h]

theorem point_of_nonpos {u : ℝ} (h : u ≤ 0) : point a b c u = (2 * a / (1 / 2 + u) + b) * u + c := by rw [point, abs_of_nonpos h, sub_neg_eq_add]

include ha hb in
theorem point_strictMono : StrictMonoOn (point a b c) (Ioo (-(1 / 2)) (1 / 2)) := by
  rintro x ⟨hx0, hx1⟩ y ⟨hy0, hy1⟩ hxy
  have h1 : 0 < 1 / 2 - |x| := by rw [sub_pos, abs_lt]; exact ⟨hx0, hx1⟩
  have h2 : 0 < 1 / 2 - |y| := by rw [sub_pos, abs_lt]; exact ⟨hy0, hy1⟩
  have key : x / (1 / 2 - |x|) ≤ y / (1 / 2 - |y|) := by
    rw [div_le_div_iff₀ h1 h2]
    rcases abs_cases x with ⟨e1, _⟩ | ⟨e1, _⟩ <;> rcases abs_cases y with ⟨e2, _⟩ | ⟨e2, _⟩ <;> rw [e1, e2] <;> nlinarith
  have e : ∀ u, point a b c u = 2 * a * (u / (1 / 2 - |u|)) + b * u + c := fun u => by rw [point]; ring
  rw [e, e]
  have := mul_le_mul_of_nonneg_left key (by linarith : 0 ≤ 2 * a)
  have := mul_lt_mul_of_pos_left hxy hb
  linarith

theorem point_continuousOn : ContinuousOn (point a b c) (Ioo (-(1 / 2)) (1 / 2)) := by
  unfold point
  refine ContinuousOn.add (ContinuousOn.mul (ContinuousOn.add (ContinuousOn.div continuousOn_const (by fun_prop) ?_) continuousOn_const) continuousOn_id) continuousOn_const
  rintro x ⟨h0, h1⟩
  have : |x| < 1 / 2 := abs_lt.2 ⟨h0, h1⟩
  linarith

theorem slope_continuousOn : ContinuousOn (slope a b) (Ioo (-(1 / 2)) (1 / 2)) := by
  unfold slope
  refine ContinuousOn.add (ContinuousOn.div continuousOn_const (by fun_prop) ?_) continuousOn_const
  rintro x ⟨h0, h1⟩
  have : |x| < 1 / 2 := abs_lt.2 ⟨h0, h1⟩
  exact pow_ne_zero _ (by linarith)

theorem point_hasDerivAt {u : ℝ} (h0 : -(1 / 2) < u) (h1 : u < 1 / 2) (hne : u ≠ 0) : HasDerivAt (point a b c) (slope a b u) u := by
  rcases lt_or_gt_of_ne hne with h | h
  · have hd : (1 / 2 + u) ≠ 0 := by linarith
    have : HasDerivAt (fun u : ℝ => (2 * a / (1 / 2 + u) + b) * u + c) (((0 * (1 / 2 + u) - 2 * a * 1) / (1 / 2 + u) ^ 2) * u + (2 * a / (1 / 2 + u) + b) * 1) u :=
      (((((hasDerivAt_const u (2 * a)).div ((hasDerivAt_id u).const_add (1 / 2)) hd).add_const b).mul (hasDerivAt_id u)).add_const c)
    have e : slope a b u = ((0 * (1 / 2 + u) - 2 * a * 1) / (1 / 2 + u) ^ 2) * u + (2 * a / (1 / 2 + u) + b) * 1 := by
      rw [slope, abs_of_neg h]
      rw [sub_neg_eq_add]
      generalize hw : 1 / 2 + u = w at hd ⊢
      rw [show u = w - 1 / 2 by linarith]
      field_simp
      ring
    rw [e]
    refine this.congr_of_eventuallyEq ?_
    filter_upwards [Iio_mem_nhds h] with x hx using point_of_nonpos (le_of_lt hx)
  · have hd : (1 / 2 - u) ≠ 0 := by linarith
    have : HasDerivAt (fun u : ℝ => (2 * a / (1 / 2 - u) + b) * u + c) (((0 * (1 / 2 - u) - 2 * a * (-1)) / (1 / 2 - u) ^ 2) * u + (2 * a / (1 / 2 - u) + b) * 1) u :=
      (((((hasDerivAt_const u (2 * a)).div ((hasDerivAt_id u).const_sub (1 / 2)) hd).add_const b).mul (hasDerivAt_id u)).add_const c)
    have e : slope a b u = ((0 * (1 / 2 - u) - 2 * a * (-1)) / (1 / 2 - u) ^ 2) * u + (2 * a / (1 / 2 - u) + b) * 1 := by
      rw [slope, abs_of_pos h]
      generalize hw : 1 / 2 - u = w at hd ⊢
      rw [show u = 1 / 2 - w by linarith]
      field_simp
      ring
    rw [e]
    refine this.congr_of_eventuallyEq ?_
    filter_upwards [Ioi_mem_nhds h] with x hx using point_of_nonneg (le_of_lt hx)

include ha hb in
theorem point_surj (y : ℝ) : ∃ u ∈ Ioo (-(1 / 2)) (1 / 2 : ℝ), point a b c u = y := by
  set d := |y - c| with hd
  have hd0 : 0 ≤ d := abs_nonneg _
  set ε := a / (2 * (d + 2 * a)) with he
  have hden : 0 < 2 * (d + 2 * a) := by linarith
  have he0 : 0 < ε := div_pos ha hden
  have he1 : ε ≤ 1 / 4 := by rw [he, div_le_iff₀ hden]; linarith
  have hmul : ε * (2 * (d + 2 * a)) = a := by rw [he]; field_simp
  set x := 1 / 2 - ε with hx
  have hx0 : 1 / 4 ≤ x := by linarith
  have hx1 : x < 1 / 2 := by linarith
  have hq : d + 2 * a ≤ 2 * a / ε * (1 / 4) := by
    rw [div_mul_eq_mul_div, le_div_iff₀ he0]; linarith
  have hpos : 0 < 2 * a / ε := div_pos (by linarith) he0
  have e1 : c + d ≤ point a b c x := by
    rw [point_of_nonneg (by linarith), show 1 / 2 - x = ε by rw [hx]; ring]
    nlinarith
  have e2 : point a b c (-x) ≤ c - d := by
    rw [point_of_nonpos (by linarith), show 1 / 2 + -x = ε by rw [hx]; ring]
    nlinarith
  have hy := abs_le.1 (le_of_eq hd.symm)
  have hsub : Icc (-x) x ⊆ Ioo (-(1 / 2)) (1 / 2) := fun z hz => ⟨by linarith [hz.1], by linarith [hz.2]⟩
  obtain ⟨u, hu, e⟩ := intermediate_value_Icc (by linarith : -x ≤ x) ((point_continuousOn (a := a) (b := b) (c := c)).mono hsub)
    (⟨by linarith [hy.1], by linarith [hy.2]⟩ : y ∈ Icc (point a b c (-x)) (point a b c x))
  exact ⟨u, hsub hu, e⟩

/-- The points of the candidate `k`. -/
def cell (a b c : ℝ) (k : Int) : Set ℝ := {u | |u| < 1 / 2 ∧ ⌊point a b c u⌋ = k}

theorem slope_pos' (ha : 0 < a) (hb : 0 < b) (u : ℝ) : 0 < slope a b u := by
  unfold slope
  have : 0 ≤ a / (1 / 2 - |u|) ^ 2 := by positivity
  linarith

include ha hb in
theorem cell_eq (k : Int) : ∃ u₀ u₁, u₀ ≤ u₁ ∧ cell a b c k = Ico u₀ u₁ ∧ Icc u₀ u₁ ⊆ Ioo (-(1 / 2)) (1 / 2) ∧ point a b c u₁ - point a b c u₀ = 1 := by
  obtain ⟨u₀, h0, e0⟩ := point_surj (c := c) ha hb (k : ℝ)
  obtain ⟨u₁, h1, e1⟩ := point_surj (c := c) ha hb (k + 1 : ℝ)
  have hm := point_strictMono (c := c) ha hb
  have hlt : u₀ < u₁ := (hm.lt_iff_lt h0 h1).1 (by rw [e0, e1]; linarith)
  refine ⟨u₀, u₁, hlt.le, ?_, fun z hz => ⟨h0.1.trans_le hz.1, hz.2.trans_lt h1.2⟩, by rw [e0, e1]; ring⟩
  ext u
  simp only [cell, mem_ofPred_eq, mem_Ico, Int.floor_eq_iff]
  constructor
  · rintro ⟨hu, hlo, hhi⟩
    have hu' : u ∈ Ioo (-(1 / 2)) (1 / 2 : ℝ) := abs_lt.1 hu
    rw [← e0] at hlo
    rw [← e1] at hhi
    exact ⟨(hm.le_iff_le h0 hu').1 hlo, (hm.lt_iff_lt hu' h1).1 hhi⟩
  · rintro ⟨hlo, hhi⟩
    have hu' : u ∈ Ioo (-(1 / 2)) (1 / 2 : ℝ) := ⟨h0.1.trans_le hlo, hhi.trans h1.2⟩
    refine ⟨abs_lt.2 hu', ?_, ?_⟩
    · rw [← e0]; exact (hm.le_iff_le h0 hu').2 hlo
    · rw [← e1]; exact (hm.lt_iff_lt hu' h1).2 hhi

include ha hb in
theorem integral_cell (k : Int) : ∫⁻ u in cell a b c k, ENNReal.ofReal (slope a b u) = 1 := by
  obtain ⟨u₀, u₁, hle, e, hsub, hd⟩ := cell_eq (c := c) ha hb k
  have hc : ContinuousOn (slope a b) (Icc u₀ u₁) := slope_continuousOn.mono hsub
  have hi : IntervalIntegrable (slope a b) volume u₀ u₁ := ContinuousOn.intervalIntegrable (by rwa [uIcc_of_le hle])
  have key : ∫ u in u₀..u₁, slope a b u = 1 := by
    rw [MeasureTheory.integral_eq_of_hasDerivAt_off_countable_of_le (point a b c) (slope a b) hle (countable_singleton 0) (point_continuousOn.mono hsub) ?_ hi, hd]
    rintro x ⟨hx, hne⟩
    have := hsub (Ioo_subset_Icc_self hx)
    exact point_hasDerivAt this.1 this.2 hne
  rw [e, ← ofReal_integral_eq_lintegral_ofReal]
  · rw [integral_Ico_eq_integral_Ioc, ← intervalIntegral.integral_of_le hle, key, ENNReal.ofReal_one]
  · exact (hc.integrableOn_Icc).mono_set Ico_subset_Icc_self
  · exact Filter.Eventually.of_forall fun u => (slope_pos' ha hb u).le

include ha hb in
theorem measurable_cell (k : Int) : MeasurableSet (cell a b c k) := by
  obtain ⟨u₀, u₁, _, e, _⟩ := cell_eq (c := c) ha hb k
  rw [e]
  exact measurableSet_Ico

/-- The accepted pairs. -/
def region (a b c f : ℝ) (k : Int) : Set (ℝ × ℝ) := {x | x.1 ∈ cell a b c k ∧ 0 ≤ x.2 ∧ x.2 < 1 ∧ x.2 ≤ f * slope a b x.1}

theorem measurable_slope : Measurable (slope a b) := by
  unfold slope
  fun_prop

include ha hb in
theorem measurable_region (f : ℝ) (k : Int) : MeasurableSet (region a b c f k) := by
  have h1 := measurable_cell (c := c) ha hb k
  refine (measurable_fst h1).inter ((measurableSet_le measurable_const measurable_snd).inter ((measurableSet_lt measurable_snd measurable_const).inter ?_))
  exact measurableSet_le measurable_snd ((measurable_slope.comp measurable_fst).const_mul f)

include ha hb in
theorem volume_region {f : ℝ} {k : Int} (hf : 0 ≤ f) (h : ∀ u ∈ cell a b c k, f * slope a b u ≤ 1) : volume (region a b c f k) = ENNReal.ofReal f := by
  rw [Measure.volume_eq_prod, Measure.prod_apply (measurable_region ha hb f k)]
  have e : ∀ u, volume (Prod.mk u ⁻¹' region a b c f k) = (cell a b c k).indicator (fun u => ENNReal.ofReal (f * slope a b u)) u := by
    intro u
    by_cases hu : u ∈ cell a b c k
    · rw [indicator_of_mem hu]
      apply le_antisymm
      · calc volume (Prod.mk u ⁻¹' region a b c f k) ≤ volume (Icc 0 (f * slope a b u)) := measure_mono fun y (hy : (u, y) ∈ region a b c f k) => ⟨hy.2.1, hy.2.2.2⟩
          _ = _ := by rw [Real.volume_Icc, sub_zero]
      · calc ENNReal.ofReal (f * slope a b u) = volume (Ico 0 (f * slope a b u)) := by rw [Real.volume_Ico, sub_zero]
          _ ≤ volume (Prod.mk u ⁻¹' region a b c f k) := measure_mono fun y (hy : y ∈ Ico 0 (f * slope a b u)) => ⟨hu, hy.1, hy.2.trans_le (h u hu), hy.2.le⟩
    · rw [indicator_of_notMem hu]
      have : Prod.mk u ⁻¹' region a b c f k = ∅ := by
        ext y
        simp only [mem_preimage, region, mem_ofPred_eq, hu, false_and, mem_empty_iff_false]
      rw [this, measure_empty]
  simp_rw [e]
  rw [lintegral_indicator (measurable_cell ha hb k)]
  simp_rw [ENNReal.ofReal_mul hf]
  rw [lintegral_const_mul _ measurable_slope.ennreal_ofReal, integral_cell ha hb, mul_one]

end

/-! ### The pairs are uniform -/

section
variable {vr : ℝ}

/-- The position and the height computed from two values of `uniform_01`. -/
noncomputable def pair (vr : ℝ) (x : ℝ × ℝ) : ℝ × ℝ :=
  if x.1 ≤ 86 / 100 * vr then (x.1 / vr - 43 / 100, x.2 * vr)
  else if vr ≤ x.1 then (x.2 - 1 / 2, x.1)
  else if x.1 / vr - 93 / 100 < 0 then (-(1 / 2) - (x.1 / vr - 93 / 100), x.2 * vr)
  else (1 / 2 - (x.1 / vr - 93 / 100), x.2 * vr)

theorem preserving_affine {r : ℝ} (hr : r ≠ 0) (h : 0 < vr) (e : |r| = vr⁻¹) (d : ℝ) : MeasurePreserving (fun x : ℝ × ℝ => (r * x.1 + d, x.2 * vr)) := by
  have h1 : Measure.map (fun x : ℝ => r * x + d) volume = ENNReal.ofReal vr • volume := by
    have := Real.map_volume_mul_left hr
    rw [show (fun x : ℝ => r * x + d) = (fun x => x + d) ∘ fun x => r * x from rfl,
      ← Measure.map_map (by fun_prop) (by fun_prop), this, Measure.map_smul, map_add_right_eq_self]
    congr 2
    rw [abs_inv, e, inv_inv]
  have h2 : Measure.map (fun x : ℝ => x * vr) volume = ENNReal.ofReal vr⁻¹ • volume := by
    have := Real.map_volume_mul_right h.ne'
    rw [this]
    congr 2
    rw [abs_of_pos (by positivity)]
  refine ⟨by fun_prop, ?_⟩
  rw [Measure.volume_eq_prod, show (fun x : ℝ × ℝ => (r * x.1 + d, x.2 * vr)) = Prod.map (fun x : ℝ => r * x + d) (fun x : ℝ => x * vr) from rfl,
    ← Measure.map_prod_map _ _ (by fun_prop) (by fun_prop), h1, h2, Measure.prod_smul_left, Measure.prod_smul_right, smul_smul,
    ← ENNReal.ofReal_mul h.le, mul_inv_cancel₀ h.ne', ENNReal.ofReal_one, one_smul]

theorem preserving_scale (h : 0 < vr) (d : ℝ) : MeasurePreserving (fun x : ℝ × ℝ => (x.1 / vr + d, x.2 * vr)) := by
  have := preserving_affine (r := vr⁻¹) (inv_ne_zero h.ne') h (abs_of_pos (inv_pos.2 h)) d
  simpa only [div_eq_inv_mul] using this

theorem preserving_flip (h : 0 < vr) (d : ℝ) : MeasurePreserving (fun x : ℝ × ℝ => (d - x.1 / vr, x.2 * vr)) := by
  have := preserving_affine (r := -vr⁻¹) (neg_ne_zero.2 (inv_ne_zero h.ne')) h (by rw [abs_neg, abs_of_pos (inv_pos.2 h)]) d
  refine (congrArg (fun f => MeasurePreserving f volume volume) ?_).mp this
  ext x <;> simp only
  ring

theorem preserving_swap : MeasurePreserving (fun x : ℝ × ℝ => (x.2 - 1 / 2, x.1)) := by
  have h1 : MeasurePreserving (fun x : ℝ × ℝ => (x.1 + -(1 / 2), x.2)) := (measurePreserving_add_right volume (-(1 / 2) : ℝ)).prod (MeasurePreserving.id volume)
  exact h1.comp Measure.measurePreserving_swap

theorem measurable_pair : Measurable (pair vr) := by
  unfold pair
  refine Measurable.ite (measurableSet_le (by fun_prop) (by fun_prop)) (by fun_prop) ?_
  refine Measurable.ite (measurableSet_le (by fun_prop) (by fun_prop)) (by fun_prop) ?_
  exact Measurable.ite (measurableSet_lt (by fun_prop) (by fun_prop)) (by fun_prop) (by fun_prop)

/-- The two values of `uniform_01`. -/
def square : Set (ℝ × ℝ) := Ico 0 1 ×ˢ Ico 0 1

/-- The pairs are uniform. -/
theorem volume_pair (h0 : 0 < vr) (h1 : vr < 1) {Q : Set (ℝ × ℝ)} (hQ : MeasurableSet Q) (hs : Q ⊆ Ioo (-(1 / 2)) (1 / 2) ×ˢ Ico 0 1) :
    volume {x ∈ square | pair vr x ∈ Q} = volume Q := by
  -- the four parts of the domain
  have hI : MeasurableSet {x : ℝ × ℝ | x.1 ≤ 86 / 100 * vr} := measurableSet_le (by fun_prop) (by fun_prop)
  have hII : MeasurableSet {x : ℝ × ℝ | vr ≤ x.1} := measurableSet_le (by fun_prop) (by fun_prop)
  have hIII : MeasurableSet {x : ℝ × ℝ | x.1 / vr - 93 / 100 < 0} := measurableSet_lt (by fun_prop) (by fun_prop)
  -- and of the region
  have qI : MeasurableSet {y : ℝ × ℝ | y.2 < vr} := measurableSet_lt (by fun_prop) (by fun_prop)
  have qA : MeasurableSet {y : ℝ × ℝ | |y.1| ≤ 43 / 100} := measurableSet_le (by fun_prop) (by fun_prop)
  have qN : MeasurableSet {y : ℝ × ℝ | y.1 < 0} := measurableSet_lt (by fun_prop) (by fun_prop)
  rw [← measure_inter_add_sdiff _ hI, ← measure_inter_add_sdiff (_ \ _) hII, ← measure_inter_add_sdiff ((_ \ _) \ _) hIII]
  rw [← measure_inter_add_sdiff Q qI, ← measure_inter_add_sdiff (Q ∩ _) qA, ← measure_inter_add_sdiff ((Q ∩ _) \ _) qN]
  have e1 : volume ({x ∈ square | pair vr x ∈ Q} ∩ {x | x.1 ≤ 86 / 100 * vr}) = volume (Q ∩ {y | y.2 < vr} ∩ {y | |y.1| ≤ 43 / 100}) := by
    rw [← (preserving_scale h0 (-(43 / 100))).measure_preimage (((hQ.inter qI).inter qA).nullMeasurableSet)]
    congr 1
    ext ⟨v, w⟩
    simp only [square, mem_inter_iff, mem_ofPred_eq, mem_prod, mem_Ico, mem_preimage]
    constructor
    · rintro ⟨⟨⟨⟨hv0, hv1⟩, hw0, hw1⟩, hp⟩, hle⟩
      rw [pair, if_pos hle] at hp
      have : v / vr ≤ 86 / 100 := by rw [div_le_iff₀ h0]; exact hle
      have : 0 ≤ v / vr := div_nonneg hv0 h0.le
      refine ⟨⟨hp, by nlinarith⟩, ?_⟩
      rw [abs_le]
      constructor <;> linarith
    · rintro ⟨⟨hp, hlt⟩, hab⟩
      rw [abs_le] at hab
      have h2 : v / vr ≤ 86 / 100 := by linarith [hab.2]
      have h3 : 0 ≤ v / vr := by linarith [hab.1]
      have hv : v ≤ 86 / 100 * vr := by rwa [div_le_iff₀ h0] at h2
      have hv0 : 0 ≤ v := by
        have := mul_nonneg h3 h0.le
        rwa [div_mul_cancel₀ _ h0.ne'] at this
      have hw := (hs hp).2
      refine ⟨⟨⟨⟨hv0, by nlinarith⟩, ?_, ?_⟩, ?_⟩, hv⟩
      · exact nonneg_of_mul_nonneg_left hw.1 h0
      · by_contra hc
        rw [not_lt] at hc
        nlinarith
      · rw [pair, if_pos hv]; exact hp
  have e2 : volume (({x ∈ square | pair vr x ∈ Q} \ {x | x.1 ≤ 86 / 100 * vr}) ∩ {x | vr ≤ x.1}) = volume (Q \ {y | y.2 < vr}) := by
    rw [← preserving_swap.measure_preimage ((hQ.diff qI).nullMeasurableSet)]
    congr 1
    ext ⟨v, w⟩
    simp only [square, mem_inter_iff, mem_sdiff, mem_ofPred_eq, mem_prod, mem_Ico, mem_preimage, not_le, not_lt]
    constructor
    · rintro ⟨⟨⟨_, hp⟩, hlt⟩, hle⟩
      rw [pair, if_neg (not_le.2 hlt), if_pos hle] at hp
      exact ⟨hp, hle⟩
    · rintro ⟨hp, hle⟩
      have hb := hs hp
      have hu := hb.1
      have hv := hb.2
      simp only [mem_Ioo, mem_Ico] at hu hv
      have hlt : 86 / 100 * vr < v := by nlinarith
      refine ⟨⟨⟨⟨⟨hv.1, hv.2⟩, by linarith [hu.1], by linarith [hu.2]⟩, ?_⟩, hlt⟩, hle⟩
      rw [pair, if_neg (not_le.2 hlt), if_pos hle]
      exact hp
  have e3 : volume ((({x ∈ square | pair vr x ∈ Q} \ {x | x.1 ≤ 86 / 100 * vr}) \ {x | vr ≤ x.1}) ∩ {x | x.1 / vr - 93 / 100 < 0}) =
      volume (((Q ∩ {y | y.2 < vr}) \ {y | |y.1| ≤ 43 / 100}) ∩ {y | y.1 < 0}) := by
    rw [← (preserving_flip h0 (-(1 / 2) + 93 / 100)).measure_preimage ((((hQ.inter qI).diff qA).inter qN).nullMeasurableSet)]
    congr 1
    ext ⟨v, w⟩
    simp only [square, mem_inter_iff, mem_sdiff, mem_ofPred_eq, mem_prod, mem_Ico, mem_preimage, not_le]
    constructor
    · rintro ⟨⟨⟨⟨⟨⟨hv0, hv1⟩, hw0, hw1⟩, hp⟩, hlt⟩, hvr⟩, hneg⟩
      rw [pair, if_neg (not_le.2 hlt), if_neg (not_le.2 hvr), if_pos hneg] at hp
      have h2 : 86 / 100 < v / vr := by rwa [lt_div_iff₀ h0]
      refine ⟨⟨⟨?_, by nlinarith⟩, ?_⟩, by linarith⟩
      · convert hp using 2
        ring
      · rw [abs_of_neg (by linarith)]
        linarith
    · rintro ⟨⟨⟨hp, hlt⟩, hab⟩, hneg⟩
      have hb := hs hp
      have hu := hb.1
      have hw := hb.2
      simp only [mem_Ioo, mem_Ico] at hu hw
      rw [abs_of_neg hneg] at hab
      have h2 : 86 / 100 < v / vr := by linarith
      have h3 : v / vr < 93 / 100 := by linarith [hu.1]
      have h4 : 86 / 100 * vr < v := by rwa [lt_div_iff₀ h0] at h2
      have h5 : v < vr := by
        rw [div_lt_iff₀ h0] at h3
        linarith
      refine ⟨⟨⟨⟨⟨⟨by nlinarith, by linarith⟩, nonneg_of_mul_nonneg_left hw.1 h0, ?_⟩, ?_⟩, h4⟩, h5⟩, by linarith⟩
      · by_contra hc
        rw [not_lt] at hc
        nlinarith
      · rw [pair, if_neg (not_le.2 h4), if_neg (not_le.2 h5), if_pos (by dsimp only; linarith)]
        convert hp using 2
        ring
  have e4 : volume ((({x ∈ square | pair vr x ∈ Q} \ {x | x.1 ≤ 86 / 100 * vr}) \ {x | vr ≤ x.1}) \ {x | x.1 / vr - 93 / 100 < 0}) =
      volume (((Q ∩ {y | y.2 < vr}) \ {y | |y.1| ≤ 43 / 100}) \ {y | y.1 < 0}) := by
    have hae : volume (((Q ∩ {y | y.2 < vr}) \ {y | |y.1| ≤ 43 / 100}) \ {y | y.1 < 0}) =
        volume ((fun x : ℝ × ℝ => (1 / 2 + 93 / 100 - x.1 / vr, x.2 * vr)) ⁻¹' (((Q ∩ {y | y.2 < vr}) \ {y | |y.1| ≤ 43 / 100}) \ {y | y.1 < 0})) :=
      ((preserving_flip h0 (1 / 2 + 93 / 100)).measure_preimage ((((hQ.inter qI).diff qA).diff qN).nullMeasurableSet)).symm
    rw [hae]
    congr 1
    ext ⟨v, w⟩
    simp only [square, mem_inter_iff, mem_sdiff, mem_ofPred_eq, mem_prod, mem_Ico, mem_preimage, not_le, not_lt]
    constructor
    · rintro ⟨⟨⟨⟨⟨⟨hv0, hv1⟩, hw0, hw1⟩, hp⟩, hlt⟩, hvr⟩, hneg⟩
      rw [pair, if_neg (not_le.2 hlt), if_neg (not_le.2 hvr), if_neg (not_lt.2 hneg)] at hp
      have h2 : v / vr < 1 := by rwa [div_lt_one h0]
      refine ⟨⟨⟨?_, by nlinarith⟩, ?_⟩, by linarith⟩
      · convert hp using 2
        ring
      · rw [abs_of_nonneg (by linarith)]
        linarith
    · rintro ⟨⟨⟨hp, hlt⟩, hab⟩, hneg⟩
      have hb := hs hp
      have hu := hb.1
      have hw := hb.2
      simp only [mem_Ioo, mem_Ico] at hu hw
      rw [abs_of_nonneg hneg] at hab
      have h2 : v / vr < 1 := by linarith
      have h3 : 93 / 100 < v / vr := by linarith [hu.2]
      have h5 : v < vr := by rwa [div_lt_one h0] at h2
      have h4 : 86 / 100 * vr < v := by
        rw [lt_div_iff₀ h0] at h3
        linarith
      refine ⟨⟨⟨⟨⟨⟨by nlinarith, by linarith⟩, nonneg_of_mul_nonneg_left hw.1 h0, ?_⟩, ?_⟩, h4⟩, h5⟩, by linarith⟩
      · by_contra hc
        rw [not_lt] at hc
        nlinarith
      · rw [pair, if_neg (not_le.2 h4), if_neg (not_le.2 h5), if_neg (by dsimp only; linarith)]
        convert hp using 2
        ring
  rw [e1, e2, e3, e4]
  ring

end

end Boost.Random.Spec.Trd

namespace Boost.Random.Spec.Trd
open MeasureTheory Set

section
variable {a b c vr f : ℝ} {k : Int}

theorem slope_mono (ha : 0 < a) {x y : ℝ} (hxy : |x| ≤ |y|) (hy : |y| < 1 / 2) : slope a b x ≤ slope a b y := by
  unfold slope
  have : a / (1 / 2 - |x|) ^ 2 ≤ a / (1 / 2 - |y|) ^ 2 :=
    div_le_div_of_nonneg_left ha.le (pow_pos (by linarith) 2) (pow_le_pow_left₀ (by linarith) (by linarith) 2)
  linarith

theorem point_abs (ha : 0 < a) (hb : 0 < b) {u : ℝ} (hu : |u| < 1 / 2) : |point a b c u - c| = point a b 0 |u| := by
  unfold point
  rw [add_sub_cancel_right, abs_mul, add_zero, abs_abs, abs_of_pos]
  have : 0 < 2 * a / (1 / 2 - |u|) := div_pos (by linarith) (by linarith)
  linarith

/-- Bounds on the points of a candidate. -/
theorem cell_bounds (ha : 0 < a) (hb : 0 < b) {L U : ℝ} (hL : 0 ≤ L) (hL1 : L < 1 / 2) (hU0 : 0 ≤ U) (hU : U < 1 / 2)
    (h1 : k + 1 - c ≤ point a b 0 U) (h2 : -point a b 0 U ≤ k - c) (h3 : L = 0 ∨ point a b 0 L ≤ k - c ∨ k + 1 - c ≤ -point a b 0 L) {u : ℝ}
    (hu : u ∈ cell a b c k) : L ≤ |u| ∧ |u| ≤ U := by
  obtain ⟨hu, hk⟩ := hu
  rw [Int.floor_eq_iff] at hk
  have hm := point_strictMono (c := 0) ha hb
  have hau : |u| ∈ Ioo (-(1 / 2)) (1 / 2 : ℝ) := ⟨by linarith [abs_nonneg u], hu⟩
  have e := point_abs (c := c) ha hb hu
  refine ⟨?_, ?_⟩
  · rcases h3 with h | h | h
    · rw [h]; exact abs_nonneg u
    · refine (hm.le_iff_le ⟨by linarith, hL1⟩ hau).1 ?_
      rw [← e]
      exact le_trans (by linarith [hk.1]) (le_abs_self _)
    · refine (hm.le_iff_le ⟨by linarith, hL1⟩ hau).1 ?_
      rw [← e]
      exact le_trans (by linarith [hk.2]) (neg_le_abs _)
  · refine (hm.le_iff_le hau ⟨by linarith, hU⟩).1 ?_
    rw [← e, abs_le]
    constructor <;> linarith [hk.1, hk.2]

theorem hat_of_bounds (ha : 0 < a) (hb : 0 < b) (hf : 0 ≤ f) {L U : ℝ} (hL : 0 ≤ L) (hL1 : L < 1 / 2) (hU0 : 0 ≤ U) (hU : U < 1 / 2)
    (h1 : k + 1 - c ≤ point a b 0 U) (h2 : -point a b 0 U ≤ k - c) (h3 : L = 0 ∨ point a b 0 L ≤ k - c ∨ k + 1 - c ≤ -point a b 0 L)
    (h4 : f * slope a b U ≤ 1) (h5 : 43 / 100 < L ∨ vr ≤ f * slope a b L) : Hat a b c vr f k := by
  intro u hu hk
  obtain ⟨hlo, hhi⟩ := cell_bounds ha hb hL hL1 hU0 hU h1 h2 h3 ⟨hu, hk⟩
  have s1 : slope a b u ≤ slope a b U := slope_mono ha (by rwa [abs_of_nonneg hU0]) (by rwa [abs_of_nonneg hU0])
  have s2 : slope a b L ≤ slope a b u := slope_mono ha (by rwa [abs_of_nonneg hL]) hu
  refine ⟨(mul_le_mul_of_nonneg_left s1 hf).trans h4, fun hc => ?_⟩
  rcases h5 with h | h
  · linarith
  · exact h.trans (mul_le_mul_of_nonneg_left s2 hf)

/-- The area without a bound on the height. -/
theorem volume_region_le (ha : 0 < a) (hb : 0 < b) (hf : 0 ≤ f) : volume (region a b c f k) ≤ ENNReal.ofReal f := by
  rw [Measure.volume_eq_prod, Measure.prod_apply (measurable_region ha hb f k)]
  have e : ∀ u, volume (Prod.mk u ⁻¹' region a b c f k) ≤ (cell a b c k).indicator (fun u => ENNReal.ofReal (f * slope a b u)) u := by
    intro u
    by_cases hu : u ∈ cell a b c k
    · rw [indicator_of_mem hu]
      calc volume (Prod.mk u ⁻¹' region a b c f k) ≤ volume (Icc 0 (f * slope a b u)) := measure_mono fun y (hy : (u, y) ∈ region a b c f k) => ⟨hy.2.1, hy.2.2.2⟩
        _ = _ := by rw [Real.volume_Icc, sub_zero]
    · rw [indicator_of_notMem hu]
      have : Prod.mk u ⁻¹' region a b c f k = ∅ := by
        ext y
        simp only [mem_preimage, region, mem_ofPred_eq, hu, false_and, mem_empty_iff_false]
      rw [this, measure_empty]
  refine (lintegral_mono e).trans ?_
  rw [lintegral_indicator (measurable_cell ha hb k)]
  simp_rw [ENNReal.ofReal_mul hf]
  rw [lintegral_const_mul _ measurable_slope.ennreal_ofReal, integral_cell ha hb, mul_one]

theorem region_subset : region a b c f k ⊆ Ioo (-(1 / 2)) (1 / 2) ×ˢ Ico 0 1 := fun _ hx => ⟨abs_lt.1 hx.1.1, hx.2.1, hx.2.2.1⟩

end

end Boost.Random.Spec.Trd
