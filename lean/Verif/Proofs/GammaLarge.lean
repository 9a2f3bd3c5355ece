import Verif.Proofs.Variates
import Verif.Model.Gamma
import Verif.Proofs.Rejection
import Mathlib.Analysis.Complex.ExponentialBounds
import Verif.Proofs.GammaMeasure

/-!
# The loop of `gamma_distribution` for a parameter above one
-/

namespace Boost.Random.Gamma
open Spec MeasureTheory Set ProbabilityTheory
open scoped ENNReal

/-! ## The accepted fraction is at most one -/

theorem hasDerivAt_h {a s y : ℝ} (ha : 0 < a) (hx : 0 < s * y + a) :
    HasDerivAt (fun y => Real.log (1 + y ^ 2) + a * Real.log ((s * y + a) / a) - s * y) (2 * y / (1 + y ^ 2) + a * (s / a / ((s * y + a) / a)) - s) y := by
  have h1 : HasDerivAt (fun y : ℝ => 1 + y ^ 2) (2 * y) y := by
    simpa using (hasDerivAt_pow 2 y).const_add (1 : ℝ)
  have h2 : HasDerivAt (fun y : ℝ => (s * y + a) / a) (s / a) y := by
    simpa using (((hasDerivAt_id y).const_mul s).add_const a).div_const a
  have h3 : HasDerivAt (fun y : ℝ => s * y) s y := by simpa using (hasDerivAt_id y).const_mul s
  exact ((h1.log (by positivity)).add ((h2.log (div_pos hx ha).ne').const_mul a)).sub h3

theorem deriv_h {a s y : ℝ} (ha : a ≠ 0) (hs2 : s ^ 2 = 2 * a + 1) (hx : 0 < s * y + a) :
    2 * y / (1 + y ^ 2) + a * (s / a / ((s * y + a) / a)) - s = -(y * ((1 - s * y) ^ 2 / ((1 + y ^ 2) * (s * y + a)))) := by
  have : (1 : ℝ) + y ^ 2 ≠ 0 := by positivity
  have : y * s + a ≠ 0 := by rw [mul_comm]; exact hx.ne'
  have : s * y + a ≠ 0 := hx.ne'
  field_simp
  linear_combination (-y) * hs2

theorem h_nonpos {a s : ℝ} (ha : 0 < a) (hs : 0 < s) (hs2 : s ^ 2 = 2 * a + 1) {y : ℝ} (hx : 0 < s * y + a) :
    Real.log (1 + y ^ 2) + a * Real.log ((s * y + a) / a) - s * y ≤ 0 := by
  have h0 : Real.log (1 + (0 : ℝ) ^ 2) + a * Real.log ((s * 0 + a) / a) - s * 0 = 0 := by
    simp [ha.ne']
  rw [← h0]
  have hpos : ∀ z, -(a / s) < z → 0 < s * z + a := by
    intro z hz
    have := mul_lt_mul_of_pos_left hz hs
    rw [mul_neg, mul_div_cancel₀ _ hs.ne'] at this
    linarith
  have hy : -(a / s) < y := by
    rw [neg_lt_iff_pos_add, ← mul_pos_iff_of_pos_left hs, mul_add, mul_div_cancel₀ _ hs.ne']
    exact hx
  have has : 0 < a / s := div_pos ha hs
  rcases le_total 0 y with h | h
  · have anti : AntitoneOn (fun y => Real.log (1 + y ^ 2) + a * Real.log ((s * y + a) / a) - s * y) (Ici 0) := by
      refine antitoneOn_of_deriv_nonpos (convex_Ici 0) (fun z hz => ?_) (fun z hz => ?_) fun z hz => ?_
      · exact (hasDerivAt_h ha (hpos z (by have : (0 : ℝ) ≤ z := hz; linarith))).continuousAt.continuousWithinAt
      · rw [interior_Ici] at hz
        exact (hasDerivAt_h ha (hpos z (by have : (0 : ℝ) < z := hz; linarith))).differentiableAt.differentiableWithinAt
      · rw [interior_Ici] at hz
        have hz0 : (0 : ℝ) < z := hz
        have hp := hpos z (by linarith)
        rw [(hasDerivAt_h ha hp).deriv, deriv_h ha.ne' hs2 hp]
        have : 0 ≤ z * ((1 - s * z) ^ 2 / ((1 + z ^ 2) * (s * z + a))) := by positivity
        linarith
    exact anti (self_mem_Ici) h h
  · have mono : MonotoneOn (fun y => Real.log (1 + y ^ 2) + a * Real.log ((s * y + a) / a) - s * y) (Ioc (-(a / s)) 0) := by
      refine monotoneOn_of_deriv_nonneg (convex_Ioc _ 0) (fun z hz => ?_) (fun z hz => ?_) fun z hz => ?_
      · exact (hasDerivAt_h ha (hpos z hz.1)).continuousAt.continuousWithinAt
      · rw [interior_Ioc] at hz
        exact (hasDerivAt_h ha (hpos z hz.1)).differentiableAt.differentiableWithinAt
      · rw [interior_Ioc] at hz
        have hp := hpos z hz.1
        rw [(hasDerivAt_h ha hp).deriv, deriv_h ha.ne' hs2 hp]
        have h1 : 0 ≤ (1 - s * z) ^ 2 / ((1 + z ^ 2) * (s * z + a)) := by positivity
        have := mul_nonpos_of_nonpos_of_nonneg hz.2.le h1
        linarith
    exact mono ⟨hy, h⟩ ⟨by linarith, le_refl _⟩ h

theorem accept_le_one {a s : ℝ} (ha : 0 < a) (hs : 0 < s) (hs2 : s ^ 2 = 2 * a + 1) {y : ℝ} (hx : 0 < s * y + a) :
    (1 + y * y) * Real.exp (a * Real.log ((s * y + a) / a) - s * y) ≤ 1 := by
  have hp : 0 < 1 + y ^ 2 := by positivity
  have := h_nonpos ha hs hs2 hx
  calc (1 + y * y) * Real.exp (a * Real.log ((s * y + a) / a) - s * y)
      = Real.exp (Real.log (1 + y ^ 2)) * Real.exp (a * Real.log ((s * y + a) / a) - s * y) := by rw [Real.exp_log hp, sq]
    _ = Real.exp (Real.log (1 + y ^ 2) + a * Real.log ((s * y + a) / a) - s * y) := by rw [← Real.exp_add]; congr 1; ring
    _ ≤ 1 := Real.exp_le_one_iff.2 this

/-! ## The law of the proposals -/

open Boost.Random.Cauchy (lit lit_lt lit_gt three_lt)

theorem tan_lit_neg : Real.tan lit < 0 := by
  have h1 := lit_lt; have h2 := three_lt; have hp := Real.pi_lt_four
  rw [← Real.tan_sub_pi]
  exact Real.tan_neg_of_neg_of_pi_div_two_lt (by linarith) (by linarith)

theorem arctan_tan_lit : Real.arctan (Real.tan lit) = lit - Real.pi := by
  have h1 := lit_lt; have h2 := three_lt; have hp := Real.pi_lt_four
  rw [← Real.tan_sub_pi, Real.arctan_tan (by linarith) (by linarith)]

theorem image_right {a s : ℝ} (hs : 0 < s) : (fun x => Real.arctan ((x - a) / s) / lit) '' Ici a = Ico 0 (Real.pi / 2 / lit) := by
  have hl : 0 < lit := by have := three_lt; linarith
  ext u
  simp only [mem_image, mem_Ici, mem_Ico]
  constructor
  · rintro ⟨x, hx, rfl⟩
    have : 0 ≤ Real.arctan ((x - a) / s) := Real.arctan_nonneg.2 (div_nonneg (by linarith) hs.le)
    exact ⟨div_nonneg this hl.le, div_lt_div_of_pos_right (Real.arctan_lt_pi_div_two _) hl⟩
  · rintro ⟨h0, h1⟩
    rw [lt_div_iff₀ hl] at h1
    refine ⟨a + s * Real.tan (u * lit), ?_, ?_⟩
    · have := Real.tan_nonneg_of_nonneg_of_le_pi_div_two (mul_nonneg h0 hl.le) h1.le
      have := mul_nonneg hs.le this
      linarith
    · have hp := Real.pi_pos
      have := mul_nonneg h0 hl.le
      rw [add_sub_cancel_left, mul_div_cancel_left₀ _ hs.ne', Real.arctan_tan (by linarith) h1, mul_div_cancel_right₀ _ hl.ne']

theorem image_left {a s : ℝ} (hs : 0 < s) :
    (fun x => (Real.arctan ((x - a) / s) + Real.pi) / lit) '' Iic (a + s * Real.tan lit) = Ioc (Real.pi / 2 / lit) 1 := by
  have hl : 0 < lit := by have := three_lt; linarith
  have hl' := lit_lt
  ext u
  simp only [mem_image, mem_Iic, mem_Ioc]
  constructor
  · rintro ⟨x, hx, rfl⟩
    have h1 : (x - a) / s ≤ Real.tan lit := by rw [div_le_iff₀ hs]; linarith
    have h2 := Real.arctan_mono h1
    rw [arctan_tan_lit] at h2
    have h3 := Real.neg_pi_div_two_lt_arctan ((x - a) / s)
    exact ⟨div_lt_div_of_pos_right (by linarith) hl, (div_le_one hl).2 (by linarith)⟩
  · rintro ⟨h0, h1⟩
    rw [div_lt_iff₀ hl] at h0
    have h2 : u * lit ≤ lit := by nlinarith
    have hp := Real.pi_pos
    refine ⟨a + s * Real.tan (u * lit), ?_, ?_⟩
    · have : Real.tan (u * lit) ≤ Real.tan lit := by
        rw [← Real.arctan_le_arctan_iff, arctan_tan_lit, ← Real.tan_sub_pi, Real.arctan_tan (by linarith) (by linarith)]
        linarith
      nlinarith
    · rw [add_sub_cancel_left, mul_div_cancel_left₀ _ hs.ne', ← Real.tan_sub_pi, Real.arctan_tan (by linarith) (by linarith), sub_add_cancel,
        mul_div_cancel_right₀ _ hl.ne']

theorem tan_right {a s x : ℝ} (hs : s ≠ 0) : s * Real.tan (lit * (Real.arctan ((x - a) / s) / lit)) + a = x := by
  have hl : lit ≠ 0 := by have := three_lt; linarith
  rw [mul_div_cancel₀ _ hl, Real.tan_arctan]
  field_simp
  ring

theorem tan_left {a s x : ℝ} (hs : s ≠ 0) : s * Real.tan (lit * ((Real.arctan ((x - a) / s) + Real.pi) / lit)) + a = x := by
  have hl : lit ≠ 0 := by have := three_lt; linarith
  rw [mul_div_cancel₀ _ hl, Real.tan_add_pi, Real.tan_arctan]
  field_simp
  ring

/-- The density of the proposals. -/
noncomputable def dens (a s x : ℝ) : ℝ := 1 / (1 + ((x - a) / s) ^ 2) * (1 / s) / lit

theorem hasDerivAt_arctan (a s x : ℝ) : HasDerivAt (fun x => Real.arctan ((x - a) / s)) (1 / (1 + ((x - a) / s) ^ 2) * (1 / s)) x :=
  HasDerivAt.arctan (((hasDerivAt_id x).sub_const a).div_const s)

theorem arctan_inj {a s : ℝ} (hs : s ≠ 0) {x y : ℝ} (h : Real.arctan ((x - a) / s) = Real.arctan ((y - a) / s)) : x = y := by
  have := Real.arctan_injective h
  field_simp at this
  linarith

theorem unit_split : unitM = volume.restrict (Ico 0 (Real.pi / 2 / lit) ∪ Ioc (Real.pi / 2 / lit) 1) := by
  refine Measure.restrict_congr_set ?_
  have hl : 0 < lit := by have := three_lt; linarith
  have h1 : 0 ≤ Real.pi / 2 / lit := by have := Real.pi_pos; positivity
  have h2 : Real.pi / 2 / lit ≤ 1 := by rw [div_le_one hl]; have := three_lt; have := Real.pi_lt_four; linarith
  have e : Icc (0 : ℝ) 1 = Ico 0 (Real.pi / 2 / lit) ∪ Icc (Real.pi / 2 / lit) 1 := (Ico_union_Icc_eq_Icc h1 h2).symm
  refine Ico_ae_eq_Icc.trans ?_
  rw [e]
  exact ae_eq_set_union (ae_eq_refl _) Ioc_ae_eq_Icc.symm

theorem lintegral_proposal {a s : ℝ} (hs : 0 < s) (F : ℝ → ℝ≥0∞) :
    ∫⁻ u, F (s * Real.tan (lit * u) + a) ∂unitM = ∫⁻ x in Iic (a + s * Real.tan lit) ∪ Ici a, ENNReal.ofReal (dens a s x) * F x := by
  have hl : 0 < lit := by have := three_lt; linarith
  have hd : ∀ x, |dens a s x| = dens a s x := fun x => abs_of_nonneg (by rw [dens]; positivity)
  have hdisj : Disjoint (Iic (a + s * Real.tan lit)) (Ici a) := by
    rw [Set.disjoint_left]
    intro x h1 h2
    have h1 : x ≤ a + s * Real.tan lit := h1
    have h2 : a ≤ x := h2
    have := mul_neg_of_pos_of_neg hs tan_lit_neg
    linarith
  have hdisj' : Disjoint (Ico 0 (Real.pi / 2 / lit)) (Ioc (Real.pi / 2 / lit) 1) := by
    rw [Set.disjoint_left]
    intro x h1 h2
    exact absurd h1.2 (not_lt.2 h2.1.le)
  rw [unit_split, lintegral_union measurableSet_Ioc hdisj', lintegral_union measurableSet_Ici hdisj, add_comm]
  congr 1
  · rw [← image_left hs, lintegral_image_eq_lintegral_abs_deriv_mul measurableSet_Iic (f' := dens a s)]
    · refine lintegral_congr fun x => ?_
      rw [hd, tan_left hs.ne']
    · intro x _
      exact (((hasDerivAt_arctan a s x).add_const _).div_const lit).hasDerivWithinAt
    · intro x _ y _ h
      have h' : (Real.arctan ((x - a) / s) + Real.pi) / lit = (Real.arctan ((y - a) / s) + Real.pi) / lit := h
      rw [div_left_inj' hl.ne', add_left_inj] at h'
      exact arctan_inj hs.ne' h'
  · rw [← image_right hs, lintegral_image_eq_lintegral_abs_deriv_mul measurableSet_Ici (f' := dens a s)]
    · refine lintegral_congr fun x => ?_
      rw [hd, tan_right hs.ne']
    · intro x _
      exact ((hasDerivAt_arctan a s x).div_const lit).hasDerivWithinAt
    · intro x _ y _ h
      have h' : Real.arctan ((x - a) / s) / lit = Real.arctan ((y - a) / s) / lit := h
      rw [div_left_inj' hl.ne'] at h'
      exact arctan_inj hs.ne' h'

/-! ## The accepted pairs -/

/-- The bound as a function of the tangent. -/
noncomputable def bnd (a s y : ℝ) : ℝ := (1 + y * y) * Real.exp (a * Real.log ((s * y + a) / a) - s * y)

/-- The acceptance rate, if the proposals were not limited to the values that the literal `pi` reaches. -/
noncomputable def rate (a s : ℝ) : ℝ := Real.Gamma (a + 1) * Real.exp a / (a ^ a * s * lit)

theorem rate_pos {a s : ℝ} (ha : 0 < a) (hs : 0 < s) : 0 < rate a s := by
  have hl : 0 < lit := by have := three_lt; linarith
  have := Real.Gamma_pos_of_pos (show 0 < a + 1 by linarith)
  have := Real.rpow_pos_of_pos ha a
  rw [rate]; positivity

theorem dens_bnd {a s x : ℝ} (ha : 0 < a) (hs : 0 < s) (hx : 0 < x) : dens a s x * bnd a s ((x - a) / s) = rate a s * gammaPDFReal (a + 1) 1 x := by
  have hl : lit ≠ 0 := by have := three_lt; linarith
  have hG := (Real.Gamma_pos_of_pos (show 0 < a + 1 by linarith)).ne'
  have hp := (Real.rpow_pos_of_pos ha a).ne'
  have e1 : s * ((x - a) / s) = x - a := mul_div_cancel₀ _ hs.ne'
  have e2 : Real.exp (a * Real.log (x / a)) = x ^ a / a ^ a := by
    rw [← Real.div_rpow hx.le ha.le, Real.rpow_def_of_pos (div_pos hx ha), mul_comm]
  have e3 : Real.exp (a * Real.log (x / a) - (x - a)) = x ^ a / a ^ a * (Real.exp a * Real.exp (-x)) := by
    rw [← e2, ← Real.exp_add, ← Real.exp_add]; congr 1; ring
  have hy : (1 : ℝ) + ((x - a) / s) ^ 2 ≠ 0 := by positivity
  rw [dens, bnd, rate, gammaPDFReal, if_pos hx.le, e1, sub_add_cancel, e3, add_sub_cancel_right, Real.one_rpow, one_mul, ← sq]
  generalize (1 : ℝ) + ((x - a) / s) ^ 2 = z at hy
  field_simp

theorem measurable_tan : Measurable Real.tan := by
  have : Real.tan = fun x => Real.sin x / Real.cos x := funext Real.tan_eq_sin_div_cos
  rw [this]
  exact Real.measurable_sin.div Real.measurable_cos

/-- The values that the proposals reach. -/
noncomputable def reach (a s : ℝ) : Set ℝ := Iic (a + s * Real.tan lit) ∪ Ici a

theorem measurableSet_reach (a s : ℝ) : MeasurableSet (reach a s) := measurableSet_Iic.union measurableSet_Ici

/-- The accepted pairs with a value in `B`. -/
def acc (a s : ℝ) (B : Set ℝ) : Set (ℝ × ℝ) :=
  {z | 0 < s * Real.tan (lit * z.1) + a ∧ z.2 ≤ bnd a s (Real.tan (lit * z.1)) ∧ s * Real.tan (lit * z.1) + a ∈ B}

theorem measurable_bnd (a s : ℝ) : Measurable (bnd a s) := by
  unfold bnd
  fun_prop

theorem measurableSet_acc (a s : ℝ) {B : Set ℝ} (hB : MeasurableSet B) : MeasurableSet (acc a s B) := by
  have ht : Measurable fun z : ℝ × ℝ => Real.tan (lit * z.1) := measurable_tan.comp (measurable_fst.const_mul _)
  have hx : Measurable fun z : ℝ × ℝ => s * Real.tan (lit * z.1) + a := (ht.const_mul _).add_const _
  refine (measurableSet_lt measurable_const hx).inter ((measurableSet_le measurable_snd ((measurable_bnd a s).comp ht)).inter (hx hB))

theorem measure_acc {a s : ℝ} (ha : 0 < a) (hs : 0 < s) (hs2 : s ^ 2 = 2 * a + 1) {B : Set ℝ} (hB : MeasurableSet B) :
    (unitM.prod unitM) (acc a s B) = ENNReal.ofReal (rate a s) * gammaMeasure (a + 1) 1 (B ∩ reach a s) := by
  classical
  have hl : 0 < lit := by have := three_lt; linarith
  rw [Measure.prod_apply (measurableSet_acc a s hB)]
  have e1 : ∀ u : ℝ, unitM (Prod.mk u ⁻¹' acc a s B) = (Ioi 0 ∩ B).indicator (fun x => ENNReal.ofReal (bnd a s ((x - a) / s))) (s * Real.tan (lit * u) + a) := by
    intro u
    by_cases h : s * Real.tan (lit * u) + a ∈ Ioi 0 ∩ B
    · rw [indicator_of_mem h, add_sub_cancel_right, mul_div_cancel_left₀ _ hs.ne', ← unitM_Iic (show bnd a s (Real.tan (lit * u)) ≤ 1 from accept_le_one ha hs hs2 h.1)]
      congr 1
      ext w
      exact ⟨fun hw => hw.2.1, fun hw => ⟨h.1, hw, h.2⟩⟩
    · rw [indicator_of_notMem h]
      have : Prod.mk u ⁻¹' acc a s B = ∅ := by
        ext w
        simp only [mem_preimage, mem_empty_iff_false, iff_false]
        exact fun hw => h ⟨hw.1, hw.2.2⟩
      rw [this, measure_empty]
  rw [lintegral_congr e1, lintegral_proposal hs]
  have e2 : ∀ x, ENNReal.ofReal (dens a s x) * (Ioi 0 ∩ B).indicator (fun x => ENNReal.ofReal (bnd a s ((x - a) / s))) x =
      (Ioi 0 ∩ B).indicator (fun x => ENNReal.ofReal (rate a s) * gammaPDF (a + 1) 1 x) x := by
    intro x
    by_cases h : x ∈ Ioi 0 ∩ B
    · rw [indicator_of_mem h, indicator_of_mem h, ← ENNReal.ofReal_mul (by rw [dens]; positivity), dens_bnd ha hs h.1, ENNReal.ofReal_mul (rate_pos ha hs).le]
      rfl
    · rw [indicator_of_notMem h, indicator_of_notMem h, mul_zero]
  rw [lintegral_congr e2, lintegral_indicator (measurableSet_Ioi.inter hB), Measure.restrict_restrict (measurableSet_Ioi.inter hB),
    lintegral_const_mul _ (measurable_gammaPDF _ _)]
  congr 1
  rw [gammaMeasure, withDensity_apply _ (hB.inter (measurableSet_reach a s)), ← lintegral_inter_add_sdiff _ (B ∩ reach a s) measurableSet_Ioi]
  have e3 : ∫⁻ x in (B ∩ reach a s) \ Ioi 0, gammaPDF (a + 1) 1 x = 0 := by
    refine (setLIntegral_congr_fun ((hB.inter (measurableSet_reach a s)).diff measurableSet_Ioi) (g := fun _ => 0) fun x hx => ?_).trans (lintegral_zero)
    have hx : x ≤ 0 := not_lt.1 hx.2
    rcases hx.lt_or_eq with h | h
    · exact gammaPDF_of_neg h
    · rw [h, gammaPDF_of_nonneg le_rfl, add_sub_cancel_right, Real.zero_rpow ha.ne', mul_zero, zero_mul, ENNReal.ofReal_zero]
  rw [e3, add_zero]
  congr 2
  ext x
  simp only [mem_inter_iff]
  change ((_ ∧ _) ∧ x ∈ reach a s) ↔ _
  tauto

/-! ## The law of the results -/

theorem rate_pdf {a s x : ℝ} (ha : 0 < a) (hs : 0 < s) (hx : 0 < x) :
    rate a s * gammaPDFReal (a + 1) 1 x = Real.exp (a * Real.log (x / a) - (x - a)) / (s * lit) := by
  have hl : lit ≠ 0 := by have := three_lt; linarith
  have hy : (1 : ℝ) + ((x - a) / s) ^ 2 ≠ 0 := by positivity
  rw [← dens_bnd ha hs hx, dens, bnd, mul_div_cancel₀ _ hs.ne', sub_add_cancel, ← sq]
  generalize (1 : ℝ) + ((x - a) / s) ^ 2 = z at hy
  field_simp

theorem lit_mul_exp : 1 / 24 ≤ Real.exp (-2) / lit := by
  have h1 : lit < 3.1416 := by rw [Boost.Random.Cauchy.lit]; norm_num
  have h2 := three_lt
  have h3 := Real.exp_one_lt_d9
  have h4 : Real.exp (-2) = 1 / Real.exp 1 ^ 2 := by
    rw [← Real.exp_nat_mul, Real.exp_neg, one_div]; norm_num
  have h5 : (0 : ℝ) < Real.exp 1 := Real.exp_pos 1
  have h6 : Real.exp 1 ^ 2 < 7.3891 := by nlinarith
  rw [h4, div_div]
  refine one_div_le_one_div_of_le (by positivity) ?_
  nlinarith [sq_nonneg (Real.exp 1)]

theorem exponent_ge {a s x : ℝ} (ha : 0 < a) (hs : 0 < s) (hs2 : s ^ 2 = 2 * a + 1) (h1 : a ≤ x) (h2 : x ≤ a + s) : -2 ≤ a * Real.log (x / a) - (x - a) := by
  have hx : 1 ≤ x / a := (one_le_div ha).2 h1
  rcases le_total a 1 with h | h
  · have : 0 ≤ a * Real.log (x / a) := mul_nonneg ha.le (Real.log_nonneg hx)
    have : s ≤ 2 := by nlinarith
    linarith
  · have hv : 0 ≤ (x - a) / a := div_nonneg (by linarith) ha.le
    have hl := Real.le_log_one_add_of_nonneg hv
    have e : 1 + (x - a) / a = x / a := by field_simp; ring
    rw [e] at hl
    have h3 := mul_le_mul_of_nonneg_left hl ha.le
    refine le_trans ?_ (sub_le_sub_right h3 _)
    have e2 : a * (2 * ((x - a) / a) / ((x - a) / a + 2)) - (x - a) = -((x - a) ^ 2 / (x + a)) := by
      have : x + a ≠ 0 := by linarith
      have : (x - a) / a + 2 ≠ 0 := by positivity
      have : x - a + 2 * a ≠ 0 := by linarith
      have e3 : (x - a) / a + 2 = (x + a) / a := by field_simp; ring
      rw [e3]
      field_simp
      ring
    rw [e2, neg_le_neg_iff, div_le_iff₀ (by linarith)]
    nlinarith

theorem gamma_setLIntegral {a s : ℝ} {B : Set ℝ} (hB : MeasurableSet B) :
    ENNReal.ofReal (rate a s) * gammaMeasure (a + 1) 1 B = ∫⁻ x in B, ENNReal.ofReal (rate a s) * gammaPDF (a + 1) 1 x := by
  rw [gammaMeasure, withDensity_apply _ hB, lintegral_const_mul _ (measurable_gammaPDF _ _)]

/-- The acceptance rate is at least one in 24. -/
theorem rate_reach {a s : ℝ} (ha : 0 < a) (hs : 0 < s) (hs2 : s ^ 2 = 2 * a + 1) :
    ENNReal.ofReal (1 / 24) ≤ ENNReal.ofReal (rate a s) * gammaMeasure (a + 1) 1 (reach a s) := by
  have hsub : Icc a (a + s) ⊆ reach a s := fun x hx => Or.inr hx.1
  refine le_trans ?_ (mul_le_mul_right (measure_mono hsub) _)
  rw [gamma_setLIntegral measurableSet_Icc]
  have hl : 0 < lit := by have := three_lt; linarith
  calc ENNReal.ofReal (1 / 24) ≤ ENNReal.ofReal (Real.exp (-2) / (s * lit)) * volume (Icc a (a + s)) := by
        rw [Real.volume_Icc, add_sub_cancel_left, ← ENNReal.ofReal_mul (by positivity)]
        refine ENNReal.ofReal_le_ofReal (lit_mul_exp.trans (le_of_eq ?_))
        field_simp
    _ = ∫⁻ _ in Icc a (a + s), ENNReal.ofReal (Real.exp (-2) / (s * lit)) := by rw [setLIntegral_const]
    _ ≤ _ := by
        refine setLIntegral_mono' measurableSet_Icc fun x hx => ?_
        rw [gammaPDF, ← ENNReal.ofReal_mul (rate_pos ha hs).le, rate_pdf ha hs (lt_of_lt_of_le ha hx.1)]
        refine ENNReal.ofReal_le_ofReal (div_le_div_of_nonneg_right (Real.exp_le_exp.2 (exponent_ge ha hs hs2 hx.1 hx.2)) (by positivity))

theorem tan_lit : -Real.tan lit ≤ 2 / 10 ^ 20 := by
  have h1 := lit_lt; have h2 := lit_gt
  have e : -Real.tan lit = Real.tan (Real.pi - lit) := by rw [Real.tan_pi_sub]
  rw [e, Real.tan_eq_sin_div_cos]
  have hx0 : 0 < Real.pi - lit := by linarith
  have hx1 : Real.pi - lit < 1 / 10 ^ 20 := by linarith
  have hc := Real.one_sub_sq_div_two_le_cos (x := Real.pi - lit)
  have hs := Real.sin_lt hx0
  have hsq : (Real.pi - lit) ^ 2 ≤ 1 := by nlinarith
  rw [div_le_iff₀ (by linarith)]
  nlinarith

/-- The probability of the values that are not reached. -/
theorem gamma_unreached {a s : ℝ} (ha : 0 < a) (hs : 0 < s) (hs2 : s ^ 2 = 2 * a + 1) : (gammaMeasure (a + 1) 1 (reach a s)ᶜ).toReal ≤ 2 / 10 ^ 19 := by
  have hl : 0 < lit := by have := three_lt; linarith
  have hprob := isProbabilityMeasure_gammaMeasure (a := a + 1) (r := 1) (by linarith) one_pos
  have e : (reach a s)ᶜ = Ioo (a + s * Real.tan lit) a := by
    ext x; simp only [reach, mem_compl_iff, mem_union, mem_Iic, mem_Ici, mem_Ioo, not_or, not_le]
  have h1 : ENNReal.ofReal (rate a s) * gammaMeasure (a + 1) 1 (reach a s)ᶜ ≤ ENNReal.ofReal (-Real.tan lit / lit) := by
    rw [gamma_setLIntegral (measurableSet_reach a s).compl, e]
    calc ∫⁻ x in Ioo (a + s * Real.tan lit) a, ENNReal.ofReal (rate a s) * gammaPDF (a + 1) 1 x
        ≤ ∫⁻ _ in Ioo (a + s * Real.tan lit) a, ENNReal.ofReal (1 / (s * lit)) := by
          refine setLIntegral_mono' measurableSet_Ioo fun x _ => ?_
          rw [gammaPDF, ← ENNReal.ofReal_mul (rate_pos ha hs).le]
          refine ENNReal.ofReal_le_ofReal ?_
          rcases lt_trichotomy x 0 with h | h | h
          · rw [gammaPDFReal, if_neg (not_le.2 h), mul_zero]; positivity
          · rw [h, gammaPDFReal, if_pos le_rfl, add_sub_cancel_right, Real.zero_rpow ha.ne', mul_zero, zero_mul, mul_zero]; positivity
          · rw [rate_pdf ha hs h]
            refine div_le_div_of_nonneg_right (Real.exp_le_one_iff.2 ?_) (by positivity)
            have := mul_le_mul_of_nonneg_left (Real.log_le_sub_one_of_pos (div_pos h ha)) ha.le
            rw [mul_sub, mul_div_cancel₀ _ ha.ne'] at this
            linarith
      _ = ENNReal.ofReal (-Real.tan lit / lit) := by
          rw [setLIntegral_const, Real.volume_Ioo, ← ENNReal.ofReal_mul (by positivity)]
          congr 1
          field_simp
          ring
  have h2 := rate_reach ha hs hs2
  have h3 : (1 : ℝ) / 24 ≤ rate a s := by
    have : ENNReal.ofReal (1 / 24) ≤ ENNReal.ofReal (rate a s) := h2.trans (mul_le_of_le_one_right zero_le prob_le_one)
    exact (ENNReal.ofReal_le_ofReal_iff (rate_pos ha hs).le).1 this
  have ht := tan_lit
  have hn := tan_lit_neg
  have h4 := ENNReal.toReal_mono (by simp) h1
  rw [ENNReal.toReal_mul, ENNReal.toReal_ofReal (rate_pos ha hs).le, ENNReal.toReal_ofReal (div_nonneg (by linarith) hl.le)] at h4
  have h5 : -Real.tan lit / lit ≤ 2 / 10 ^ 20 / 3 := div_le_div₀ (by positivity) ht (by norm_num) three_lt.le
  have h6 : 0 ≤ (gammaMeasure (a + 1) 1 (reach a s)ᶜ).toReal := ENNReal.toReal_nonneg
  have h7 := mul_le_mul_of_nonneg_right h3 h6
  linarith

theorem large_zero (d : Dist ℝ) (l : List ℝ) : large exactTrig d idealNumbers 0 l = .more := rfl

theorem large_step {alpha : ℝ} (d : Dist ℝ) (hd : d.alpha = alpha) (m : Nat) (u w : ℝ) (l : List ℝ) : large exactTrig d idealNumbers (m + 1) (u :: w :: l) =
    if Real.sqrt (2 * alpha - 1) * Real.tan (lit * u) + (alpha - 1) ≤ 0 then large exactTrig d idealNumbers m (w :: l)
    else if bnd (alpha - 1) (Real.sqrt (2 * alpha - 1)) (Real.tan (lit * u)) < w then large exactTrig d idealNumbers m l
    else .done ((Real.sqrt (2 * alpha - 1) * Real.tan (lit * u) + (alpha - 1)) * d.beta) l := by
  subst hd
  rw [bnd, ← add_sub_assoc]
  rfl

/-- The loop after at most `m` iterations. -/
theorem large_chance {alpha beta : ℝ} (ha : 1 < alpha) (t : ℝ) (m N : Nat) (hN : 2 * m ≤ N) :
    chance N (fun l => Spec.Run.Le (large exactTrig (init exactOps alpha beta) idealNumbers m l) t) =
      geo (ENNReal.ofReal (rate (alpha - 1) (Real.sqrt (2 * alpha - 1))) * gammaMeasure alpha 1 ({x | x * beta ≤ t} ∩ reach (alpha - 1) (Real.sqrt (2 * alpha - 1))))
        (ENNReal.ofReal (rate (alpha - 1) (Real.sqrt (2 * alpha - 1))) * gammaMeasure alpha 1 (reach (alpha - 1) (Real.sqrt (2 * alpha - 1)))) m := by
  have hs : 0 < Real.sqrt (2 * alpha - 1) := Real.sqrt_pos.2 (by linarith)
  have hs2 : Real.sqrt (2 * alpha - 1) ^ 2 = 2 * (alpha - 1) + 1 := by rw [Real.sq_sqrt (by linarith)]; ring
  have hB : MeasurableSet {x : ℝ | x * beta ≤ t} := measurableSet_le (measurable_id.mul_const _) measurable_const
  have h1 := measure_acc (show 0 < alpha - 1 by linarith) hs hs2 hB
  have h2 := measure_acc (show 0 < alpha - 1 by linarith) hs hs2 MeasurableSet.univ
  rw [univ_inter, sub_add_cancel] at h2
  rw [sub_add_cancel] at h1
  rw [← h1, ← h2]
  refine chance_loop (P := fun r => Spec.Run.Le r t) (L := fun m l => large exactTrig (init exactOps alpha beta) idealNumbers m l)
    (U := {u | Real.sqrt (2 * alpha - 1) * Real.tan (lit * u) + (alpha - 1) ≤ 0})
    (measurableSet_acc _ _ hB) (measurableSet_acc _ _ MeasurableSet.univ) (fun z hz => ⟨hz.1, hz.2.1, trivial⟩) ?_ ?_ ?_ ?_ m N hN
  · rintro l ⟨v, s, h, _⟩
    cases h
  · intro m u hu w l
    have hu' : Real.sqrt (2 * alpha - 1) * Real.tan (lit * u) + (alpha - 1) ≤ 0 := hu
    refine ⟨fun h => absurd h.1 (not_lt.2 hu'), ?_⟩
    rw [large_step (alpha := alpha) _ rfl, if_pos hu']
  · intro m u hu w l hz
    have hu' : ¬ Real.sqrt (2 * alpha - 1) * Real.tan (lit * u) + (alpha - 1) ≤ 0 := hu
    rw [large_step (alpha := alpha) _ rfl, if_neg hu', if_pos]
    by_contra hc
    exact hz ⟨not_le.1 hu', not_lt.1 hc, trivial⟩
  · intro m u hu w l hz
    have hu' : ¬ Real.sqrt (2 * alpha - 1) * Real.tan (lit * u) + (alpha - 1) ≤ 0 := hu
    rw [large_step (alpha := alpha) _ rfl, if_neg hu', if_neg (not_lt.2 hz.2.1)]
    constructor
    · rintro ⟨v, s, h, hv⟩
      cases h
      exact ⟨hz.1, hz.2.1, hv⟩
    · intro h
      exact ⟨_, _, rfl, h.2.2⟩

end Boost.Random.Gamma
