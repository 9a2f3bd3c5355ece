import Verif.Spec.Ziggurat
import Verif.Proofs.ZigguratArea

/-!
# Probabilities over independent draws
-/

namespace Boost.Random.Spec
open Zig MeasureTheory Set
open scoped ENNReal

theorem prob_congr {n : Nat} {p q : List (ℝ × Fin 256 × ℝ) → Prop} (h : ∀ l, p l ↔ q l) : prob n p = prob n q := by
  rw [show p = q from funext fun l => propext (h l)]

theorem lintegral_sq_le_one {F : ℝ × ℝ → ℝ≥0∞} (h : ∀ a, F a ≤ 1) : ∫⁻ a in sq, F a ≤ 1 := by
  calc ∫⁻ a in sq, F a ≤ ∫⁻ _ in sq, 1 := lintegral_mono h
    _ = 1 := by rw [setLIntegral_one, volume_sq]

theorem prob_le_one (n : Nat) (p : List (ℝ × Fin 256 × ℝ) → Prop) : prob n p ≤ 1 := by
  induction n generalizing p with
  | zero => rw [prob]; split <;> simp
  | succ n ih =>
    rw [prob]
    calc ∑ i : Fin 256, (∫⁻ a in Ico (0 : ℝ) 1 ×ˢ Ico (0 : ℝ) 1, prob n fun l => p ((a.1, i, a.2) :: l)) / 256 ≤ ∑ _i : Fin 256, (1 : ℝ≥0∞) / 256 :=
          Finset.sum_le_sum fun i _ => ENNReal.div_le_div_right (lintegral_sq_le_one fun a => ih _) _
      _ = 1 := by
          rw [Finset.sum_const, Finset.card_univ, Fintype.card_fin, nsmul_eq_mul]
          exact ENNReal.mul_div_cancel (by norm_num) (by norm_num)

theorem prob_ne_top (n : Nat) (p : List (ℝ × Fin 256 × ℝ) → Prop) : prob n p ≠ ⊤ := (prob_le_one n p).trans_lt (by simp) |>.ne

theorem prob_true (n : Nat) {p : List (ℝ × Fin 256 × ℝ) → Prop} (h : ∀ l, p l) : prob n p = 1 := by
  induction n generalizing p with
  | zero => rw [prob, if_pos (h [])]
  | succ n ih =>
    rw [prob]
    have : ∀ i : Fin 256, (∫⁻ a in Ico (0 : ℝ) 1 ×ˢ Ico (0 : ℝ) 1, prob n fun l => p ((a.1, i, a.2) :: l)) / 256 = 1 / 256 := by
      intro i
      rw [lintegral_congr fun a : ℝ × ℝ => ih (p := fun l => p ((a.1, i, a.2) :: l)) fun l => h _, setLIntegral_one]
      exact congrArg (· / 256) volume_sq
    rw [Finset.sum_congr rfl fun i _ => this i, Finset.sum_const, Finset.card_univ, Fintype.card_fin, nsmul_eq_mul]
    exact ENNReal.mul_div_cancel (by norm_num) (by norm_num)

theorem prob_false (n : Nat) {p : List (ℝ × Fin 256 × ℝ) → Prop} (h : ∀ l, ¬ p l) : prob n p = 0 := by
  induction n generalizing p with
  | zero => rw [prob, if_neg (h [])]
  | succ n ih =>
    rw [prob]
    refine Finset.sum_eq_zero fun i _ => ?_
    rw [lintegral_congr fun a : ℝ × ℝ => ih (p := fun l => p ((a.1, i, a.2) :: l)) fun l => h _, lintegral_zero, ENNReal.zero_div]

theorem prob_succ_toReal (n : Nat) (p : List (ℝ × Fin 256 × ℝ) → Prop) :
    (prob (n + 1) p).toReal = (∑ i : Fin 256, (∫⁻ a in sq, prob n fun l => p ((a.1, i, a.2) :: l)).toReal) / 256 := by
  have hfin : ∀ i : Fin 256, ∫⁻ a in sq, (prob n fun l => p ((a.1, i, a.2) :: l)) ≠ ⊤ := fun i =>
    ((lintegral_sq_le_one fun a => prob_le_one n _).trans_lt (by simp)).ne
  rw [prob]
  change (∑ i : Fin 256, (∫⁻ a in sq, prob n fun l => p ((a.1, i, a.2) :: l)) / 256).toReal = _
  rw [ENNReal.toReal_sum fun i _ => ENNReal.div_ne_top (hfin i) (by norm_num), Finset.sum_div]
  refine Finset.sum_congr rfl fun i _ => ?_
  rw [ENNReal.toReal_div]
  rfl

theorem real_sq : volume.real sq = 1 := by rw [Measure.real, volume_sq, ENNReal.toReal_one]

theorem real_diff {A : Set (ℝ × ℝ)} (hA : MeasurableSet A) : volume.real (sq ∩ Aᶜ) = 1 - volume.real (sq ∩ A) := by
  have h := measureReal_inter_add_sdiff (μ := volume) (s := sq) hA (by rw [volume_sq]; simp)
  rw [real_sq] at h
  rw [← sdiff_eq]
  linarith

/-- The integral of a function with the values 1, 0 and `c`. -/
theorem lintegral_three {R A : Set (ℝ × ℝ)} (hR : MeasurableSet R) (hA : MeasurableSet A) (hRA : R ⊆ A) {c : ℝ≥0∞} (hc : c ≤ 1) {F : ℝ × ℝ → ℝ≥0∞}
    (h1 : ∀ a ∈ sq, a ∈ R → F a = 1) (h2 : ∀ a ∈ sq, a ∈ A → a ∉ R → F a = 0) (h3 : ∀ a ∈ sq, a ∉ A → F a = c) :
    (∫⁻ a in sq, F a).toReal = volume.real (sq ∩ R) + c.toReal * (1 - volume.real (sq ∩ A)) := by
  have e : ∫⁻ a in sq, F a = ∫⁻ a in sq, (R.indicator (fun _ => 1) a + Aᶜ.indicator (fun _ => c) a) := by
    refine setLIntegral_congr_fun measurableSet_sq fun a ha => ?_
    by_cases hr : a ∈ R
    · have hr' : a ∉ Aᶜ := fun h => h (hRA hr)
      simp only [indicator_of_mem hr, indicator_of_notMem hr', add_zero]
      exact h1 a ha hr
    · by_cases ha' : a ∈ A
      · have hr' : a ∉ Aᶜ := fun h => h ha'
        simp only [indicator_of_notMem hr, indicator_of_notMem hr', add_zero]
        exact h2 a ha ha' hr
      · have hr' : a ∈ Aᶜ := ha'
        simp only [indicator_of_notMem hr, indicator_of_mem hr', zero_add]
        exact h3 a ha ha'
  have hfin : ∀ S : Set (ℝ × ℝ), volume (sq ∩ S) ≠ ⊤ := fun S => ((measure_mono inter_subset_left).trans_lt (by rw [volume_sq]; simp : volume sq < ⊤)).ne
  rw [e, lintegral_add_left (measurable_const.indicator hR), lintegral_indicator_const hR, lintegral_indicator_const hA.compl,
    Measure.restrict_apply hR, Measure.restrict_apply hA.compl, one_mul, inter_comm R, inter_comm Aᶜ, ENNReal.toReal_add (hfin R)
      (ENNReal.mul_ne_top (hc.trans_lt (by simp)).ne (hfin _)), ENNReal.toReal_mul]
  have := real_diff hA
  rw [Measure.real] at this
  rw [this]
  rfl

end Boost.Random.Spec
