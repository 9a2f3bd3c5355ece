import Verif.Proofs.Chance
import Verif.Proofs.Trd

/-!
# Loops that take two uniform numbers in each round
-/

namespace Boost.Random.Spec
open MeasureTheory Set Trd
open scoped ENNReal

theorem prod_unit : unitM.prod unitM = volume.restrict square := by
  rw [unitM, Measure.prod_restrict, ← Measure.volume_eq_prod]
  rfl

theorem measurable_square : MeasurableSet square := measurableSet_Ico.prod measurableSet_Ico

theorem volume_square : volume square = 1 := by
  rw [square, Measure.volume_eq_prod, Measure.prod_prod, Real.volume_Ico]
  norm_num

theorem iterated {F : ℝ × ℝ → ℝ≥0∞} (hF : Measurable F) : ∫⁻ u, ∫⁻ w, F (u, w) ∂unitM ∂unitM = ∫⁻ x in square, F x := by
  rw [← prod_unit, lintegral_prod _ hF.aemeasurable]

theorem integral_two {A W : Set (ℝ × ℝ)} (hA : MeasurableSet A) (hW : MeasurableSet W) (hA1 : A ⊆ square) (hW1 : W ⊆ square) (c : ℝ≥0∞) :
    ∫⁻ u, ∫⁻ w, (A.indicator 1 (u, w) + W.indicator (fun _ => c) (u, w)) ∂unitM ∂unitM = volume A + volume W * c := by
  rw [iterated (F := fun x => A.indicator 1 x + W.indicator (fun _ => c) x) ((measurable_one.indicator hA).add (measurable_const.indicator hW)),
    lintegral_add_left (measurable_one.indicator hA), lintegral_indicator_one hA, lintegral_indicator hW, lintegral_const,
    Measure.restrict_apply hA, inter_eq_left.2 hA1, Measure.restrict_apply MeasurableSet.univ, univ_inter, Measure.restrict_apply hW, inter_eq_left.2 hW1, mul_comm c]

theorem pair_lower {p q : List ℝ → Prop} {n : Nat} {A W : Set (ℝ × ℝ)} (hA : MeasurableSet A) (hW : MeasurableSet W) (hA1 : A ⊆ square) (hW1 : W ⊆ square)
    (hd : ∀ x ∈ A, x ∉ W) (h1 : ∀ u w, (u, w) ∈ A → ∀ l, p (u :: w :: l)) (h2 : ∀ u w, (u, w) ∈ W → ∀ l, p (u :: w :: l) ↔ q l) :
    volume A + volume W * chance n q ≤ chance (n + 2) p := by
  rw [← integral_two hA hW hA1 hW1]
  refine lintegral_mono fun u => lintegral_mono fun w => ?_
  by_cases ha : (u, w) ∈ A
  · rw [indicator_of_mem ha, indicator_of_notMem (hd _ ha), add_zero]
    exact (chance_true n (h1 u w ha)).ge
  · rw [indicator_of_notMem ha, zero_add]
    by_cases hw : (u, w) ∈ W
    · rw [indicator_of_mem hw]
      exact (chance_congr (h2 u w hw)).ge
    · rw [indicator_of_notMem hw]
      exact zero_le

theorem pair_upper {p q : List ℝ → Prop} {n : Nat} {A W : Set (ℝ × ℝ)} (hA : MeasurableSet A) (hW : MeasurableSet W) (hA1 : A ⊆ square) (hW1 : W ⊆ square)
    (h : ∀ u w, (u, w) ∈ square → (u, w) ∈ A ∨ (∀ l, ¬ p (u :: w :: l)) ∨ (u, w) ∈ W ∧ ∀ l, p (u :: w :: l) ↔ q l) :
    chance (n + 2) p ≤ volume A + volume W * chance n q := by
  rw [← integral_two hA hW hA1 hW1]
  have hm : MeasurableSet (Ico (0 : ℝ) 1) := measurableSet_Ico
  rw [chance_succ]
  refine lintegral_mono_ae ((ae_restrict_mem hm).mono fun u hu => ?_)
  rw [chance_succ]
  refine lintegral_mono_ae ((ae_restrict_mem hm).mono fun w hw => ?_)
  rcases h u w ⟨hu, hw⟩ with h1 | h1 | ⟨h1, h2⟩
  · rw [indicator_of_mem h1]
    exact (chance_le_one n _).trans (le_add_right le_rfl)
  · rw [chance_false n h1]
    exact zero_le
  · rw [indicator_of_mem h1, chance_congr h2]
    exact le_add_left le_rfl

end Boost.Random.Spec
