import Verif.Proofs.Chance

/-!
# Loops that reject some of their proposals
-/

namespace Boost.Random.Spec
open MeasureTheory Set
open scoped ENNReal

/-- The integral of a function with the values 1, 0 and `c`. -/
theorem lintegral_accept {μ : Measure (ℝ × ℝ)} [IsProbabilityMeasure μ] {R A : Set (ℝ × ℝ)} (hR : MeasurableSet R) (hA : MeasurableSet A) (hRA : R ⊆ A)
    {c : ℝ≥0∞} {F : ℝ × ℝ → ℝ≥0∞} (h1 : ∀ a ∈ R, F a = 1) (h2 : ∀ a ∈ A, a ∉ R → F a = 0) (h3 : ∀ a ∉ A, F a = c) :
    Measurable F ∧ ∫⁻ a, F a ∂μ = μ R + c * (1 - μ A) := by
  have e : F = fun a => R.indicator (fun _ => 1) a + Aᶜ.indicator (fun _ => c) a := by
    funext a
    by_cases hr : a ∈ R
    · have hr' : a ∉ Aᶜ := fun h => h (hRA hr)
      simp only [indicator_of_mem hr, indicator_of_notMem hr', add_zero]
      exact h1 a hr
    · by_cases ha : a ∈ A
      · have hr' : a ∉ Aᶜ := fun h => h ha
        simp only [indicator_of_notMem hr, indicator_of_notMem hr', add_zero]
        exact h2 a ha hr
      · have hr' : a ∈ Aᶜ := ha
        simp only [indicator_of_notMem hr, indicator_of_mem hr', zero_add]
        exact h3 a ha
  have m1 : Measurable (R.indicator fun _ => (1 : ℝ≥0∞)) := measurable_const.indicator hR
  have m2 : Measurable (Aᶜ.indicator fun _ => c) := measurable_const.indicator hA.compl
  rw [e]
  refine ⟨m1.add m2, ?_⟩
  rw [lintegral_add_left m1, lintegral_indicator_const hR, lintegral_indicator_const hA.compl, prob_compl_eq_one_sub hA, one_mul]

/-- The probability of a result that is counted, after `m` iterations: `r` is the probability of such a result in one iteration, `q` that of a
result. -/
noncomputable def geo (r q : ℝ≥0∞) : Nat → ℝ≥0∞
  | 0 => 0
  | m + 1 => r + geo r q m * (1 - q)

theorem geo_toReal {r q : ℝ≥0∞} (hr : r ≤ q) (hq : q ≤ 1) (m : Nat) : (geo r q m).toReal * q.toReal = r.toReal * (1 - (1 - q.toReal) ^ m) ∧ geo r q m ≠ ⊤ := by
  have hq' : q ≠ ⊤ := (hq.trans_lt (by simp)).ne
  have hr' : r ≠ ⊤ := (hr.trans_lt (lt_top_iff_ne_top.2 hq')).ne
  have h1 : (1 - q : ℝ≥0∞) ≠ ⊤ := by simp
  induction m with
  | zero => simp [geo]
  | succ m ih =>
    rw [geo]
    refine ⟨?_, ENNReal.add_ne_top.2 ⟨hr', ENNReal.mul_ne_top ih.2 h1⟩⟩
    rw [ENNReal.toReal_add hr' (ENNReal.mul_ne_top ih.2 h1), ENNReal.toReal_mul, ENNReal.toReal_sub_of_le hq (by simp), ENNReal.toReal_one, pow_succ]
    linear_combination (1 - q.toReal) * ih.1

/-- A loop that takes one or two numbers in an iteration. The pairs in `A` give a result, the pairs in `R` one that is counted; when the first
number is in `U` the second is not taken. -/
theorem chance_loop {σ α : Type} {L : Nat → List ℝ → Run σ α} {P : Run σ α → Prop} {R A : Set (ℝ × ℝ)} {U : Set ℝ} (hR : MeasurableSet R) (hA : MeasurableSet A)
    (hRA : R ⊆ A) (h0 : ∀ l, ¬ P (L 0 l)) (hU : ∀ m u, u ∈ U → ∀ w l, (u, w) ∉ A ∧ (P (L (m + 1) (u :: w :: l)) ↔ P (L m (w :: l))))
    (hN : ∀ m u, u ∉ U → ∀ w l, (u, w) ∉ A → (P (L (m + 1) (u :: w :: l)) ↔ P (L m l)))
    (hY : ∀ m u, u ∉ U → ∀ w l, (u, w) ∈ A → (P (L (m + 1) (u :: w :: l)) ↔ (u, w) ∈ R)) :
    ∀ m N, 2 * m ≤ N → chance N (fun l => P (L m l)) = geo ((unitM.prod unitM) R) ((unitM.prod unitM) A) m := by
  intro m
  induction m with
  | zero => exact fun N _ => chance_false N h0
  | succ m ih =>
    intro N hm
    obtain ⟨N, rfl⟩ : ∃ k, N = k + 2 := ⟨N - 2, by omega⟩
    classical
    have c1 := ih N (by omega)
    have c2 := ih (N + 1) (by omega)
    rw [geo]
    generalize geo ((unitM.prod unitM) R) ((unitM.prod unitM) A) m = c at *
    obtain ⟨hm, he⟩ := lintegral_accept (μ := unitM.prod unitM) hR hA hRA (c := c) (F := fun z => if z ∈ A then (if z ∈ R then 1 else 0) else c)
      (fun a ha => by simp [ha, hRA ha]) (fun a h1 h2 => by simp [h1, h2]) (fun a h => by simp [h])
    rw [← he, lintegral_prod _ hm.aemeasurable, chance_succ]
    refine lintegral_congr fun u => ?_
    by_cases hu : u ∈ U
    · have : chance (N + 1) (fun l => P (L (m + 1) (u :: l))) = chance (N + 1) (fun l => P (L m l)) := by
        rw [chance_succ, chance_succ]
        exact lintegral_congr fun w => chance_congr fun l => (hU m u hu w l).2
      rw [this, c2, lintegral_congr fun w => if_neg (hU m u hu w []).1]
      simp
    · rw [chance_succ]
      refine lintegral_congr fun w => ?_
      by_cases hz : (u, w) ∈ A
      · rw [if_pos hz, chance_congr fun l => hY m u hu w l hz, chance_const]
      · rw [if_neg hz, chance_congr fun l => hN m u hu w l hz, c1]

end Boost.Random.Spec
