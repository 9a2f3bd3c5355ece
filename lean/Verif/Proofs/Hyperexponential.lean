import Verif.Proofs.PiecewiseLinear
import Mathlib.Probability.CDF

/-!
# The laws of `piecewise_constant_distribution` and `hyperexponential_distribution`
-/

namespace Boost.Random
open Spec MeasureTheory Set ProbabilityTheory
open scoped ENNReal

theorem getD_nonneg {ws : List ℚ} (h : ∀ w ∈ ws, 0 ≤ w) (i : Nat) : 0 ≤ ws.getD i 0 := by
  rw [List.getD_eq_getElem?_getD]
  cases hi : ws[i]? with
  | none => simp
  | some w => exact h w (List.mem_of_getElem? hi)

/-- The probability of a part of an interval. -/
theorem cond_Ico {a b : ℝ} (h : a < b) (t : ℝ) : (volume[|Ico a b]) (Iic t) = ENNReal.ofReal (part a b t) := by
  have hc := clamp_mem h.le t
  have hb : 0 < b - a := by linarith
  rw [cond_apply measurableSet_Ico, Real.volume_Ico, ← ENNReal.div_eq_inv_mul]
  have e : volume (Ico a b ∩ Iic t) = ENNReal.ofReal (clamp a b t - a) := by
    have := lintegral_line (a := a) (b := b) (v := 1) (w := 1) h zero_le_one zero_le_one t
    rw [lintegral_indicator measurableSet_Ico, Measure.restrict_restrict measurableSet_Ico] at this
    simp only [sub_self, zero_mul, add_zero, ENNReal.ofReal_one, lintegral_const, one_mul, Measure.restrict_apply_univ] at this
    rw [this]
    congr 1
    unfold areaTo part
    field_simp
    ring
  rw [e]
  unfold part
  rw [ENNReal.ofReal_div_of_pos hb]

theorem pc_law (k : Nat) {d : RealDist.Pc} {ws : List ℚ} (hl : d.intervals.length = ws.length + 1) (hp : d.intervals.Pairwise (· < ·))
    (H : RealDist.HoldsReal ws d.bins) (hs : 0 < ws.sum) (t : ℝ) :
    chance (k + 3) (fun l => Spec.Run.Le (d.sample idealMixed l) t) = stepMeasure d.intervals ws (Iic t) := by
  unfold RealDist.Pc.sample
  rw [chance_congr (q := fun l => ∃ v s, Discrete.draw d.bins idealMixed l = .done v s ∧ _) fun l => runLe_bind, draw_law (k + 1) H hs,
    stepMeasure, Measure.sum_apply _ measurableSet_Iic, tsum_eq_sum (s := Finset.range ws.length)]
  · refine Finset.sum_congr rfl fun i hi => ?_
    have hi := Finset.mem_range.1 hi
    have g1 : i < d.intervals.length := by omega
    have g2 : i + 1 < d.intervals.length := by omega
    have hab : d.intervals[i] < d.intervals[i + 1] := List.pairwise_iff_getElem.1 hp _ _ _ _ (by omega)
    have hab' : (d.intervals[i] : ℝ) < d.intervals[i + 1] := by exact_mod_cast hab
    rw [Measure.smul_apply, smul_eq_mul, List.getD_eq_getElem?_getD (l := d.intervals), List.getD_eq_getElem?_getD (l := d.intervals)]
    simp only [List.getElem?_eq_getElem g1, List.getElem?_eq_getElem g2, Option.getD_some]
    rw [cond_Ico hab', chance_real k hab' t]
  · intro i hi
    rw [Finset.mem_range, not_lt] at hi
    rw [List.getD_eq_getElem?_getD (l := ws), List.getElem?_eq_none hi]
    simp

theorem chance_expo (k : Nat) {r : ℝ} (hr : 0 < r) (t : ℝ) :
    chance (k + 1) (fun l => Spec.Run.Le ((idealMixed.expo l).bind fun v s => .done (exactOps.fl (v / r)) s) t) = expMeasure r (Iic t) := by
  haveI : IsProbabilityMeasure (expMeasure r) := isProbabilityMeasure_expMeasure hr
  have h1 := cdf_expMeasure_eq hr t
  rw [cdf_eq_real, Measure.real] at h1
  rw [← ENNReal.ofReal_toReal (measure_ne_top (expMeasure r) (Iic t)), h1]
  have e : ∀ u ∈ Ioo (0 : ℝ) 1, (-Real.log (1 - u) / r ≤ t ↔ u ≤ 1 - Real.exp (-(r * t))) := by
    intro u hu
    rw [div_le_iff₀ hr, show (-Real.log (1 - u) ≤ t * r ↔ u ≤ 1 - Real.exp (-(r * t))) ↔ (-(r * t) ≤ Real.log (1 - u) ↔ Real.exp (-(r * t)) ≤ 1 - u) from by
      constructor <;> rintro ⟨a, b⟩ <;> constructor <;> intro c
      · linarith [a (by linarith)]
      · linarith [b (by linarith)]
      · linarith [a (by linarith)]
      · linarith [b (by linarith)]]
    exact Real.le_log_iff_exp_le (by linarith [hu.2])
  rw [chance_one (A := Iic (1 - Real.exp (-(r * t)))) measurableSet_Iic (unitM_mem.mono fun u hu l => (runLe_done (v := -Real.log (1 - u) / r)).trans (e u hu)),
    unitM_Iic (by linarith [Real.exp_pos (-(r * t))])]
  split
  · rfl
  · rename_i ht
    rw [ENNReal.ofReal_zero, ENNReal.ofReal_eq_zero]
    have : 1 ≤ Real.exp (-(r * t)) := Real.one_le_exp (by nlinarith [not_le.1 ht])
    linarith

theorem hyper_law (k : Nat) {d : Hyperexponential.Dist} {ps : List ℚ} (hl : ps.length = d.rates.length) (hr : ∀ r ∈ d.rates, 0 < r)
    (H : RealDist.HoldsReal ps d.dd) (hs : 0 < ps.sum) (t : ℝ) :
    chance (k + 3) (fun l => Spec.Run.Le (d.next exactOps idealMixed l) t) = hyperexponentialMeasure ps d.rates (Iic t) := by
  unfold Hyperexponential.Dist.next
  rw [chance_congr (q := fun l => ∃ v s, Discrete.draw d.dd idealMixed l = .done v s ∧ _) fun l => runLe_bind, draw_law (k + 1) H hs,
    hyperexponentialMeasure, Measure.sum_apply _ measurableSet_Iic, tsum_eq_sum (s := Finset.range ps.length)]
  · refine Finset.sum_congr rfl fun i hi => ?_
    have hi := Finset.mem_range.1 hi
    have g1 : i < d.rates.length := by omega
    have hr' : (0 : ℝ) < d.rates[i] := by exact_mod_cast hr _ (List.getElem_mem g1)
    rw [Measure.smul_apply, smul_eq_mul, List.getD_eq_getElem?_getD (l := d.rates)]
    simp only [List.getElem?_eq_getElem g1, Option.getD_some]
    rw [chance_expo k hr' t]
  · intro i hi
    rw [Finset.mem_range, not_lt] at hi
    rw [List.getD_eq_getElem?_getD (l := ps), List.getElem?_eq_none hi]
    simp

end Boost.Random
