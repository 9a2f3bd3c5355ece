import Verif.Spec.Ziggurat
import Verif.Proofs.ZigguratArea
import Verif.Proofs.ExpSeries
import Mathlib.Analysis.Convex.SpecificFunctions.Basic

/-!
# The tables of the exponential distribution
-/

namespace Boost.Random.Exponential
open Spec Zig MeasureTheory Set

/-- The tables as real numbers. -/
noncomputable def X (i : Nat) : ℝ := (tableX.getD i 0 : ℝ) / 10 ^ 23
@[inherit_doc X] noncomputable def Y (i : Nat) : ℝ := (tableY.getD i 0 : ℝ) / 10 ^ 23

theorem entry_X {i : Nat} (hi : i ≤ 256) : entry exactOps tableX i = some (X i) := by
  have hl : tableX.length = 257 := by decide +kernel
  have h : i < tableX.length := by omega
  simp [entry, exactOps, X, List.getElem?_eq_getElem h, List.getD_eq_getElem?_getD]

theorem entry_Y {i : Nat} (hi : i ≤ 256) : entry exactOps tableY i = some (Y i) := by
  have hl : tableY.length = 257 := by decide +kernel
  have h : i < tableY.length := by omega
  simp [entry, exactOps, Y, List.getElem?_eq_getElem h, List.getD_eq_getElem?_getD]

theorem tables_values : ∀ i : Fin 256, ExpSeries.expOk (tableX.getD (i + 1) 0) (10 ^ 23) (tableY.getD (i + 1) 0) = true := by decide +kernel

theorem value {i : Nat} (h1 : 1 ≤ i) (hi : i ≤ 256) : |Real.exp (-X i) - Y i| ≤ 5 / 10 ^ 20 := by
  have h := ExpSeries.exp_of_ok (by norm_num) (tables_values ⟨i - 1, by omega⟩)
  simp only [Nat.sub_add_cancel h1] at h
  rw [X, Y]
  rwa [Nat.cast_pow, Nat.cast_ofNat] at h

theorem tables_order : ∀ i : Fin 256, tableX.getD (i + 1) 0 < tableX.getD i 0 ∧ tableY.getD i 0 < tableY.getD (i + 1) 0 ∧
    tableX.getD i 0 ≤ tableX.getD (i + 1) 0 + 10 ^ 23 := by decide +kernel

theorem tables_area : ∀ i : Fin 256,
    tableY.getD (i + 1) 0 * tableX.getD i 0 ≤ tableY.getD i 0 * tableX.getD i 0 + tableX.getD 0 0 * tableY.getD 1 0 + 10 ^ 27 ∧
    tableY.getD i 0 * tableX.getD i 0 + tableX.getD 0 0 * tableY.getD 1 0 ≤ tableY.getD (i + 1) 0 * tableX.getD i 0 + 10 ^ 27 := by decide +kernel

theorem X_first : X 0 = 8.6971174701310497140 := by rw [X, show tableX.getD 0 0 = 869711747013104971400000 from rfl]; norm_num

theorem X_step : X 0 = X 1 + 1 := by
  rw [X, X, show tableX.getD 0 0 = 869711747013104971400000 from rfl, show tableX.getD 1 0 = 769711747013104971400000 from rfl]; norm_num

theorem Y_one : Y 1 = 0.00045413435384149675545 := by rw [Y, show tableY.getD 1 0 = 45413435384149675545 from rfl]; norm_num

theorem table : Table 256 X Y (fun x => Real.exp (-x)) (X 0 * Y 1) (1 / 10 ^ 19) (1 / 10 ^ 19) where
  xdec i hi := by
    rw [X, X]
    exact div_lt_div_of_pos_right (by exact_mod_cast (tables_order ⟨i, hi⟩).1) (by positivity)
  xlast := by rw [X, show tableX.getD 256 0 = 0 from rfl]; simp
  y0 := by rw [Y, show tableY.getD 0 0 = 0 from rfl]; simp
  ylast := by rw [Y, show tableY.getD 256 0 = 10 ^ 23 from rfl]; norm_num
  yinc i hi := by
    rw [Y, Y]
    exact div_lt_div_of_pos_right (by exact_mod_cast (tables_order ⟨i, hi⟩).2.1) (by positivity)
  value i h1 hi := (value h1 hi).trans (by norm_num)
  area i hi := by
    have h := tables_area ⟨i, hi⟩
    simp only at h
    have h1 : (tableY.getD (i + 1) 0 : ℝ) * tableX.getD i 0 ≤ tableY.getD i 0 * tableX.getD i 0 + tableX.getD 0 0 * tableY.getD 1 0 + 10 ^ 27 := by exact_mod_cast h.1
    have h2 : (tableY.getD i 0 : ℝ) * tableX.getD i 0 + tableX.getD 0 0 * tableY.getD 1 0 ≤ tableY.getD (i + 1) 0 * tableX.getD i 0 + 10 ^ 27 := by exact_mod_cast h.2
    simp only [X, Y]
    generalize (tableY.getD (i + 1) 0 : ℝ) = a at *
    generalize (tableY.getD i 0 : ℝ) = b at *
    generalize (tableX.getD i 0 : ℝ) = c at *
    generalize (tableX.getD 0 0 : ℝ) = d at *
    generalize (tableY.getD 1 0 : ℝ) = e at *
    have e1 : (a / 10 ^ 23 - b / 10 ^ 23) * (c / 10 ^ 23) - d / 10 ^ 23 * (e / 10 ^ 23) = (a * c - b * c - d * e) / 10 ^ 46 := by ring
    rw [e1, abs_div, abs_of_pos (show (0 : ℝ) < 10 ^ 46 by positivity), div_le_div_iff₀ (by positivity) (by positivity), ← sub_nonneg]
    have h3 : |a * c - b * c - d * e| ≤ 10 ^ 27 := abs_le.2 ⟨by linarith, by linarith⟩
    have e2 : (1 : ℝ) * 10 ^ 46 = 10 ^ 27 * 10 ^ 19 := by norm_num
    rw [e2]
    have := mul_le_mul_of_nonneg_right h3 (show (0 : ℝ) ≤ 10 ^ 19 by positivity)
    linarith
  cont := Real.continuous_exp.comp continuous_neg
  anti := fun x _ y _ h => Real.exp_le_exp.2 (neg_le_neg h)
  nonneg x _ := (Real.exp_pos _).le
  le_one x hx := Real.exp_le_one_iff.2 (by linarith)

theorem gap {i : Nat} (hi : i < 256) : X i - X (i + 1) ≤ 1 := by
  have h : (tableX.getD i 0 : ℝ) ≤ tableX.getD (i + 1) 0 + 10 ^ 23 := by exact_mod_cast (tables_order ⟨i, hi⟩).2.2
  rw [X, X, ← sub_div, div_le_one (by positivity)]
  linarith

/-- The test of layer `i`. -/
def acc (i : Nat) (x w : ℝ) : Prop := accept exactOps (X i) (X (i + 1)) (Y i) (Y (i + 1)) x w = true

theorem acc_iff (i : Nat) (x w : ℝ) : acc i x w ↔ (X i - X (i + 1)) * w - (X i - x) < 0 ∧
    (Y i + w * (Y (i + 1) - Y i) - (Y (i + 1) + (X (i + 1) - x) * Y (i + 1)) < 0 ∨ Y i + w * (Y (i + 1) - Y i) < Real.exp (-x)) := by
  simp only [acc, accept, exactOps, f, id, Bool.and_eq_true, Bool.or_eq_true]
  exact Iff.and decide_eq_true_iff (Iff.or decide_eq_true_iff decide_eq_true_iff)

theorem measurableSet_acc (i : Nat) : MeasurableSet {p : ℝ × ℝ | acc i p.1 p.2} := by
  have e : {p : ℝ × ℝ | acc i p.1 p.2} = {p : ℝ × ℝ | (X i - X (i + 1)) * p.2 - (X i - p.1) < 0} ∩
      ({p : ℝ × ℝ | Y i + p.2 * (Y (i + 1) - Y i) - (Y (i + 1) + (X (i + 1) - p.1) * Y (i + 1)) < 0} ∪ {p : ℝ × ℝ | Y i + p.2 * (Y (i + 1) - Y i) < Real.exp (-p.1)}) := by
    ext p; exact acc_iff i p.1 p.2
  rw [e]
  refine (measurableSet_lt (by fun_prop) (by fun_prop)).inter ((measurableSet_lt (by fun_prop) (by fun_prop)).union (measurableSet_lt (by fun_prop) (by fun_prop)))

theorem decides : Decides 256 X Y (fun x => Real.exp (-x)) (1 / 10 ^ 19) acc := by
  intro i h1 hi x w hx1 hx2 hw0 hw1
  have hX := table.xdec i hi
  have hY := table.yinc i hi
  have hgap := gap hi
  have hvi := abs_le.1 (value h1 hi.le)
  have hvj := abs_le.1 (value (i := i + 1) (by omega) (by omega))
  rw [acc_iff]
  generalize X i = a at *
  generalize X (i + 1) = b at *
  generalize Y i = c at *
  generalize Y (i + 1) = d at *
  have hε : (5 : ℝ) / 10 ^ 20 < 1 / 10 ^ 19 := by norm_num
  have hε0 : (0 : ℝ) < 5 / 10 ^ 20 := by norm_num
  generalize (5 : ℝ) / 10 ^ 20 = e at *
  generalize (1 : ℝ) / 10 ^ 19 = e' at *
  simp only
  constructor
  · rintro ⟨_, h | h⟩
    · -- the tangent at the upper corner is below the curve
      have h2 : Real.exp (-b) * (1 + (b - x)) ≤ Real.exp (-x) := by
        have h3 : 1 + (b - x) ≤ Real.exp (b - x) := by linarith [Real.add_one_le_exp (b - x)]
        have h4 : Real.exp (-x) = Real.exp (-b) * Real.exp (b - x) := by rw [← Real.exp_add]; congr 1; ring
        rw [h4]
        exact mul_le_mul_of_nonneg_left h3 (Real.exp_pos _).le
      nlinarith
    · linarith
  · intro h
    refine ⟨?_, Or.inr (by linarith)⟩
    by_contra hc
    push Not at hc
    -- the diagonal is above the curve
    have h2 : Real.exp (-x) ≤ (a - x) / (a - b) * Real.exp (-b) + (x - b) / (a - b) * Real.exp (-a) := by
      have hab : 0 < a - b := by linarith
      have h3 := convexOn_exp.2 (mem_univ (-b)) (mem_univ (-a)) (show 0 ≤ (a - x) / (a - b) from div_nonneg (by linarith) hab.le)
        (show 0 ≤ (x - b) / (a - b) from div_nonneg (by linarith) hab.le) (by field_simp; ring)
      simp only [smul_eq_mul] at h3
      have h4 : (a - x) / (a - b) * -b + (x - b) / (a - b) * -a = -x := by field_simp; ring
      rwa [h4] at h3
    have hab : 0 < a - b := by linarith
    have h5 : (a - x) / (a - b) ≤ w := by rw [div_le_iff₀ hab]; linarith
    have h6 : (x - b) / (a - b) = 1 - (a - x) / (a - b) := by field_simp; ring
    have h7 : 0 ≤ (a - x) / (a - b) := div_nonneg (by linarith) hab.le
    rw [h6] at h2
    generalize (a - x) / (a - b) = r at *
    nlinarith

end Boost.Random.Exponential
