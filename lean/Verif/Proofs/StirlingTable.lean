import Verif.Proofs.Stirling
import Verif.Model.Binomial
import Verif.Model.Poisson
import Verif.Spec.DiscreteReal
import Mathlib.Data.Nat.Cast.Order.Field

/-!
# Numerical values of the error of Stirling's formula, and of logarithms of factorials

Sums of the series are bounded by integers, in units of `10^-30`.
-/

namespace Boost.Random
open Spec Stirling

section
variable (U : Nat)

/-- A lower bound for `d` terms of the series at `n`, in units of `1 / U`. -/
def lowTerms (n : Nat) : Nat → Nat
  | 0 => 0
  | d + 1 => lowTerms n d + U / ((2 * d + 3) * ((2 * n + 1) ^ 2) ^ (d + 1))

/-- An upper bound for the series at `n`. -/
def highTerms (n d : Nat) : Nat := lowTerms U n d + d + U / ((2 * d + 3) * ((2 * n + 1) ^ 2) ^ d * (4 * n * (n + 1))) + 1

/-- Sums of the bounds for `n, …, n + j - 1`. -/
def lowSum (d n : Nat) : Nat → Nat
  | 0 => 0
  | j + 1 => lowSum d n j + lowTerms U (n + j) d
def highSum (d n : Nat) : Nat → Nat
  | 0 => 0
  | j + 1 => highSum d n j + highTerms U (n + j) d

end

theorem div_bounds (a b : Nat) (hb : 0 < b) : ((a / b : Nat) : ℝ) ≤ a / b ∧ (a : ℝ) / b ≤ ((a / b : Nat) : ℝ) + 1 := by
  refine ⟨Nat.cast_div_le, ?_⟩
  rw [div_le_iff₀ (by exact_mod_cast hb)]
  have := Nat.lt_div_mul_add (a := a) hb
  have h : a ≤ (a / b + 1) * b := by rw [Nat.add_mul, Nat.one_mul]; omega
  exact_mod_cast h

theorem lowTerms_bounds (U n d : Nat) :
    (lowTerms U n d : ℝ) ≤ (U : ℝ) * ∑ k ∈ Finset.range d, (1 : ℝ) / (2 * k + 3) * (1 / (2 * n + 1) ^ 2) ^ (k + 1) ∧
      (U : ℝ) * ∑ k ∈ Finset.range d, (1 : ℝ) / (2 * k + 3) * (1 / (2 * n + 1) ^ 2) ^ (k + 1) ≤ (lowTerms U n d : ℝ) + (d : ℝ) := by
  induction d with
  | zero => simp [lowTerms]
  | succ d ih =>
    rw [Finset.sum_range_succ, mul_add, lowTerms]
    obtain ⟨h1, h2⟩ := div_bounds U ((2 * d + 3) * ((2 * n + 1) ^ 2) ^ (d + 1)) (by positivity)
    have e : (U : ℝ) * (1 / (2 * d + 3) * (1 / (2 * n + 1) ^ 2) ^ (d + 1)) = (U : ℝ) / (((2 * d + 3) * ((2 * n + 1) ^ 2) ^ (d + 1) : Nat) : ℝ) := by
      push_cast
      rw [div_pow, one_pow, div_mul_div_comm, one_mul, mul_one_div]
    rw [e]
    push_cast at h1 h2 ih ⊢
    constructor <;> linarith [ih.1, ih.2]

theorem diff_bounds {U n : Nat} (hU : 0 < U) (hn : 1 ≤ n) (d : Nat) : (lowTerms U n d : ℝ) / U ≤ stirlingError n - stirlingError (n + 1) ∧
    stirlingError n - stirlingError (n + 1) ≤ (highTerms U n d : ℝ) / U := by
  obtain ⟨h1, h2⟩ := stirlingError_diff hn d
  obtain ⟨l1, l2⟩ := lowTerms_bounds U n d
  obtain ⟨_, d2⟩ := div_bounds U ((2 * d + 3) * ((2 * n + 1) ^ 2) ^ d * (4 * n * (n + 1))) (by positivity)
  have e : (U : ℝ) * (1 / (2 * d + 3) * (1 / (2 * n + 1) ^ 2) ^ d / (4 * n * (n + 1))) =
      (U : ℝ) / (((2 * d + 3) * ((2 * n + 1) ^ 2) ^ d * (4 * n * (n + 1)) : Nat) : ℝ) := by
    push_cast
    rw [div_pow, one_pow, div_mul_div_comm, one_mul, div_div, mul_one_div]
  have hU' : (0 : ℝ) < U := by exact_mod_cast hU
  rw [div_le_iff₀ hU', le_div_iff₀ hU', highTerms]
  push_cast at d2 e ⊢
  rw [← e] at d2
  generalize stirlingError n - stirlingError (n + 1) = D at *
  generalize ∑ k ∈ Finset.range d, (1 : ℝ) / (2 * k + 3) * (1 / (2 * n + 1) ^ 2) ^ (k + 1) = T at *
  generalize (1 / (2 * (d : ℝ) + 3) * (1 / (2 * n + 1) ^ 2) ^ d / (4 * n * (n + 1)) : ℝ) = V at *
  have m1 := mul_le_mul_of_nonneg_left h1 hU'.le
  have m2 := mul_le_mul_of_nonneg_left h2 hU'.le
  rw [mul_add] at m2
  constructor <;> linarith

theorem sum_bounds {U n : Nat} (hU : 0 < U) (hn : 1 ≤ n) (d j : Nat) : (lowSum U d n j : ℝ) / U ≤ stirlingError n - stirlingError (n + j) ∧
    stirlingError n - stirlingError (n + j) ≤ (highSum U d n j : ℝ) / U := by
  induction j with
  | zero => simp [lowSum, highSum]
  | succ j ih =>
    obtain ⟨h1, h2⟩ := diff_bounds hU (show 1 ≤ n + j by omega) d
    rw [lowSum, highSum]
    push_cast
    rw [add_div, add_div, ← Nat.add_assoc]
    constructor <;> linarith [ih.1, ih.2]

theorem stirlingError_150 : ((555554732520739085940732031 : Nat) : ℝ) / (10 ^ 30 : Nat) ≤ stirlingError 150 ∧
    stirlingError 150 ≤ ((555554732520739434319681234 : Nat) : ℝ) / (10 ^ 30 : Nat) := by
  obtain ⟨h1, h2⟩ := stirlingError_bounds (n := 150) (by norm_num)
  unfold stirlingSeries at *
  constructor
  · refine le_trans ?_ h1
    norm_num
  · refine le_trans h2 ?_
    norm_num

/-- A value of the error from integer bounds. -/
theorem stirlingError_value (d : Nat) {n j : Nat} (hn : 1 ≤ n) (hj : n + j = 150) (X E : Nat)
    (hlo : X ≤ lowSum (10 ^ 30) d n j + 555554732520739085940732031 + E) (hhi : highSum (10 ^ 30) d n j + 555554732520739434319681234 ≤ X + E) :
    |(X : ℝ) / (10 ^ 30 : Nat) - stirlingError n| ≤ (E : ℝ) / (10 ^ 30 : Nat) := by
  obtain ⟨h1, h2⟩ := sum_bounds (U := 10 ^ 30) (by positivity) hn d j
  obtain ⟨h3, h4⟩ := stirlingError_150
  rw [hj] at h1 h2
  have a1 : (X : ℝ) ≤ (lowSum (10 ^ 30) d n j : ℝ) + (555554732520739085940732031 : Nat) + E := by exact_mod_cast hlo
  have a2 : (highSum (10 ^ 30) d n j : ℝ) + (555554732520739434319681234 : Nat) ≤ X + E := by exact_mod_cast hhi
  have hU : (0 : ℝ) < ((10 ^ 30 : Nat) : ℝ) := by positivity
  generalize ((10 ^ 30 : Nat) : ℝ) = V at *
  have b1 := div_le_div_of_nonneg_right a1 hU.le
  have b2 := div_le_div_of_nonneg_right a2 hU.le
  rw [add_div, add_div] at b1
  rw [add_div, add_div] at b2
  rw [abs_le]
  constructor <;> linarith

/-- The entries of `binomial_table`. -/
theorem fcTable_values : ∀ k, (h : k < (Binomial.fcTable : List ℝ).length) → |(Binomial.fcTable : List ℝ)[k] - stirlingError (k + 1)| ≤ 1 / 10 ^ 17 := by
  intro k h
  have h10 : k < 10 := h
  have t0 := stirlingError_value 20 (n := 1) (j := 149) (by decide) (by decide) 81061466795327260000000000000 (10 ^ 13) (by decide +kernel) (by decide +kernel)
  have t1 := stirlingError_value 20 (n := 2) (j := 148) (by decide) (by decide) 41340695955409290000000000000 (10 ^ 13) (by decide +kernel) (by decide +kernel)
  have t2 := stirlingError_value 20 (n := 3) (j := 147) (by decide) (by decide) 27677925684998340000000000000 (10 ^ 13) (by decide +kernel) (by decide +kernel)
  have t3 := stirlingError_value 20 (n := 4) (j := 146) (by decide) (by decide) 20790672103765090000000000000 (10 ^ 13) (by decide +kernel) (by decide +kernel)
  have t4 := stirlingError_value 20 (n := 5) (j := 145) (by decide) (by decide) 16644691189821190000000000000 (10 ^ 13) (by decide +kernel) (by decide +kernel)
  have t5 := stirlingError_value 20 (n := 6) (j := 144) (by decide) (by decide) 13876128823070750000000000000 (10 ^ 13) (by decide +kernel) (by decide +kernel)
  have t6 := stirlingError_value 20 (n := 7) (j := 143) (by decide) (by decide) 11896709945891770000000000000 (10 ^ 13) (by decide +kernel) (by decide +kernel)
  have t7 := stirlingError_value 20 (n := 8) (j := 142) (by decide) (by decide) 10411265261972090000000000000 (10 ^ 13) (by decide +kernel) (by decide +kernel)
  have t8 := stirlingError_value 20 (n := 9) (j := 141) (by decide) (by decide) 9255462182712733000000000000 (10 ^ 13) (by decide +kernel) (by decide +kernel)
  have t9 := stirlingError_value 20 (n := 10) (j := 140) (by decide) (by decide) 8330563433362871000000000000 (10 ^ 13) (by decide +kernel) (by decide +kernel)
  simp only [Nat.cast_pow, Nat.cast_ofNat] at t0 t1 t2 t3 t4 t5 t6 t7 t8 t9
  have hE : (10 : ℝ) ^ 13 / 10 ^ 30 = 1 / 10 ^ 17 := by norm_num
  rw [hE] at t0 t1 t2 t3 t4 t5 t6 t7 t8 t9
  match k, h10 with
  | 0, _ => exact (congrArg (fun x => |x - stirlingError 1| ≤ 1 / 10 ^ 17) (show (8106146679532726 / 10 ^ 17 : ℝ) = 81061466795327260000000000000 / 10 ^ 30 by norm_num)).mpr t0
  | 1, _ => exact (congrArg (fun x => |x - stirlingError 2| ≤ 1 / 10 ^ 17) (show (4134069595540929 / 10 ^ 17 : ℝ) = 41340695955409290000000000000 / 10 ^ 30 by norm_num)).mpr t1
  | 2, _ => exact (congrArg (fun x => |x - stirlingError 3| ≤ 1 / 10 ^ 17) (show (2767792568499834 / 10 ^ 17 : ℝ) = 27677925684998340000000000000 / 10 ^ 30 by norm_num)).mpr t2
  | 3, _ => exact (congrArg (fun x => |x - stirlingError 4| ≤ 1 / 10 ^ 17) (show (2079067210376509 / 10 ^ 17 : ℝ) = 20790672103765090000000000000 / 10 ^ 30 by norm_num)).mpr t3
  | 4, _ => exact (congrArg (fun x => |x - stirlingError 5| ≤ 1 / 10 ^ 17) (show (1664469118982119 / 10 ^ 17 : ℝ) = 16644691189821190000000000000 / 10 ^ 30 by norm_num)).mpr t4
  | 5, _ => exact (congrArg (fun x => |x - stirlingError 6| ≤ 1 / 10 ^ 17) (show (1387612882307075 / 10 ^ 17 : ℝ) = 13876128823070750000000000000 / 10 ^ 30 by norm_num)).mpr t5
  | 6, _ => exact (congrArg (fun x => |x - stirlingError 7| ≤ 1 / 10 ^ 17) (show (1189670994589177 / 10 ^ 17 : ℝ) = 11896709945891770000000000000 / 10 ^ 30 by norm_num)).mpr t6
  | 7, _ => exact (congrArg (fun x => |x - stirlingError 8| ≤ 1 / 10 ^ 17) (show (1041126526197209 / 10 ^ 17 : ℝ) = 10411265261972090000000000000 / 10 ^ 30 by norm_num)).mpr t7
  | 8, _ => exact (congrArg (fun x => |x - stirlingError 9| ≤ 1 / 10 ^ 17) (show (9255462182712733 / 10 ^ 18 : ℝ) = 9255462182712733000000000000 / 10 ^ 30 by norm_num)).mpr t8
  | 9, _ => exact (congrArg (fun x => |x - stirlingError 10| ≤ 1 / 10 ^ 17) (show (8330563433362871 / 10 ^ 18 : ℝ) = 8330563433362871000000000000 / 10 ^ 30 by norm_num)).mpr t9

theorem log_fact_step (n : Nat) : Real.log (n + 1).factorial = Real.log (n + 1 : Nat) + Real.log n.factorial := by
  rw [Nat.factorial_succ, Nat.cast_mul, Real.log_mul (by positivity) (by positivity)]

theorem log_step (n : Nat) : (n + 1 / 2) * (Real.log (n + 1 : Nat) - Real.log n) = 1 + (stirlingError n - stirlingError (n + 1)) := by
  unfold stirlingError
  rw [log_fact_step]
  push_cast
  ring

/-- Bounds for one step from integer bounds. -/
theorem diff_value (d : Nat) {n : Nat} (hn : 1 ≤ n) (L H : Nat) (hlo : L ≤ lowTerms (10 ^ 30) n d) (hhi : highTerms (10 ^ 30) n d ≤ H) :
    (L : ℝ) ≤ ((n + 1 / 2) * (Real.log (n + 1 : Nat) - Real.log n) - 1) * (10 ^ 30 : Nat) ∧
      ((n + 1 / 2) * (Real.log (n + 1 : Nat) - Real.log n) - 1) * (10 ^ 30 : Nat) ≤ (H : ℝ) := by
  obtain ⟨h1, h2⟩ := diff_bounds (U := 10 ^ 30) (by positivity) hn d
  rw [log_step n, add_sub_cancel_left]
  have hU : (0 : ℝ) < ((10 ^ 30 : Nat) : ℝ) := by positivity
  rw [div_le_iff₀ hU] at h1
  rw [le_div_iff₀ hU] at h2
  have c1 : (L : ℝ) ≤ lowTerms (10 ^ 30) n d := by exact_mod_cast hlo
  have c2 : (highTerms (10 ^ 30) n d : ℝ) ≤ H := by exact_mod_cast hhi
  exact ⟨c1.trans h1, h2.trans c2⟩

set_option linter.unusedSimpArgs false in
/-- The entries of `poisson_table`. -/
theorem poissonTable_values : ∀ k, (h : k < (Poisson.table : List ℝ).length) → |(Poisson.table : List ℝ)[k] - Real.log k.factorial| ≤ 1 / 10 ^ 15 := by
  intro k h
  have h10 : k < 10 := h
  have d1 := diff_value 20 (n := 1) (by decide) 39720770839917964125610390135 39720770839917964125849496648 (by decide +kernel) (by decide +kernel)
  have d2 := diff_value 20 (n := 2) (by decide) 13662770270410954945032788654 13662770270410954945032788675 (by decide +kernel) (by decide +kernel)
  have d3 := diff_value 20 (n := 3) (by decide) 6887253581233246037266520970 6887253581233246037266520991 (by decide +kernel) (by decide +kernel)
  have d4 := diff_value 20 (n := 4) (by decide) 4145980913943900948327906387 4145980913943900948327906408 (by decide +kernel) (by decide +kernel)
  have d5 := diff_value 20 (n := 5) (by decide) 2768562366750444164449138345 2768562366750444164449138366 (by decide +kernel) (by decide +kernel)
  have d6 := diff_value 20 (n := 6) (by decide) 1979418877178977903690002899 1979418877178977903690002920 (by decide +kernel) (by decide +kernel)
  have d7 := diff_value 20 (n := 7) (by decide) 1485444683919673597577156982 1485444683919673597577157003 (by decide +kernel) (by decide +kernel)
  have d8 := diff_value 20 (n := 8) (by decide) 1155803079259363579749930494 1155803079259363579749930515 (by decide +kernel) (by decide +kernel)
  have f0 := log_fact_step 0
  have f1 := log_fact_step 1
  have f2 := log_fact_step 2
  have f3 := log_fact_step 3
  have f4 := log_fact_step 4
  have f5 := log_fact_step 5
  have f6 := log_fact_step 6
  have f7 := log_fact_step 7
  have f8 := log_fact_step 8
  norm_num at d1 d2 d3 d4 d5 d6 d7 d8
  simp only [Nat.factorial, Nat.reduceAdd, Nat.reduceMul, Nat.cast_ofNat, Nat.cast_one, Real.log_one, Nat.succ_eq_add_one] at f0 f1 f2 f3 f4 f5 f6 f7 f8
  match k, h10 with
  | 0, _ =>
    show |(0 : ℝ) - Real.log (0 : Nat).factorial| ≤ 1 / 10 ^ 15
    simp only [Nat.factorial, Nat.reduceAdd, Nat.reduceMul, Nat.cast_ofNat, Nat.cast_one, Real.log_one, Nat.succ_eq_add_one]
    rw [abs_le]
    constructor <;> linarith
  | 1, _ =>
    show |(0 : ℝ) - Real.log (1 : Nat).factorial| ≤ 1 / 10 ^ 15
    simp only [Nat.factorial, Nat.reduceAdd, Nat.reduceMul, Nat.cast_ofNat, Nat.cast_one, Real.log_one, Nat.succ_eq_add_one]
    rw [abs_le]
    constructor <;> linarith
  | 2, _ =>
    show |(69314718055994529 / 10 ^ 17 : ℝ) - Real.log (2 : Nat).factorial| ≤ 1 / 10 ^ 15
    simp only [Nat.factorial, Nat.reduceAdd, Nat.reduceMul, Nat.cast_ofNat, Nat.cast_one, Real.log_one, Nat.succ_eq_add_one]
    rw [abs_le]
    constructor <;> linarith
  | 3, _ =>
    show |(17917594692280550 / 10 ^ 16 : ℝ) - Real.log (3 : Nat).factorial| ≤ 1 / 10 ^ 15
    simp only [Nat.factorial, Nat.reduceAdd, Nat.reduceMul, Nat.cast_ofNat, Nat.cast_one, Real.log_one, Nat.succ_eq_add_one]
    rw [abs_le]
    constructor <;> linarith
  | 4, _ =>
    show |(31780538303479458 / 10 ^ 16 : ℝ) - Real.log (4 : Nat).factorial| ≤ 1 / 10 ^ 15
    simp only [Nat.factorial, Nat.reduceAdd, Nat.reduceMul, Nat.cast_ofNat, Nat.cast_one, Real.log_one, Nat.succ_eq_add_one]
    rw [abs_le]
    constructor <;> linarith
  | 5, _ =>
    show |(47874917427820458 / 10 ^ 16 : ℝ) - Real.log (5 : Nat).factorial| ≤ 1 / 10 ^ 15
    simp only [Nat.factorial, Nat.reduceAdd, Nat.reduceMul, Nat.cast_ofNat, Nat.cast_one, Real.log_one, Nat.succ_eq_add_one]
    rw [abs_le]
    constructor <;> linarith
  | 6, _ =>
    show |(65792512120101012 / 10 ^ 16 : ℝ) - Real.log (6 : Nat).factorial| ≤ 1 / 10 ^ 15
    simp only [Nat.factorial, Nat.reduceAdd, Nat.reduceMul, Nat.cast_ofNat, Nat.cast_one, Real.log_one, Nat.succ_eq_add_one]
    rw [abs_le]
    constructor <;> linarith
  | 7, _ =>
    show |(85251613610654147 / 10 ^ 16 : ℝ) - Real.log (7 : Nat).factorial| ≤ 1 / 10 ^ 15
    simp only [Nat.factorial, Nat.reduceAdd, Nat.reduceMul, Nat.cast_ofNat, Nat.cast_one, Real.log_one, Nat.succ_eq_add_one]
    rw [abs_le]
    constructor <;> linarith
  | 8, _ =>
    show |(10604602902745251 / 10 ^ 15 : ℝ) - Real.log (8 : Nat).factorial| ≤ 1 / 10 ^ 15
    simp only [Nat.factorial, Nat.reduceAdd, Nat.reduceMul, Nat.cast_ofNat, Nat.cast_one, Real.log_one, Nat.succ_eq_add_one]
    rw [abs_le]
    constructor <;> linarith
  | 9, _ =>
    show |(12801827480081469 / 10 ^ 15 : ℝ) - Real.log (9 : Nat).factorial| ≤ 1 / 10 ^ 15
    simp only [Nat.factorial, Nat.reduceAdd, Nat.reduceMul, Nat.cast_ofNat, Nat.cast_one, Real.log_one, Nat.succ_eq_add_one]
    rw [abs_le]
    constructor <;> linarith

end Boost.Random
