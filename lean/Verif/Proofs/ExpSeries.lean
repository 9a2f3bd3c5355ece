import Mathlib.Analysis.SpecialFunctions.ExpDeriv
import Mathlib.Analysis.Calculus.Deriv.MeanValue
import Mathlib.Analysis.Calculus.Deriv.Pow
import Mathlib.Tactic.NormNum.NatFactorial
import Mathlib.Tactic.Linarith
import Mathlib.Tactic.FieldSimp
import Mathlib.Tactic.Positivity
import Mathlib.Tactic.Ring

/-!
# Bounds for the exponential function from the alternating series
-/

namespace Boost.Random.ExpSeries
open Finset

/-- The partial sum of the series of `exp (-z)`. -/
noncomputable def S (n : Nat) (z : ℝ) : ℝ := ∑ k ∈ range n, (-z) ^ k / k.factorial

theorem S_zero (z : ℝ) : S 0 z = 0 := by simp [S]

theorem S_at_zero (n : Nat) : S (n + 1) 0 = 1 := by
  rw [S, sum_range_succ', sum_eq_zero]
  · simp
  · intro k _; simp

theorem hasDerivAt_S (n : Nat) (z : ℝ) : HasDerivAt (S (n + 1)) (-S n z) z := by
  have hterm : ∀ k : Nat, HasDerivAt (fun z : ℝ => (-z) ^ (k + 1) / (k + 1).factorial) (-((-z) ^ k / k.factorial)) z := by
    intro k
    have h1 := ((hasDerivAt_id z).neg.pow (k + 1)).div_const ((k + 1).factorial : ℝ)
    refine h1.congr_deriv ?_
    have h2 : ((k + 1).factorial : ℝ) = (k + 1) * k.factorial := by push_cast [Nat.factorial_succ]; ring
    have h3 : (k.factorial : ℝ) ≠ 0 := by positivity
    have h4 : ((k : ℝ) + 1) ≠ 0 := by positivity
    rw [h2]
    simp only [id, Pi.neg_apply]
    push_cast
    field_simp
  have h := (HasDerivAt.fun_sum fun k (_ : k ∈ range n) => hterm k).add_const (1 : ℝ)
  refine (h.congr_deriv ?_).congr_of_eventuallyEq ?_
  · rw [S, sum_neg_distrib]
  · refine Filter.Eventually.of_forall fun y => ?_
    rw [S, sum_range_succ']
    simp

/-- The signed remainder. -/
noncomputable def R (n : Nat) (z : ℝ) : ℝ := (-1) ^ n * (Real.exp (-z) - S n z)

theorem hasDerivAt_R (n : Nat) (z : ℝ) : HasDerivAt (R (n + 1)) (R n z) z := by
  have h1 : HasDerivAt (fun z : ℝ => Real.exp (-z)) (Real.exp (-z) * (-1)) z := (hasDerivAt_id z).neg.exp
  have h := (h1.sub (hasDerivAt_S n z)).const_mul ((-1 : ℝ) ^ (n + 1))
  refine h.congr_deriv ?_
  rw [R, pow_succ]; ring

theorem R_at_zero (n : Nat) : R (n + 1) 0 = 0 := by simp [R, S_at_zero]

theorem nonneg_of_deriv {g g' : ℝ → ℝ} (hd : ∀ z, HasDerivAt g (g' z) z) (h0 : g 0 = 0) (hg : ∀ z, 0 ≤ z → 0 ≤ g' z) {z : ℝ} (hz : 0 ≤ z) : 0 ≤ g z := by
  have hmono : MonotoneOn g (Set.Ici 0) := by
    refine monotoneOn_of_deriv_nonneg (convex_Ici 0) (fun x _ => (hd x).continuousAt.continuousWithinAt)
      (fun x _ => (hd x).differentiableAt.differentiableWithinAt) fun x hx => ?_
    rw [(hd x).deriv]
    rw [interior_Ici] at hx
    exact hg x (le_of_lt hx)
  have := hmono (Set.self_mem_Ici) (Set.mem_Ici.2 hz) hz
  rwa [h0] at this

theorem R_bounds (n : Nat) : ∀ z, 0 ≤ z → 0 ≤ R n z ∧ R n z ≤ z ^ n / n.factorial := by
  induction n with
  | zero =>
    intro z hz
    simp only [R, pow_zero, one_mul, S_zero, sub_zero, Nat.factorial_zero, Nat.cast_one, div_one]
    exact ⟨(Real.exp_pos _).le, Real.exp_le_one_iff.2 (by linarith)⟩
  | succ n ih =>
    intro z hz
    refine ⟨nonneg_of_deriv (hasDerivAt_R n) (R_at_zero n) (fun y hy => (ih y hy).1) hz, ?_⟩
    have hd : ∀ y : ℝ, HasDerivAt (fun y => y ^ (n + 1) / (n + 1).factorial - R (n + 1) y) (y ^ n / n.factorial - R n y) y := by
      intro y
      have h1 := (((hasDerivAt_id y).pow (n + 1)).div_const ((n + 1).factorial : ℝ)).sub (hasDerivAt_R n y)
      refine h1.congr_deriv ?_
      have h2 : ((n + 1).factorial : ℝ) = (n + 1) * n.factorial := by push_cast [Nat.factorial_succ]; ring
      have h3 : (n.factorial : ℝ) ≠ 0 := by positivity
      have h4 : ((n : ℝ) + 1) ≠ 0 := by positivity
      rw [h2]
      simp only [id]
      push_cast
      field_simp
    have := nonneg_of_deriv hd (by simp [R_at_zero]) (fun y hy => sub_nonneg.2 (ih y hy).2) hz
    linarith

theorem abs_exp_sub_S (n : Nat) {z : ℝ} (hz : 0 ≤ z) : |Real.exp (-z) - S n z| ≤ z ^ n / n.factorial := by
  have h := R_bounds n z hz
  have h1 : |R n z| = |Real.exp (-z) - S n z| := by rw [R, abs_mul, abs_pow, abs_neg, abs_one, one_pow, one_mul]
  rw [← h1, abs_of_nonneg h.1]
  exact h.2

/-! ## Evaluation in integers -/

/-- Horner's scheme for `∑ (-p / q) ^ j * k! / (k + j)!` over `j < m`: the sum of the positive terms and of the negative terms, and the
denominator. -/
def horner (p q : Nat) (k : Nat) : Nat → Nat × Nat × Nat
  | 0 => (0, 0, 1)
  | m + 1 => let r := horner p q (k + 1) m; (q * (k + 1) * r.2.2 + p * r.2.1, p * r.1, q * (k + 1) * r.2.2)

theorem horner_pos {p q : Nat} (hq : 0 < q) (k m : Nat) : 0 < (horner p q k m).2.2 := by
  induction m generalizing k with
  | zero => simp [horner]
  | succ m ih => simp only [horner]; have := ih (k + 1); positivity

theorem horner_value {p q : Nat} (hq : 0 < q) (k m : Nat) : ((horner p q k m).1 - (horner p q k m).2.1 : ℝ) / (horner p q k m).2.2 =
    ∑ j ∈ range m, (-(p / q : ℝ)) ^ j * k.factorial / (k + j).factorial := by
  induction m generalizing k with
  | zero => simp [horner]
  | succ m ih =>
    have hpos := horner_pos (p := p) hq (k + 1) m
    have h := ih (k + 1)
    rw [sum_range_succ']
    simp only [horner]
    set r := horner p q (k + 1) m with hr
    have hq' : (q : ℝ) ≠ 0 := by positivity
    have hr' : (r.2.2 : ℝ) ≠ 0 := by positivity
    have hk : ((k : ℝ) + 1) ≠ 0 := by positivity
    have hk' : (k.factorial : ℝ) ≠ 0 := by positivity
    have e1 : ∑ j ∈ range m, (-(p / q : ℝ)) ^ (j + 1) * k.factorial / (k + (j + 1)).factorial = -(p / q : ℝ) / (k + 1) * ((r.1 - r.2.1) / r.2.2 : ℝ) := by
      rw [h, mul_sum]
      refine sum_congr rfl fun j _ => ?_
      have e2 : k + (j + 1) = k + 1 + j := by ring
      rw [e2]
      have e3 : ((k + 1).factorial : ℝ) = (k + 1) * k.factorial := by push_cast [Nat.factorial_succ]; ring
      have e4 : ((k + 1 + j).factorial : ℝ) ≠ 0 := by positivity
      rw [e3, pow_succ]
      field_simp
    rw [e1]
    push_cast
    simp only [pow_zero, one_mul, Nat.add_zero]
    field_simp
    ring

theorem horner_S {p q : Nat} (hq : 0 < q) (m : Nat) : ((horner p q 0 m).1 - (horner p q 0 m).2.1 : ℝ) / (horner p q 0 m).2.2 = S m (p / q) := by
  rw [horner_value hq, S]
  simp

/-- `y / 10 ^ 23` is the value of `exp (-p / q)`, up to `5 / 10 ^ 20`. -/
def expOk (p q y : Nat) : Bool :=
  decide (p ≤ 8 * q) &&
  let r := horner p q 0 64
  decide (10 ^ 23 * r.1 ≤ 10 ^ 23 * r.2.1 + (y + 4 * 10 ^ 3) * r.2.2) && decide (10 ^ 23 * r.2.1 + y * r.2.2 ≤ 10 ^ 23 * r.1 + 4 * 10 ^ 3 * r.2.2)

theorem exp_of_ok {p q y : Nat} (hq : 0 < q) (h : expOk p q y = true) : |Real.exp (-(p / q : ℝ)) - (y : ℝ) / 10 ^ 23| ≤ 5 / 10 ^ 20 := by
  simp only [expOk, Bool.and_eq_true, decide_eq_true_eq] at h
  obtain ⟨h1, h2, h3⟩ := h
  have hv := horner_S (p := p) hq 64
  have hpos := horner_pos (p := p) hq 0 64
  generalize horner p q 0 64 = r at h2 h3 hv hpos
  have hr : (0 : ℝ) < r.2.2 := by exact_mod_cast hpos
  have hq' : (0 : ℝ) < q := by exact_mod_cast hq
  have h3 : |S 64 (p / q : ℝ) - (y : ℝ) / 10 ^ 23| ≤ 4 / 10 ^ 20 := by
    rw [← hv]
    have h2' : (10 : ℝ) ^ 23 * r.1 ≤ 10 ^ 23 * r.2.1 + (y + 4 * 10 ^ 3) * r.2.2 := by exact_mod_cast h2
    have h3' : (10 : ℝ) ^ 23 * r.2.1 + y * r.2.2 ≤ 10 ^ 23 * r.1 + 4 * 10 ^ 3 * r.2.2 := by exact_mod_cast h3
    have h4 : (((r.1 : ℝ) - r.2.1) / r.2.2 - (y : ℝ) / 10 ^ 23) = (10 ^ 23 * r.1 - 10 ^ 23 * r.2.1 - y * r.2.2 : ℝ) / (10 ^ 23 * r.2.2) := by
      field_simp
    rw [h4, abs_div, abs_of_pos (show (0 : ℝ) < 10 ^ 23 * r.2.2 by positivity), div_le_iff₀ (by positivity), abs_le]
    constructor <;> nlinarith
  have hz0 : (0 : ℝ) ≤ p / q := by positivity
  have hz8 : (p / q : ℝ) ≤ 8 := by rw [div_le_iff₀ hq']; exact_mod_cast h1
  have h6 := abs_exp_sub_S 64 hz0
  have h7 : (p / q : ℝ) ^ 64 / (64 : Nat).factorial ≤ 1 / 10 ^ 20 := by
    refine (div_le_div_of_nonneg_right (pow_le_pow_left₀ hz0 hz8 64) (by positivity)).trans ?_
    rw [show (64 : Nat).factorial = 126886932185884164103433389335161480802865516174545192198801894375214704230400000000000000 by norm_num [Nat.factorial]]
    norm_num
  have h8 := abs_sub_le (Real.exp (-(p / q : ℝ))) (S 64 (p / q)) ((y : ℝ) / 10 ^ 23)
  have : (5 : ℝ) / 10 ^ 20 = 1 / 10 ^ 20 + 4 / 10 ^ 20 := by norm_num
  linarith

end Boost.Random.ExpSeries
