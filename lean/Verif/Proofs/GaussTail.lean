import Verif.Proofs.ZigguratNormal
import Mathlib.Analysis.SpecialFunctions.Gaussian.GaussianIntegral
import Mathlib.Analysis.Real.Pi.Bounds
import Mathlib.MeasureTheory.Integral.IntegralEqImproper

/-!
# The integral of the tail of the normal curve
-/

namespace Boost.Random.Normal
open Spec Zig MeasureTheory Set Finset

/-- Horner's scheme for `∑ (-p / q) ^ j * k! / ((k + j)! * (2 * (k + j) + 1))` over `j < m`: positive terms, negative terms, denominator. -/
def horner (p q : Nat) (k : Nat) : Nat → Nat × Nat × Nat
  | 0 => (0, 0, 1)
  | m + 1 =>
    let r := horner p q (k + 1) m
    (q * (k + 1) * r.2.2 + p * (2 * k + 1) * r.2.1, p * (2 * k + 1) * r.1, q * (k + 1) * (2 * k + 1) * r.2.2)

theorem horner_pos {p q : Nat} (hq : 0 < q) (k m : Nat) : 0 < (horner p q k m).2.2 := by
  induction m generalizing k with
  | zero => simp [horner]
  | succ m ih => simp only [horner]; have := ih (k + 1); positivity

theorem horner_value {p q : Nat} (hq : 0 < q) (k m : Nat) : ((horner p q k m).1 - (horner p q k m).2.1 : ℝ) / (horner p q k m).2.2 =
    ∑ j ∈ range m, (-(p / q : ℝ)) ^ j * k.factorial / ((k + j).factorial * (2 * (k + j : Nat) + 1)) := by
  induction m generalizing k with
  | zero => simp [horner]
  | succ m ih =>
    have hpos := horner_pos (p := p) hq (k + 1) m
    have h := ih (k + 1)
    rw [sum_range_succ']
    simp only [horner]
    set r := horner p q (k + 1) m with hr
    have hq' : (q : ℝ) ≠ 0 := by positivity
    have hr' : (r.2.2 : ℝ) ≠ 0 := by positivity
    have hk : ((k : ℝ) + 1) ≠ 0 := by positivity
    have hk2 : (2 * (k : ℝ) + 1) ≠ 0 := by positivity
    have hk' : (k.factorial : ℝ) ≠ 0 := by positivity
    have e1 : ∑ j ∈ range m, (-(p / q : ℝ)) ^ (j + 1) * k.factorial / ((k + (j + 1)).factorial * (2 * (k + (j + 1) : Nat) + 1)) =
        -(p / q : ℝ) / (k + 1) * ((r.1 - r.2.1) / r.2.2 : ℝ) := by
      rw [h, mul_sum]
      refine sum_congr rfl fun j _ => ?_
      have e2 : k + (j + 1) = k + 1 + j := by ring
      rw [e2]
      have e3 : ((k + 1).factorial : ℝ) = (k + 1) * k.factorial := by push_cast [Nat.factorial_succ]; ring
      have e4 : ((k + 1 + j).factorial : ℝ) ≠ 0 := by positivity
      have e5 : (2 * ((k + 1 + j : Nat) : ℝ) + 1) ≠ 0 := by positivity
      rw [e3, pow_succ]
      field_simp
    rw [e1]
    push_cast
    simp only [pow_zero, one_mul, Nat.add_zero]
    field_simp
    ring

theorem horner_zero {p q : Nat} (hq : 0 < q) (m : Nat) : ((horner p q 0 m).1 - (horner p q 0 m).2.1 : ℝ) / (horner p q 0 m).2.2 =
    ∑ j ∈ range m, (-(p / q : ℝ)) ^ j / (j.factorial * (2 * j + 1)) := by
  rw [horner_value hq]
  simp

theorem integral_S (n : Nat) (x : ℝ) : ∫ s in (0 : ℝ)..x, ExpSeries.S n (s * s / 2) = x * ∑ k ∈ range n, (-(x * x / 2)) ^ k / (k.factorial * (2 * k + 1)) := by
  simp only [ExpSeries.S]
  rw [intervalIntegral.integral_finsetSum, mul_sum]
  · refine sum_congr rfl fun k _ => ?_
    have e : ∀ s : ℝ, (-(s * s / 2)) ^ k / k.factorial = ((-1 / 2) ^ k / k.factorial) * s ^ (2 * k) := by
      intro s
      rw [show -(s * s / 2) = (-1 / 2) * s ^ 2 by ring, mul_pow, ← pow_mul]
      ring
    simp only [e]
    rw [intervalIntegral.integral_const_mul, integral_pow]
    rw [show -(x * x / 2) = (-1 / 2) * x ^ 2 by ring, mul_pow, ← pow_mul]
    have h1 : (k.factorial : ℝ) ≠ 0 := by positivity
    have h2 : (2 * (k : ℝ) + 1) ≠ 0 := by positivity
    push_cast
    rw [pow_succ]
    field_simp
    simp
  · intro k _
    exact Continuous.intervalIntegrable (by fun_prop) _ _

theorem integral_φ_series (n : Nat) {x : ℝ} (hx : 0 ≤ x) :
    |(∫ s in (0 : ℝ)..x, φ s) - x * ∑ k ∈ range n, (-(x * x / 2)) ^ k / (k.factorial * (2 * k + 1))| ≤ (x * x / 2) ^ n / n.factorial * x := by
  have hc : Continuous fun s : ℝ => ExpSeries.S n (s * s / 2) := by unfold ExpSeries.S; fun_prop
  rw [← integral_S, ← intervalIntegral.integral_sub (continuous_φ.intervalIntegrable _ _) (hc.intervalIntegrable _ _)]
  have h : ∀ s ∈ uIoc 0 x, ‖φ s - ExpSeries.S n (s * s / 2)‖ ≤ (x * x / 2) ^ n / n.factorial := by
    intro s hs
    rw [uIoc_of_le hx] at hs
    rw [Real.norm_eq_abs]
    have h1 := ExpSeries.abs_exp_sub_S n (z := s * s / 2) (by nlinarith [hs.1])
    refine h1.trans (div_le_div_of_nonneg_right (pow_le_pow_left₀ (by nlinarith [hs.1]) (by nlinarith [hs.1, hs.2]) n) (by positivity))
  have h2 := intervalIntegral.norm_integral_le_of_norm_le_const h
  rwa [Real.norm_eq_abs, sub_zero, abs_of_nonneg hx] at h2

theorem integrable_φ : Integrable φ := by
  have h := integrable_exp_neg_mul_sq (show (0 : ℝ) < 1 / 2 by norm_num)
  refine h.congr (Filter.Eventually.of_forall fun x => ?_)
  simp only [φ]; congr 1; ring

theorem integral_φ : ∫ x in Ioi (0 : ℝ), φ x = √(Real.pi / 2) := by
  have h := integral_gaussian_Ioi (1 / 2)
  have e : ∫ x in Ioi (0 : ℝ), φ x = ∫ x in Ioi (0 : ℝ), Real.exp (-(1 / 2) * x ^ 2) := by
    refine integral_congr_ae (Filter.Eventually.of_forall fun x => ?_)
    simp only [φ]; congr 1; ring
  rw [e, h, show Real.pi / 2 = Real.pi / (1 / 2) / 4 by ring, Real.sqrt_div' _ (by norm_num : (0 : ℝ) ≤ 4), show (4 : ℝ) = 2 ^ 2 by norm_num,
    Real.sqrt_sq (by norm_num)]

/-- Half of the area below the curve. -/
noncomputable def H : ℝ := √(Real.pi / 2)

/-- The area below the curve between 0 and `x`. -/
noncomputable def I (x : ℝ) : ℝ := ∫ s in (0 : ℝ)..x, φ s

theorem I_add_tail {x : ℝ} (hx : 0 ≤ x) : I x + ∫ s in Ioi x, φ s = H := by
  rw [I, H, ← integral_φ, intervalIntegral.integral_of_le hx, ← Ioc_union_Ioi_eq_Ioi hx,
    setIntegral_union (Ioc_disjoint_Ioi le_rfl) measurableSet_Ioi integrable_φ.integrableOn integrable_φ.integrableOn]

theorem H_bounds : 1.2533141373155002512 < H ∧ H < 1.2533141373155002513 := by
  have h1 := Real.pi_gt_d20
  have h2 := Real.pi_lt_d20
  rw [H]
  constructor
  · refine Real.lt_sqrt_of_sq_lt ?_
    norm_num at h1 ⊢
    linarith
  · rw [Real.sqrt_lt' (by norm_num)]
    norm_num at h2 ⊢
    linarith

theorem series_bounds : (10 ^ 24 * (horner (344261985589665212140000 ^ 2) (2 * 10 ^ 46) 0 64).1 ≤
      10 ^ 24 * (horner (344261985589665212140000 ^ 2) (2 * 10 ^ 46) 0 64).2.1 + 363848506313236319588160 * (horner (344261985589665212140000 ^ 2) (2 * 10 ^ 46) 0 64).2.2) ∧
    10 ^ 24 * (horner (344261985589665212140000 ^ 2) (2 * 10 ^ 46) 0 64).2.1 + 363848506313236319588159 * (horner (344261985589665212140000 ^ 2) (2 * 10 ^ 46) 0 64).2.2 ≤
      10 ^ 24 * (horner (344261985589665212140000 ^ 2) (2 * 10 ^ 46) 0 64).1 := by decide +kernel

theorem I_bounds : |I (X 1) - X 1 * 0.363848506313236319588159| ≤ 1 / 10 ^ 22 := by
  have hX : (0 : ℝ) ≤ X 1 := by rw [X_1]; norm_num
  have h := integral_φ_series 64 hX
  have hv := horner_zero (p := 344261985589665212140000 ^ 2) (q := 2 * 10 ^ 46) (by norm_num) 64
  have hz : (((344261985589665212140000 ^ 2 : Nat) : ℝ) / ((2 * 10 ^ 46 : Nat) : ℝ)) = X 1 * X 1 / 2 := by rw [X_1]; push_cast; norm_num
  rw [hz] at hv
  rw [← hv] at h
  have hb := series_bounds
  have hpos := horner_pos (p := 344261985589665212140000 ^ 2) (q := 2 * 10 ^ 46) (by norm_num) 0 64
  generalize horner (344261985589665212140000 ^ 2) (2 * 10 ^ 46) 0 64 = r at h hb hpos
  have hr : (0 : ℝ) < r.2.2 := by exact_mod_cast hpos
  have b1 : (10 : ℝ) ^ 24 * r.1 ≤ 10 ^ 24 * r.2.1 + 363848506313236319588160 * r.2.2 := by exact_mod_cast hb.1
  have b2 : (10 : ℝ) ^ 24 * r.2.1 + 363848506313236319588159 * r.2.2 ≤ 10 ^ 24 * r.1 := by exact_mod_cast hb.2
  have c1 : ((r.1 : ℝ) - r.2.1) / r.2.2 ≤ 0.363848506313236319588160 := by rw [div_le_iff₀ hr]; norm_num at b1 ⊢; linarith
  have c2 : (0.363848506313236319588159 : ℝ) ≤ ((r.1 : ℝ) - r.2.1) / r.2.2 := by rw [le_div_iff₀ hr]; norm_num at b2 ⊢; linarith
  have h7 : (X 1 * X 1 / 2) ^ 64 / (64 : Nat).factorial * X 1 ≤ 1 / 10 ^ 30 := by
    have hz8 : X 1 * X 1 / 2 ≤ 6 := by rw [X_1]; norm_num
    have hx4 : X 1 ≤ 4 := by rw [X_1]; norm_num
    have h1 : (X 1 * X 1 / 2) ^ 64 / (64 : Nat).factorial ≤ 6 ^ 64 / (64 : Nat).factorial :=
      div_le_div_of_nonneg_right (pow_le_pow_left₀ (by positivity) hz8 64) (by positivity)
    refine (mul_le_mul h1 hx4 hX (by positivity)).trans ?_
    rw [show (64 : Nat).factorial = 126886932185884164103433389335161480802865516174545192198801894375214704230400000000000000 by norm_num [Nat.factorial]]
    norm_num
  have h8 := abs_le.1 (h.trans h7)
  rw [I]
  generalize ((r.1 : ℝ) - r.2.1) / r.2.2 = v at *
  have m1 := mul_le_mul_of_nonneg_left c1 hX
  have m2 := mul_le_mul_of_nonneg_left c2 hX
  have hx4 : X 1 ≤ 4 := by rw [X_1]; norm_num
  rw [abs_le]
  norm_num at *
  constructor <;> linarith [h8.1, h8.2]

/-- The strip of the first layer beyond the first corner has the area of the tail. -/
theorem tail_area : |(X 0 - X 1) * Y 1 - (H - I (X 1))| ≤ 2 / 10 ^ 19 := by
  have h1 := H_bounds
  have h2 := abs_le.1 I_bounds
  have h3 : X 1 = 3.4426198558966521214 := X_1
  generalize I (X 1) = v at *
  rw [h3] at h2 ⊢
  rw [X_0, Y_1, abs_le]
  norm_num at h1 h2 ⊢
  constructor <;> linarith [h1.1, h1.2, h2.1, h2.2]

end Boost.Random.Normal
