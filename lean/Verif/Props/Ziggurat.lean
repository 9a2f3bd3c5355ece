import Verif.Proofs.ZigguratExpLaw
import Verif.Proofs.GaussCdf
import Verif.Proofs.ZigguratFloat
import Mathlib.Probability.Distributions.Exponential

/-!
# Properties C80 to C85: the exponential and the normal distribution
-/

namespace Boost.Random
open Spec RealDist

/-- A decimal number of a table. -/
noncomputable def decimal (t : List Nat) (i : Nat) : ℝ := (t.getD i 0 : ℝ) / 10 ^ 23

/-! ## C80: the tables -/

/-- C80: the tables of the exponential distribution. They have 257 entries, the abscissae decrease to 0, the ordinates increase from 0 to 1,
every ordinate but the first is the value of `e^-x` at the abscissa up to 5·10^-20, all 256 layers have the same area up to 10^-19, and the
part of the lowest layer beyond the second abscissa has the area of the tail of the curve beyond it, up to 5·10^-20. -/
theorem c80_exponential_tables :
    let x := decimal Exponential.tableX
    let y := decimal Exponential.tableY
    Exponential.tableX.length = 257 ∧ Exponential.tableY.length = 257 ∧ x 256 = 0 ∧ y 0 = 0 ∧ y 256 = 1 ∧
    (∀ i, i < 256 → x (i + 1) < x i ∧ y i < y (i + 1) ∧ |(y (i + 1) - y i) * x i - x 0 * y 1| ≤ 1 / 10 ^ 19) ∧
    (∀ i, 1 ≤ i → i ≤ 256 → |Real.exp (-x i) - y i| ≤ 5 / 10 ^ 20) ∧
    |(x 0 - x 1) * y 1 - Real.exp (-x 1)| ≤ 5 / 10 ^ 20 := by
  intro x y
  have H := Exponential.table
  refine ⟨Exponential.lengths.1, Exponential.lengths.2, H.xlast, H.y0, H.ylast, fun i hi => ⟨H.xdec i hi, H.yinc i hi, H.area i hi⟩,
    fun i h1 h2 => Exponential.value h1 h2, ?_⟩
  have h1 : x 0 - x 1 = 1 := by have := Exponential.X_step; change Exponential.X 0 - Exponential.X 1 = 1; linarith
  rw [h1, one_mul, abs_sub_comm]
  exact Exponential.value le_rfl (by norm_num)

example : decimal Exponential.tableX 0 = 8.6971174701310497140 ∧ decimal Exponential.tableY 1 = 0.00045413435384149675545 := ⟨Exponential.X_first, Exponential.Y_one⟩

/-- C80: the tables of the normal distribution. They have 129 entries, the abscissae decrease to 0, the ordinates increase from 0 to 1, every
ordinate but the first is the value of `e^(-x²/2)` at the abscissa up to 5·10^-20, all 128 layers have the same area up to 10^-19, and the part
of the lowest layer beyond the second abscissa has the area of the tail of the curve beyond it, up to 2·10^-19. -/
theorem c80_normal_tables :
    let x := decimal Normal.tableX
    let y := decimal Normal.tableY
    Normal.tableX.length = 129 ∧ Normal.tableY.length = 129 ∧ x 128 = 0 ∧ y 0 = 0 ∧ y 128 = 1 ∧
    (∀ i, i < 128 → x (i + 1) < x i ∧ y i < y (i + 1) ∧ |(y (i + 1) - y i) * x i - x 0 * y 1| ≤ 1 / 10 ^ 19) ∧
    (∀ i, 1 ≤ i → i ≤ 128 → |Real.exp (-(x i ^ 2 / 2)) - y i| ≤ 5 / 10 ^ 20) ∧
    |(x 0 - x 1) * y 1 - ∫ s in Set.Ioi (x 1), Real.exp (-(s ^ 2 / 2))| ≤ 2 / 10 ^ 19 := by
  intro x y
  have H := Normal.table
  refine ⟨Normal.lengths.1, Normal.lengths.2, H.xlast, H.y0, H.ylast, fun i hi => ⟨H.xdec i hi, H.yinc i hi, H.area i hi⟩, fun i h1 h2 => ?_, ?_⟩
  · rw [pow_two]; exact Normal.value h1 h2
  · have h := Normal.tail_area
    rw [← Normal.I_add_tail Normal.X1_pos.le, add_sub_cancel_left] at h
    simp only [pow_two]
    exact h

example : decimal Normal.tableX 1 = 3.4426198558966521214 ∧ decimal Normal.tableY 1 = 0.0026696290839025035092 := ⟨Normal.X_1, Normal.Y_1⟩

/-! ## C81: the acceptance tests -/

/-- C81: in exact arithmetic a point of a layer is accepted only if it is below the curve `e^-x` up to 10^-19, and a point that is below the
curve by 10^-19 is accepted: the tests that save the evaluation of the exponential function do not change the outcome. -/
theorem c81_exponential_accept (i : Nat) (h1 : 1 ≤ i) (h2 : i < 256) :
    let x := decimal Exponential.tableX
    let y := decimal Exponential.tableY
    ∀ s w : ℝ, x (i + 1) ≤ s → s < x i → 0 ≤ w → w < 1 →
      (Exponential.accept exactOps (x i) (x (i + 1)) (y i) (y (i + 1)) s w = true → y i + w * (y (i + 1) - y i) < Real.exp (-s) + 1 / 10 ^ 19) ∧
      (y i + w * (y (i + 1) - y i) < Real.exp (-s) - 1 / 10 ^ 19 → Exponential.accept exactOps (x i) (x (i + 1)) (y i) (y (i + 1)) s w = true) :=
  Exponential.decides i h1 h2

/-- C81: the same for the curve `e^(-x²/2)`, where the roles of the chord and the tangent change at the point of inflection. -/
theorem c81_normal_accept (i : Nat) (h1 : 1 ≤ i) (h2 : i < 128) :
    let x := decimal Normal.tableX
    let y := decimal Normal.tableY
    ∀ s w : ℝ, x (i + 1) ≤ s → s < x i → 0 ≤ w → w < 1 →
      (Normal.accept exactOps (x i) (x (i + 1)) (y i) (y (i + 1)) s w = true → y i + w * (y (i + 1) - y i) < Real.exp (-(s * s / 2)) + 1 / 10 ^ 19) ∧
      (y i + w * (y (i + 1) - y i) < Real.exp (-(s * s / 2)) - 1 / 10 ^ 19 → Normal.accept exactOps (x i) (x (i + 1)) (y i) (y (i + 1)) s w = true) :=
  Normal.decides i h1 h2

/-- The layer with the point of inflection. -/
example : decimal Normal.tableX 102 < 1 ∧ 1 < decimal Normal.tableX 101 := by
  constructor
  · change Normal.X 102 < 1; rw [Normal.X_102]; norm_num
  · change 1 < Normal.X 101; rw [Normal.X_101]; norm_num

/-! ## C82: the exponential distribution -/

/-- C82: in exact arithmetic, with independent uniform numbers, the value that `exponential_distribution` with the parameter `lambda` returns
within `n` iterations is at most `t` with the probability that an exponential variable is, up to `2·10^-15 + 50^-n`. -/
theorem c82_exponential_law (lambda : ℝ) (hl : 0 < lambda) (t : ℝ) (n : Nat) :
    |(prob n fun l => Run.Le (Exponential.generate exactOps lambda (idealExp n) (.none, l)) t).toReal -
      ProbabilityTheory.cdf (ProbabilityTheory.expMeasure lambda) t| ≤ 2 / 10 ^ 15 + (1 / 50) ^ n := by
  have h := Exponential.law (t * lambda) n 0
  rw [ProbabilityTheory.cdf_expMeasure_eq hl]
  have e1 : (prob n fun l => Run.Le (Exponential.generate exactOps lambda (idealExp n) (.none, l)) t) = prob n (Exponential.Q (t * lambda) n 0 .none) := by
    refine prob_congr fun l => ?_
    simp only [Exponential.generate, idealExp, Exponential.Q, Run.Le]
    cases Exponential.unit exactOps ideal n 0 (.none, l) with
    | done v s =>
      simp only [Run.bind]
      constructor
      · rintro ⟨_, _, e, hle⟩
        cases e
        exact ⟨_, _, rfl, (div_le_iff₀ hl).1 hle⟩
      · rintro ⟨_, _, e, hle⟩
        cases e
        exact ⟨_, _, rfl, (div_le_iff₀ hl).2 hle⟩
    | more => simp only [Run.bind]; constructor <;> rintro ⟨_, _, e, _⟩ <;> cases e
    | ub => simp only [Run.bind]; constructor <;> rintro ⟨_, _, e, _⟩ <;> cases e
  rw [e1]
  have e2 : (if 0 ≤ t then 1 - Real.exp (-(lambda * t)) else 0) = Exponential.G (t * lambda - 0) := by
    rw [sub_zero, Exponential.G]
    by_cases ht : 0 ≤ t
    · rw [if_pos ht, if_pos (mul_nonneg ht hl.le), mul_comm]
    · rw [if_neg ht, if_neg (not_le.2 (mul_neg_of_neg_of_pos (not_le.1 ht) hl))]
  rw [e2]
  exact h

/-- With ten iterations the error is below 10^-14, for example at the median of the distribution with the parameter 2. -/
example : |(prob 10 fun l => Run.Le (Exponential.generate exactOps 2 (idealExp 10) (.none, l)) (Real.log 2 / 2)).toReal - 1 / 2| ≤ 1 / 10 ^ 14 := by
  have h := c82_exponential_law 2 (by norm_num) (Real.log 2 / 2) 10
  have hl := Real.log_nonneg (show (1 : ℝ) ≤ 2 by norm_num)
  rw [ProbabilityTheory.cdf_expMeasure_eq (by norm_num), if_pos (by linarith), show -(2 * (Real.log 2 / 2)) = -Real.log 2 by ring, Real.exp_neg,
    Real.exp_log (by norm_num), show (1 : ℝ) - 2⁻¹ = 1 / 2 by norm_num] at h
  exact h.trans (by norm_num)

/-! ## C83: the normal distribution -/

/-- C83: in exact arithmetic, with independent uniform numbers and independent exponential numbers, the value that `normal_distribution`
returns within `n` iterations of each of its loops is at most `t` with the probability that a normal variable with that mean and standard
deviation is, up to `10^-15 + 10^-n`. -/
theorem c83_normal_law (mean sigma : ℝ) (hs : 0 < sigma) (t : ℝ) (n : Nat) :
    |(prob n fun l => Run.Le (Normal.generate exactOps mean sigma ideal n (.none, l)) t).toReal -
      ProbabilityTheory.cdf (ProbabilityTheory.gaussianReal mean (.mk (sigma ^ 2) (sq_nonneg sigma))) t| ≤ 1 / 10 ^ 15 + (1 / 10) ^ n := by
  have h := Normal.law ((t - mean) / sigma) n
  rw [Normal.cdf_gaussian_scaled hs, Normal.cdf_gaussian]
  have e1 : (prob n fun l => Run.Le (Normal.generate exactOps mean sigma ideal n (.none, l)) t) = prob n (Normal.Q ((t - mean) / sigma) n .none) := by
    refine prob_congr fun l => ?_
    have hfl : ∀ x : ℝ, exactOps.fl x = x := fun _ => rfl
    simp only [Normal.generate, Normal.Q, Run.Le, hfl]
    cases Normal.unit exactOps ideal n (.none, l) with
    | done v s =>
      simp only [Run.bind]
      have key : v * sigma + mean ≤ t ↔ v ≤ (t - mean) / sigma := by
        rw [le_div_iff₀ hs]; constructor <;> intro h <;> linarith
      constructor
      · rintro ⟨_, _, e, hle⟩
        cases e
        exact ⟨_, _, rfl, key.1 hle⟩
      · rintro ⟨_, _, e, hle⟩
        cases e
        exact ⟨_, _, rfl, key.2 hle⟩
    | more => simp only [Run.bind]; constructor <;> rintro ⟨_, _, e, _⟩ <;> cases e
    | ub => simp only [Run.bind]; constructor <;> rintro ⟨_, _, e, _⟩ <;> cases e
  rw [e1]
  exact h

/-- The mean is the median. -/
example : |(prob 20 fun l => Run.Le (Normal.generate exactOps 7 3 ideal 20 (.none, l)) 7).toReal - 1 / 2| ≤ 1 / 10 ^ 14 := by
  have h := c83_normal_law 7 3 (by norm_num) 7 20
  have hH := Normal.H_bounds.1
  rw [Normal.cdf_gaussian_scaled (by norm_num), Normal.cdf_gaussian, sub_self, zero_div, Normal.Φ, Normal.J, if_pos le_rfl, Normal.I,
    intervalIntegral.integral_same, add_zero, show Normal.H / (2 * Normal.H) = 1 / 2 by
      rw [div_mul_eq_div_div_swap, div_self (by norm_num at hH; linarith)]] at h
  exact h.trans (by norm_num)

/-! ## C84: the tail of the normal distribution -/

/-- C84: in exact arithmetic, with independent exponential numbers, `generate_tail` returns within `n` iterations with a probability of
`1 - (1 - q)^n`, where `q` is at least 9/10, and then the value has the law of a normal variable that is known to exceed the second abscissa:
the rejection is exact. -/
theorem c84_tail_law : ∃ q : ℝ, 9 / 10 ≤ q ∧ q ≤ 1 ∧ ∀ n t,
    let c := ProbabilityTheory.cdf (ProbabilityTheory.gaussianReal 0 1)
    let a := decimal Normal.tableX 1
    (prob n fun l => Run.Le (Normal.tail exactOps ideal n (.none, l)) t).toReal =
      (if a ≤ t then (c t - c a) / (1 - c a) else 0) * (1 - (1 - q) ^ n) := by
  refine ⟨_, by have := Normal.tail_prob.1; norm_num at this ⊢; exact this, Normal.tail_prob.2, fun n t => ?_⟩
  intro c a
  have ha : a = Normal.X 1 := rfl
  have hX1 := Normal.X1_pos
  have h := Normal.T_eq (p := fun v => v ≤ t) measurableSet_Iic n
  have e : {p : ℝ × ℝ | Normal.dist p.1 + Normal.X 1 ≤ t} = {p | Normal.dist p.1 ≤ t - Normal.X 1} := by
    ext p; change Normal.dist p.1 + Normal.X 1 ≤ t ↔ Normal.dist p.1 ≤ t - Normal.X 1; constructor <;> intro h <;> linarith
  rw [e, Normal.volume_tail_upto, Normal.volume_tail, mul_div_mul_left _ _ Normal.κ_pos.ne'] at h
  change (prob n (Normal.TQ (fun v => v ≤ t) n .none)).toReal = _
  change (prob n (Normal.TQ (fun v => v ≤ t) n .none)).toReal = _ at h
  rw [h, Normal.volume_tail]
  congr 1
  have hH : 0 < Normal.H := by have := Normal.H_bounds.1; norm_num at this; linarith
  have hne : Normal.H - Normal.I (Normal.X 1) ≠ 0 := by
    have h1 := Normal.tail_prob.1
    rw [Normal.volume_tail] at h1
    intro h0
    rw [h0, mul_zero] at h1; norm_num at h1
  rw [ha]
  by_cases ht : Normal.X 1 ≤ t
  · rw [if_pos ht, max_eq_left ht]
    simp only [c, Normal.cdf_gaussian, Normal.Φ, Normal.J, if_pos hX1.le, if_pos (hX1.le.trans ht)]
    have h2 : 1 - (Normal.H + Normal.I (Normal.X 1)) / (2 * Normal.H) = (Normal.H - Normal.I (Normal.X 1)) / (2 * Normal.H) := by field_simp; ring
    rw [h2]
    field_simp
    ring
  · rw [if_neg ht, max_eq_right (not_le.1 ht).le, sub_self, zero_div]

/-- The threshold. -/
example : decimal Normal.tableX 1 ≤ 4 := by change Normal.X 1 ≤ 4; rw [Normal.X_1]; norm_num

/-! ## C85: floating-point arithmetic -/

section
variable {o : RealOps ℚ} {E : EngInfo} (H : Rounding 53 o.fl) (hE : EngOK E) (hD : DiffOK E)
  (hsafe : engineBits E - 8 % engineBits E < 53 → ¬ engineBits E ∣ 61) (n : Nat)
include H hE hD hsafe

/-- C85 (partial: the digits of the engine do not fill the fraction exactly, its differences do not overflow): for any rounding and any
exponential function, `exponential_distribution` with a positive parameter reads no table beyond its end and shifts by no illegal amount, its
value is not negative, and it reads a part of the input. Missing: the engines of `c49_shift_false` and `c50_signed_false`. -/
theorem c85_exponential_partial (lambda : ℚ) (hl : 0 < lambda) :
    ∀ xs, Outputs E xs → Exponential.generate o lambda (engineSource o E n) xs ≠ .ub ∧
      ∀ v rest, Exponential.generate o lambda (engineSource o E n) xs = .done v rest → 0 ≤ v ∧ rest <:+ xs := by
  have h := Exponential.unit_safe (S := { pair := fun xs => (RealDist.intFloatPair o.fl E 53 8 xs).run, unif := fun xs => (RealDist.uniform01 o.fl E xs).run, expo := fun _ => .ub })
    H (pair_safe H hE hsafe) (unif_safe H hE hD) n 0 le_rfl
  exact SafeRun.bind (p := fun v => 0 ≤ v) h fun v hv => SafeRun.done (fl_nonneg H (div_nonneg hv hl.le))

/-- C85 (partial: as above): the same for `normal_distribution`, whose value may be any number, and for its tail, whose value is not below the
second abscissa. -/
theorem c85_normal_partial (mean sigma : ℚ) :
    (∀ xs, Outputs E xs → Normal.generate o mean sigma (engineSource o E n) n xs ≠ .ub ∧
      ∀ v rest, Normal.generate o mean sigma (engineSource o E n) n xs = .done v rest → rest <:+ xs) ∧
    (∀ xs, Outputs E xs → Normal.tail o (engineSource o E n) n xs ≠ .ub ∧
      ∀ v rest, Normal.tail o (engineSource o E n) n xs = .done v rest → o.fl (344261985589665212140000 / 10 ^ 23) ≤ v ∧ rest <:+ xs) := by
  have h := Exponential.unit_safe (S := { pair := fun xs => (RealDist.intFloatPair o.fl E 53 8 xs).run, unif := fun xs => (RealDist.uniform01 o.fl E xs).run, expo := fun _ => .ub })
    H (pair_safe H hE hsafe) (unif_safe H hE hD) n 0 le_rfl
  have h2 := Normal.unit_safe (S := engineSource o E n) H (pair_safe H hE hsafe) (unif_safe H hE hD) h n
  refine ⟨fun xs hO => ?_, Normal.tail_safe H h n⟩
  obtain ⟨a, b⟩ := SafeRun.bind (r := fun _ : ℚ => True) h2 (fun v _ => SafeRun.done (v := o.fl (o.fl (v * sigma) + mean)) trivial) xs hO
  exact ⟨a, fun v rest e => (b v rest e).2⟩

end

/-- `mt19937` and `mt19937_64` meet the hypotheses. -/
example : (engineBits engMt - 8 % engineBits engMt < 53 → ¬ engineBits engMt ∣ 61) ∧ DiffOK engMt ∧ EngOK engMt ∧
    (engineBits engMt64 - 8 % engineBits engMt64 < 53 → ¬ engineBits engMt64 ∣ 61) ∧ DiffOK engMt64 ∧ EngOK engMt64 :=
  ⟨by decide +kernel, fun h => absurd h (by decide), engMt_ok, by decide +kernel, fun h => absurd h (by decide), engMt64_ok⟩

/-- Rational operations for a test. -/
def testOps : RealOps ℚ := ⟨id, id, fun x => 1 / (1 - x), id, fun x _ => x⟩

#guard match Exponential.generate testOps 2 (engineSource testOps engMt 3) [3141592653, 271828182, 1] with
  | .done v rest => v == 2280260068286579 / 4503599627370496 * ((Exponential.tableX.getD 77 0 : ℚ) / 10 ^ 23) / 2 && rest == [1]
  | _ => false
-- the lower bound is attained
#guard match Exponential.generate testOps 2 (engineSource testOps engMt 3) [77, 0, 1] with | .done v rest => v == 0 && rest == [1] | _ => false
#guard match Normal.generate testOps 10 2 (engineSource testOps engMt 3) 3 [3141592653, 271828182, 1] with
  | .done v rest => v == 2280260068286579 / 4503599627370496 * ((Normal.tableX.getD 38 0 : ℚ) / 10 ^ 23) * 2 + 10 && rest == [1]
  | _ => false

end Boost.Random
