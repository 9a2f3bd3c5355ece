import Verif.Proofs.PtrdReal

/-!
# The hat of algorithm PTRD far from the centre
-/

namespace Boost.Random.PtrdBox

theorem exp_ge_sum (x : ℝ) (hx : 0 ≤ x) (n : Nat) : ∑ i ∈ Finset.range n, x ^ i / i.factorial ≤ Real.exp x := Real.sum_le_exp_of_nonneg hx n

section
variable {p δ : ℝ} (h0 : 0 ≤ δ) (h1 : δ ≤ 31623 / 100000)
include h0 h1

/-- Far above the mean. -/
theorem tail_right (hp : 300 ≤ p) : 0 ≤ M p δ - 555 / 1000 * δ ∧
    SL p δ * p * Real.exp (-((M p δ - 555 / 1000 * δ) ^ 2 / (2 + (M p δ - 555 / 1000 * δ) * δ))) ≤ IA δ := by
  obtain ⟨a1, a2, b1, b2, i1, _⟩ := const_bounds h0 h1
  have hp0 : 0 < p := by linarith
  have hinv : p⁻¹ ≤ 1 / 300 := by rw [inv_le_comm₀ hp0 (by norm_num)]; linarith
  have hinv0 : 0 < p⁻¹ := inv_pos.2 hp0
  unfold M SL
  generalize A δ = a at *
  generalize B δ = b at *
  have hbp : b * p⁻¹ ≤ 283 / 100 * (1 / 300) := mul_le_mul b2 hinv hinv0.le (by norm_num)
  have hm : 514 / 10000 * p + 9 / 10 ≤ a * (p - 2) + (1 / 2 * b - b * p⁻¹) - 555 / 1000 * δ := by nlinarith
  generalize a * (p - 2) + (1 / 2 * b - b * p⁻¹) - 555 / 1000 * δ = t at hm
  have ht : 16 ≤ t := by linarith
  refine ⟨by linarith, ?_⟩
  have hE : 116 / 1000 * p ≤ t ^ 2 / (2 + t * δ) := by
    have hden : 0 < 2 + t * δ := by have : 0 ≤ t * δ := mul_nonneg (by linarith) h0
                                    linarith
    have h2 : 226 / 100 * t ≤ t ^ 2 / (2 + t * δ) := by
      rw [le_div_iff₀ hden]
      have : t * δ ≤ t * (31623 / 100000) := mul_le_mul_of_nonneg_left h1 (by linarith)
      nlinarith
    linarith
  have hS : (a * (p * p) + b) * p ≤ 63 / 1000 * p ^ 3 := by
    have h2 : a * (p * p) ≤ 629 / 10000 * (p * p) := mul_le_mul_of_nonneg_right a2 (by positivity)
    have h3 : 300 * 300 ≤ p * p := mul_le_mul hp hp (by norm_num) hp0.le
    have h4 : a * (p * p) + b ≤ 63 / 1000 * (p * p) := by linarith
    calc (a * (p * p) + b) * p ≤ 63 / 1000 * (p * p) * p := mul_le_mul_of_nonneg_right h4 hp0.le
      _ = _ := by ring
  have hexp : 63 / 1000 * p ^ 3 ≤ 11239 / 10000 * Real.exp (116 / 1000 * p) := by
    have h3 := Real.pow_div_factorial_le_exp (116 / 1000 * p) (by positivity) 6
    have h4 : 63 / 1000 * p ^ 3 ≤ 11239 / 10000 * ((116 / 1000 * p) ^ 6 / (Nat.factorial 6 : ℝ)) := by
      norm_num [Nat.factorial]
      have h5 : (300 : ℝ) ^ 3 ≤ p ^ 3 := pow_le_pow_left₀ (by norm_num) hp 3
      have h6 : 0 < p ^ 3 := by positivity
      have e : (29 / 250 * p) ^ 6 = (29 / 250) ^ 6 * (p ^ 3 * p ^ 3) := by ring
      rw [e]
      nlinarith
    exact h4.trans (mul_le_mul_of_nonneg_left h3 (by norm_num))
  calc (a * (p * p) + b) * p * Real.exp (-(t ^ 2 / (2 + t * δ))) ≤ (11239 / 10000 * Real.exp (116 / 1000 * p)) * Real.exp (-(116 / 1000 * p)) :=
        mul_le_mul (hS.trans hexp) (Real.exp_le_exp.2 (by linarith)) (Real.exp_pos _).le (by positivity)
    _ = 11239 / 10000 := by rw [mul_assoc, ← Real.exp_add, add_neg_cancel, Real.exp_zero, mul_one]
    _ ≤ IA δ := i1

/-- The slope far below the mean. -/
theorem slope_low {σ : ℝ} (hσ : 316 / 100 ≤ σ) (hp : 2 ≤ p) (hM : M p δ - 445 / 1000 * δ ≤ σ) : SL p δ ≤ 23 * σ ^ 2 ∧ p ≤ 21 * σ := by
  obtain ⟨a1, a2, b1, b2, i1, _⟩ := const_bounds h0 h1
  have hp0 : 0 < p := by linarith
  have hinv : p⁻¹ ≤ 1 / 2 := by rw [inv_le_comm₀ hp0 (by norm_num)]; linarith
  unfold M at hM
  unfold SL
  generalize A δ = a at *
  generalize B δ = b at *
  have hbp : b * p⁻¹ ≤ b * (1 / 2) := mul_le_mul_of_nonneg_left hinv (by linarith)
  have h2 : a * (p - 2) ≤ σ + 141 / 1000 := by linarith
  have h3 : p ≤ 1946 / 100 * (σ + 141 / 1000) + 2 := by nlinarith
  have h4 : a * p ≤ σ + 267 / 1000 := by nlinarith
  refine ⟨?_, by linarith⟩
  have h5 : a * (p * p) ≤ (σ + 267 / 1000) * (1946 / 100 * (σ + 141 / 1000) + 2) := by
    rw [← mul_assoc]
    exact mul_le_mul h4 h3 hp0.le (by linarith)
  nlinarith

omit h0 h1 in
theorem exp_low {σ : ℝ} (hσ : 316 / 100 ≤ σ) (hσ2 : 10 ≤ σ * σ) : 23 * σ ^ 2 * (σ * Real.exp (-(669 / 1000 * (σ * σ)))) ≤ 11239 / 10000 := by
  have h1 : (660 : ℝ) ≤ Real.exp (669 / 100) := by
    refine le_trans ?_ (exp_ge_sum (669 / 100) (by norm_num) 11)
    norm_num [Finset.sum_range_succ, Nat.factorial]
  set v := 669 / 1000 * (σ * σ) - 669 / 100 with hv
  have hv0 : 0 ≤ v := by nlinarith
  have h2 : 1 + v + v ^ 2 / 2 ≤ Real.exp v := by
    have := exp_ge_sum v hv0 3
    norm_num [Finset.sum_range_succ, Nat.factorial] at this
    linarith
  have h3 : 660 * (1 + v + v ^ 2 / 2) ≤ Real.exp (669 / 1000 * (σ * σ)) := by
    have e : 669 / 1000 * (σ * σ) = 669 / 100 + v := by rw [hv]; ring
    rw [e, Real.exp_add]
    exact mul_le_mul h1 h2 (by positivity) (by positivity)
  have h4 : 23 * σ ^ 2 * σ ≤ 11239 / 10000 * Real.exp (669 / 1000 * (σ * σ)) := by
    refine le_trans ?_ (mul_le_mul_of_nonneg_left h3 (by norm_num))
    have e : σ * σ = (v + 669 / 100) * (1000 / 669) := by rw [hv]; ring
    have h5 : σ * (316 / 100) ≤ σ * σ := mul_le_mul_of_nonneg_left hσ (by linarith)
    have e2 : σ ^ 2 * σ * (316 / 100) ≤ (σ * σ) * (σ * σ) := by nlinarith
    rw [e] at e2
    nlinarith
  rw [Real.exp_neg, ← div_eq_mul_inv, ← mul_div_assoc, div_le_iff₀ (Real.exp_pos _)]
  exact h4

/-- Far below the mean, the quick rejection. -/
theorem tail_left {w : ℝ} (hp : 769 / 10 ≤ p) (hw : w = M p δ - 445 / 1000 * δ) : 494 / 100 ≤ w ∧ SL p δ * p * (317 / 100 * Real.exp (-(w ^ 2 / 2))) ≤ IA δ := by
  obtain ⟨a1, a2, b1, b2, i1, _⟩ := const_bounds h0 h1
  have hp0 : 0 < p := by linarith
  have hinv : p⁻¹ ≤ 10 / 769 := by rw [inv_le_comm₀ hp0 (by norm_num)]; norm_num; linarith
  have hinv0 : 0 < p⁻¹ := inv_pos.2 hp0
  unfold M at hw
  unfold SL
  generalize A δ = a at *
  generalize B δ = b at *
  have hbp : b * p⁻¹ ≤ b * (10 / 769) := mul_le_mul_of_nonneg_left hinv (by linarith)
  have h2 : a * (p - 2) + 109 / 100 ≤ w := by rw [hw]; nlinarith
  have hw1 : 494 / 100 ≤ w := by nlinarith
  refine ⟨hw1, ?_⟩
  have h3 : p ≤ 1946 / 100 * (w - 109 / 100) + 2 := by nlinarith
  have h4 : a * p ≤ w - 96 / 100 := by nlinarith
  have h5 : (a * (p * p) + b) * p ≤ (w - 9 / 10) * p ^ 2 := by nlinarith
  have h6 : p ≤ 1946 / 100 * (w - 9 / 10) := by linarith
  have h7 : (w - 9 / 10) * p ^ 2 ≤ (w - 9 / 10) * (1946 / 100 * (w - 9 / 10)) ^ 2 :=
    mul_le_mul_of_nonneg_left (pow_le_pow_left₀ hp0.le h6 2) (by linarith)
  set v := w - 494 / 100 with hv
  have hv0 : 0 ≤ v := by linarith
  have he : (195000 : ℝ) ≤ Real.exp (122 / 10) := by
    refine le_trans ?_ (exp_ge_sum (122 / 10) (by norm_num) 24)
    norm_num [Finset.sum_range_succ, Nat.factorial]
  have he2 : 1 + 494 / 100 * v + (494 / 100 * v) ^ 2 / 2 + (494 / 100 * v) ^ 3 / 6 ≤ Real.exp (494 / 100 * v) := by
    have := exp_ge_sum (494 / 100 * v) (by positivity) 4
    norm_num [Finset.sum_range_succ, Nat.factorial] at this
    linarith
  have he3 : 195000 * (1 + 494 / 100 * v + (494 / 100 * v) ^ 2 / 2 + (494 / 100 * v) ^ 3 / 6) ≤ Real.exp (w ^ 2 / 2) := by
    refine le_trans (mul_le_mul he he2 (by positivity) (by positivity)) ?_
    rw [← Real.exp_add, Real.exp_le_exp]
    have : w = v + 494 / 100 := by rw [hv]; ring
    rw [this]
    nlinarith
  have h8 : (a * (p * p) + b) * p * (317 / 100) ≤ 11239 / 10000 * Real.exp (w ^ 2 / 2) := by
    refine le_trans ?_ (mul_le_mul_of_nonneg_left he3 (by norm_num))
    have h9 := h5.trans h7
    have : w = v + 494 / 100 := by rw [hv]; ring
    rw [this] at h9
    have v2 : 0 ≤ v ^ 2 := by positivity
    have v3 : 0 ≤ v ^ 3 := by positivity
    nlinarith
  rw [Real.exp_neg]
  refine le_trans ?_ i1
  rw [← mul_assoc, ← div_eq_mul_inv, div_le_iff₀ (Real.exp_pos _)]
  exact h8

omit h0 h1 in
theorem exp_low_tri {σ : ℝ} (hσ : 494 / 100 ≤ σ) : 23 * σ ^ 2 * (21 * σ) * (σ * Real.exp (-(669 / 1000 * (σ * σ)))) ≤ 11239 / 10000 := by
  have h1 := Real.pow_div_factorial_le_exp (669 / 1000 * (σ * σ)) (by positivity) 11
  have h2 : 23 * σ ^ 2 * (21 * σ) * σ ≤ 11239 / 10000 * Real.exp (669 / 1000 * (σ * σ)) := by
    refine le_trans ?_ (mul_le_mul_of_nonneg_left h1 (by norm_num))
    norm_num [Nat.factorial]
    have e : (669 / 1000 * (σ * σ)) ^ 11 = (669 / 1000) ^ 11 * (σ ^ 4 * σ ^ 18) := by ring
    have h3 : (494 / 100 : ℝ) ^ 18 ≤ σ ^ 18 := pow_le_pow_left₀ (by norm_num) hσ 18
    have h4 : 0 < σ ^ 4 := by positivity
    have h5 : σ ^ 4 * (494 / 100) ^ 18 ≤ σ ^ 4 * σ ^ 18 := mul_le_mul_of_nonneg_left h3 h4.le
    rw [e]
    have e2 : 23 * σ ^ 2 * (21 * σ) * σ = 483 * σ ^ 4 := by ring
    rw [e2]
    norm_num at h5 ⊢
    nlinarith
  rw [Real.exp_neg, ← div_eq_mul_inv, ← mul_div_assoc, div_le_iff₀ (Real.exp_pos _)]
  exact h2

end

end Boost.Random.PtrdBox
