import Verif.Proofs.PtrdTail
import Verif.Proofs.PtrdHatR
import Verif.Proofs.PtrdHatL
import Verif.Proofs.PtrdLow
import Verif.Proofs.Trd

/-!
# The hat of algorithm PTRD
-/

namespace Boost.Random.PtrdBox

open Boost.Random.Affine Spec Spec.Trd Set

section
variable {μ : ℝ} (hm : 10 ≤ μ)
include hm

theorem consts : ptrdA μ = Real.sqrt μ * A (Real.sqrt μ)⁻¹ ∧ ptrdB μ = Real.sqrt μ * B (Real.sqrt μ)⁻¹ ∧ ptrdVr μ = VR (Real.sqrt μ)⁻¹ ∧ ptrdInvAlpha μ = IA (Real.sqrt μ)⁻¹ := by
  obtain ⟨hs, hd, hd1, hs1, hq, hsd⟩ := delta_facts hm
  unfold ptrdVr ptrdInvAlpha ptrdA ptrdB A B VR IA
  generalize hδ : (Real.sqrt μ)⁻¹ = δ at *
  generalize Real.sqrt μ = σ at *
  have e1 : (0.931 + 2.53 * σ - 2 : ℝ) = σ * (253 / 100 - 1069 / 1000 * δ) := by linear_combination (1069 / 1000) * hsd
  have e2 : (0.931 + 2.53 * σ - 3.4 : ℝ) = σ * (253 / 100 - 2469 / 1000 * δ) := by linear_combination (2469 / 1000) * hsd
  refine ⟨?_, ?_, ?_, ?_⟩
  · linear_combination (3588327 / 100000000) * hsd
  · linear_combination (-931 / 1000) * hsd
  · rw [e1, div_eq_mul_inv, mul_inv, hδ]; norm_num
  · rw [e2, div_eq_mul_inv, mul_inv, hδ]; norm_num

theorem slope_eq (u : ℝ) : Trd.slope (ptrdA μ) (ptrdB μ) u = Real.sqrt μ * SL (1 / 2 - |u|)⁻¹ (Real.sqrt μ)⁻¹ := by
  obtain ⟨ea, eb, _, _⟩ := consts hm
  unfold Trd.slope SL
  rw [ea, eb, div_eq_mul_inv, sq, mul_inv]
  ring

theorem point_nonneg {u c : ℝ} (h0 : 0 ≤ u) (h1 : u < 1 / 2) : point (ptrdA μ) (ptrdB μ) c u = c + Real.sqrt μ * M (1 / 2 - |u|)⁻¹ (Real.sqrt μ)⁻¹ := by
  obtain ⟨ea, eb, _, _⟩ := consts hm
  rw [point_of_nonneg h0, ea, eb, abs_of_nonneg h0]
  have hx : (1 / 2 - u) * (1 / 2 - u)⁻¹ = 1 := mul_inv_cancel₀ (by linarith)
  unfold M
  rw [inv_inv, div_eq_mul_inv]
  generalize (1 / 2 - u)⁻¹ = i at *
  generalize A (Real.sqrt μ)⁻¹ = a
  generalize B (Real.sqrt μ)⁻¹ = b
  linear_combination (-2 * Real.sqrt μ * a) * hx

theorem point_nonpos {u c : ℝ} (h0 : u ≤ 0) (h1 : -(1 / 2) < u) : point (ptrdA μ) (ptrdB μ) c u = c - Real.sqrt μ * M (1 / 2 - |u|)⁻¹ (Real.sqrt μ)⁻¹ := by
  obtain ⟨ea, eb, _, _⟩ := consts hm
  rw [point_of_nonpos h0, ea, eb, abs_of_nonpos h0, sub_neg_eq_add]
  have hx : (1 / 2 + u) * (1 / 2 + u)⁻¹ = 1 := mul_inv_cancel₀ (by linarith)
  unfold M
  rw [inv_inv, div_eq_mul_inv]
  generalize (1 / 2 + u)⁻¹ = i at *
  generalize A (Real.sqrt μ)⁻¹ = a
  generalize B (Real.sqrt μ)⁻¹ = b
  linear_combination (2 * Real.sqrt μ * a) * hx

theorem K_eq {k : Nat} (hk : 1 ≤ k) : K ((k - μ) * (Real.sqrt μ)⁻¹) (Real.sqrt μ)⁻¹ = 1 / k := by
  obtain ⟨hs, hd, hd1, hs1, hq, hsd⟩ := delta_facts hm
  have hk0 : (0 : ℝ) < k := by exact_mod_cast hk
  unfold K
  have e1 : (k - μ) * (Real.sqrt μ)⁻¹ * (Real.sqrt μ)⁻¹ = k / μ - 1 := by
    rw [mul_assoc, ← mul_inv, hq]; field_simp
  rw [e1, ← mul_inv, hq, sub_add_cancel, inv_div, ← mul_div_assoc, inv_mul_cancel₀ (by linarith)]

theorem hat_of_value {k : Nat} (hk : 1 ≤ k) {X : ℝ} (hX : 0 < X) (h : 0 < HV ((k - μ) * (Real.sqrt μ)⁻¹) (Real.sqrt μ)⁻¹ X) : poissonPmf μ k * Real.sqrt μ * X ≤ 1 := by
  obtain ⟨hs, _⟩ := delta_facts hm
  have hl := log_pmf (by linarith : 0 < μ) hk
  have hp : 0 < poissonPmf μ k * Real.sqrt μ := by unfold poissonPmf; positivity
  unfold HV at h
  rw [K_eq hm hk] at h
  have := (stirling_bounds hk).1
  have h2 : Real.log (poissonPmf μ k * Real.sqrt μ * X) ≤ 0 := by
    rw [Real.log_mul hp.ne' hX.ne', hl]
    linarith
  exact (Real.log_nonpos_iff (by positivity)).1 h2

theorem low_of_value {k : Nat} (hk : 1 ≤ k) {Y : ℝ} (hY : 0 < Y) (h : 0 < LV ((k - μ) * (Real.sqrt μ)⁻¹) (Real.sqrt μ)⁻¹ Y) : Y ≤ poissonPmf μ k * Real.sqrt μ := by
  obtain ⟨hs, _⟩ := delta_facts hm
  have hl := log_pmf (by linarith : 0 < μ) hk
  have hp : 0 < poissonPmf μ k * Real.sqrt μ := by unfold poissonPmf; positivity
  unfold LV at h
  rw [K_eq hm hk] at h
  have := (stirling_bounds hk).2
  rw [← Real.log_le_log_iff hY hp, hl]
  linarith

omit hm in
theorem S_val : (S : ℝ) = 1099511627776 := by unfold S; norm_num

theorem delta_range : ((0 : Nat) : ℝ) ≤ (Real.sqrt μ)⁻¹ * S ∧ (Real.sqrt μ)⁻¹ * S ≤ (347707801600 : Nat) := by
  obtain ⟨hs, hd, hd1, _⟩ := delta_facts hm
  rw [S_val]
  constructor
  · rw [Nat.cast_zero]; positivity
  · refine (mul_le_mul_of_nonneg_right hd1 (by norm_num)).trans ?_
    norm_num

theorem SL_pos {P : ℝ} : 0 < SL P (Real.sqrt μ)⁻¹ := by
  obtain ⟨_, hd, hd1, _⟩ := delta_facts hm
  obtain ⟨a1, _, b1, _⟩ := const_bounds hd.le hd1
  unfold SL
  have : 0 ≤ A (Real.sqrt μ)⁻¹ * (P * P) := mul_nonneg (by linarith) (mul_self_nonneg _)
  linarith

theorem IA_pos : 0 < IA (Real.sqrt μ)⁻¹ := by
  obtain ⟨_, hd, hd1, _⟩ := delta_facts hm
  have := (const_bounds hd.le hd1).2.2.2.2.1
  linarith

/-- The hat at the upper end of the part of a number above the centre. -/
theorem right_end {k : Nat} {P : ℝ} (hP : 2 ≤ P) (h : (k : ℝ) + 1 = μ + 0.445 + Real.sqrt μ * M P (Real.sqrt μ)⁻¹) :
    (P < 77 → poissonPmf μ k / IA (Real.sqrt μ)⁻¹ * (Real.sqrt μ * SL P (Real.sqrt μ)⁻¹) ≤ 1) ∧
      (769 / 10 ≤ P → poissonPmf μ k / IA (Real.sqrt μ)⁻¹ * (Real.sqrt μ * SL P (Real.sqrt μ)⁻¹) ≤ P⁻¹) := by
  obtain ⟨hs, hd, hd1, hs1, hq, hsd⟩ := delta_facts hm
  obtain ⟨dl, dh⟩ := delta_range hm
  have hSL := SL_pos hm (P := P)
  have hI := IA_pos hm
  have hP0 : 0 < P := by linarith
  have ht : (k - μ) * (Real.sqrt μ)⁻¹ = M P (Real.sqrt μ)⁻¹ - 555 / 1000 * (Real.sqrt μ)⁻¹ := by
    have : (k : ℝ) - μ = Real.sqrt μ * M P (Real.sqrt μ)⁻¹ - 555 / 1000 := by norm_num at h ⊢; linarith
    rw [this, sub_mul, mul_right_comm, hsd, one_mul]
  have hM : 0 ≤ M P (Real.sqrt μ)⁻¹ := by
    obtain ⟨a1, _, b1, _⟩ := const_bounds hd.le hd1
    unfold M
    have i1 : P⁻¹ ≤ 1 / 2 := by rw [inv_le_comm₀ hP0 (by norm_num)]; linarith
    have := mul_le_mul_of_nonneg_left i1 (by linarith : 0 ≤ B (Real.sqrt μ)⁻¹)
    have := mul_nonneg (by linarith : 0 ≤ A (Real.sqrt μ)⁻¹) (by linarith : 0 ≤ P - 2)
    linarith
  have hk1 : 1 ≤ k := by
    have : 0 ≤ Real.sqrt μ * M P (Real.sqrt μ)⁻¹ := mul_nonneg hs.le hM
    have h1 : (1 : ℝ) < k := by norm_num at h; linarith
    have h1' : 1 < k := by exact_mod_cast h1
    omega
  have hS : (0 : ℝ) < 1099511627776 := by norm_num
  have e : poissonPmf μ k / IA (Real.sqrt μ)⁻¹ * (Real.sqrt μ * SL P (Real.sqrt μ)⁻¹) = poissonPmf μ k * Real.sqrt μ * (SL P (Real.sqrt μ)⁻¹ * (IA (Real.sqrt μ)⁻¹)⁻¹) := by
    rw [div_eq_mul_inv]; ring
  constructor
  · intro h77
    obtain ⟨dl', dh', lo, hi, N, x1, x2, x3, x4, hb⟩ := hatR_cov _ P dl dh (by rw [S_val]; norm_num; linarith) (by rw [S_val]; norm_num; linarith)
    have hv := hatRBox_pos x1 x2 x3 x4 hb hSL
    rw [← ht] at hv
    rw [e]
    exact hat_of_value hm hk1 (by positivity) hv
  · intro h769
    have e2 : poissonPmf μ k / IA (Real.sqrt μ)⁻¹ * (Real.sqrt μ * SL P (Real.sqrt μ)⁻¹) = poissonPmf μ k * Real.sqrt μ * (SL P (Real.sqrt μ)⁻¹ * (IA (Real.sqrt μ)⁻¹)⁻¹ * P) * P⁻¹ := by
      rw [e]; field_simp
    suffices h2 : poissonPmf μ k * Real.sqrt μ * (SL P (Real.sqrt μ)⁻¹ * (IA (Real.sqrt μ)⁻¹)⁻¹ * P) ≤ 1 by
      rw [e2]
      calc _ ≤ 1 * P⁻¹ := mul_le_mul_of_nonneg_right h2 (inv_nonneg.2 hP0.le)
        _ = _ := one_mul _
    rcases lt_or_ge P 300 with h300 | h300
    · obtain ⟨dl', dh', lo, hi, N, x1, x2, x3, x4, hb⟩ := triR_cov _ P dl dh (by rw [S_val]; norm_num; linarith) (by rw [S_val]; norm_num; linarith)
      have hv := triRBox_pos x1 x2 x3 x4 hb hSL hP0
      rw [← ht] at hv
      exact hat_of_value hm hk1 (by positivity) hv
    · obtain ⟨t0, ht2⟩ := tail_right hd.le hd1 h300
      rw [← ht] at t0 ht2
      have hkμ : μ ≤ k := by
        have := nonneg_of_mul_nonneg_left t0 hd
        linarith
      have hp := pmf_right hm hkμ
      have h3 : SL P (Real.sqrt μ)⁻¹ * P * (poissonPmf μ k * Real.sqrt μ) ≤ IA (Real.sqrt μ)⁻¹ :=
        (mul_le_mul_of_nonneg_left hp (by positivity)).trans ht2
      have e3 : poissonPmf μ k * Real.sqrt μ * (SL P (Real.sqrt μ)⁻¹ * (IA (Real.sqrt μ)⁻¹)⁻¹ * P) = SL P (Real.sqrt μ)⁻¹ * P * (poissonPmf μ k * Real.sqrt μ) / IA (Real.sqrt μ)⁻¹ := by
        rw [div_eq_mul_inv]; ring
      rw [e3, div_le_one hI]
      exact h3

/-- The hat at the lower end of the part of a number below the centre. -/
theorem left_end {k : Nat} {P : ℝ} (hP : 2 ≤ P) (h : (k : ℝ) = μ + 0.445 - Real.sqrt μ * M P (Real.sqrt μ)⁻¹) :
    (P < 77 → poissonPmf μ k / IA (Real.sqrt μ)⁻¹ * (Real.sqrt μ * SL P (Real.sqrt μ)⁻¹) ≤ 1) ∧
      (769 / 10 ≤ P → poissonPmf μ k / IA (Real.sqrt μ)⁻¹ * (Real.sqrt μ * SL P (Real.sqrt μ)⁻¹) ≤ P⁻¹) := by
  obtain ⟨hs, hd, hd1, hs1, hq, hsd⟩ := delta_facts hm
  obtain ⟨dl, dh⟩ := delta_range hm
  have hSL := SL_pos hm (P := P)
  have hI := IA_pos hm
  have hIA := (const_bounds hd.le hd1).2.2.2.2.1
  have hP0 : 0 < P := by linarith
  have hk0 : (0 : ℝ) ≤ k := Nat.cast_nonneg _
  have ht : (k - μ) * (Real.sqrt μ)⁻¹ = 445 / 1000 * (Real.sqrt μ)⁻¹ - M P (Real.sqrt μ)⁻¹ := by
    have : (k : ℝ) - μ = 445 / 1000 - Real.sqrt μ * M P (Real.sqrt μ)⁻¹ := by norm_num at h ⊢; linarith
    rw [this, sub_mul, mul_right_comm, hsd, one_mul]
  have e1 : (k - μ) * (Real.sqrt μ)⁻¹ * (Real.sqrt μ)⁻¹ = k / μ - 1 := by
    rw [mul_assoc, ← mul_inv, hq]; field_simp
  have e : poissonPmf μ k / IA (Real.sqrt μ)⁻¹ * (Real.sqrt μ * SL P (Real.sqrt μ)⁻¹) = SL P (Real.sqrt μ)⁻¹ * (poissonPmf μ k * Real.sqrt μ) / IA (Real.sqrt μ)⁻¹ := by
    rw [div_eq_mul_inv, div_eq_mul_inv]; ring
  have hwσ : M P (Real.sqrt μ)⁻¹ - 445 / 1000 * (Real.sqrt μ)⁻¹ ≤ Real.sqrt μ := by
    have h2 : -(Real.sqrt μ) ≤ (k - μ) * (Real.sqrt μ)⁻¹ := by
      have : -(Real.sqrt μ) = (0 - μ) * (Real.sqrt μ)⁻¹ := by
        linear_combination (Real.sqrt μ) * hsd - (Real.sqrt μ)⁻¹ * hq
      rw [this]
      exact mul_le_mul_of_nonneg_right (by linarith) hd.le
    linarith
  obtain ⟨q1, q2⟩ := slope_low hd.le hd1 hs1 hP hwσ
  constructor
  · intro h77
    rcases le_or_gt (10 * (k : ℝ)) μ with hlow | hlow
    · rw [e, div_le_one hI]
      have h2 := exp_low hs1 (by rw [hq]; exact hm)
      rw [hq] at h2
      calc SL P (Real.sqrt μ)⁻¹ * (poissonPmf μ k * Real.sqrt μ) ≤ 23 * Real.sqrt μ ^ 2 * (Real.sqrt μ * Real.exp (-(669 / 1000 * μ))) :=
            mul_le_mul q1 (pmf_low hm hlow) (by unfold poissonPmf; positivity) (by positivity)
        _ ≤ 11239 / 10000 := h2
        _ ≤ _ := hIA
    · have hk1 : 1 ≤ k := by
        rcases Nat.eq_zero_or_pos k with h0 | h0
        · subst h0; norm_num at hlow; linarith
        · exact h0
      obtain ⟨dl', dh', lo, hi, N, x1, x2, x3, x4, hb⟩ := hatL_cov _ P dl dh (by rw [S_val]; norm_num; linarith) (by rw [S_val]; norm_num; linarith)
      have hv := hatLBox_pos x1 x2 x3 x4 hb hSL (by
        rw [← ht, e1]
        have : 1 / 10 < (k : ℝ) / μ := by rw [lt_div_iff₀ (by linarith)]; linarith
        linarith)
      rw [← ht] at hv
      have := hat_of_value hm hk1 (by positivity) hv
      rw [e]
      refine le_trans (le_of_eq ?_) this
      rw [div_eq_mul_inv]; ring
  · intro h769
    obtain ⟨w1, w2⟩ := tail_left hd.le hd1 h769 rfl
    have e2 : poissonPmf μ k / IA (Real.sqrt μ)⁻¹ * (Real.sqrt μ * SL P (Real.sqrt μ)⁻¹) = (SL P (Real.sqrt μ)⁻¹ * P * (poissonPmf μ k * Real.sqrt μ) / IA (Real.sqrt μ)⁻¹) * P⁻¹ := by
      rw [e]; field_simp
    suffices h2 : SL P (Real.sqrt μ)⁻¹ * P * (poissonPmf μ k * Real.sqrt μ) ≤ IA (Real.sqrt μ)⁻¹ by
      rw [e2]
      calc _ ≤ 1 * P⁻¹ := mul_le_mul_of_nonneg_right ((div_le_one hI).2 h2) (inv_nonneg.2 hP0.le)
        _ = _ := one_mul _
    rcases le_or_gt (10 * (k : ℝ)) μ with hlow | hlow
    · have h2 := exp_low_tri (w1.trans hwσ)
      rw [hq] at h2
      calc SL P (Real.sqrt μ)⁻¹ * P * (poissonPmf μ k * Real.sqrt μ) ≤ 23 * Real.sqrt μ ^ 2 * (21 * Real.sqrt μ) * (Real.sqrt μ * Real.exp (-(669 / 1000 * μ))) :=
            mul_le_mul (mul_le_mul q1 q2 hP0.le (by positivity)) (pmf_low hm hlow) (by unfold poissonPmf; positivity) (by positivity)
        _ ≤ 11239 / 10000 := h2
        _ ≤ _ := hIA
    · have hk1 : 1 ≤ k := by
        rcases Nat.eq_zero_or_pos k with h0 | h0
        · subst h0; norm_num at hlow; linarith
        · exact h0
      have hkμ : (k : ℝ) ≤ μ := by
        have h3 : (k - μ) * (Real.sqrt μ)⁻¹ ≤ 0 := by rw [ht]; linarith
        have := nonpos_of_mul_nonpos_left h3 hd
        linarith
      have hp := pmf_left hm hk1 hkμ (by linarith)
      rw [ht, show (445 / 1000 * (Real.sqrt μ)⁻¹ - M P (Real.sqrt μ)⁻¹) ^ 2 = (M P (Real.sqrt μ)⁻¹ - 445 / 1000 * (Real.sqrt μ)⁻¹) ^ 2 by ring] at hp
      exact (mul_le_mul_of_nonneg_left hp (by positivity)).trans w2

theorem low_bound {k : Nat} {X : ℝ} (hk : 0 < ((k : ℝ) - μ) * (Real.sqrt μ)⁻¹ * (Real.sqrt μ)⁻¹ + 1) (hX : 0 < X)
    (h : 0 < LV ((k - μ) * (Real.sqrt μ)⁻¹) (Real.sqrt μ)⁻¹ (IA (Real.sqrt μ)⁻¹ * VR (Real.sqrt μ)⁻¹ * X⁻¹)) :
    VR (Real.sqrt μ)⁻¹ ≤ poissonPmf μ k / IA (Real.sqrt μ)⁻¹ * (Real.sqrt μ * X) := by
  obtain ⟨hs, hd, hd1, hs1, hq, hsd⟩ := delta_facts hm
  obtain ⟨_, _, _, _, _, hv⟩ := const_bounds hd.le hd1
  have hI := IA_pos hm
  have e1 : (k - μ) * (Real.sqrt μ)⁻¹ * (Real.sqrt μ)⁻¹ = k / μ - 1 := by
    rw [mul_assoc, ← mul_inv, hq]; field_simp
  have hk1 : 1 ≤ k := by
    rcases Nat.eq_zero_or_pos k with h0 | h0
    · subst h0; rw [e1] at hk; norm_num at hk
    · exact h0
  have := low_of_value hm hk1 (by positivity) h
  have h2 := mul_le_mul_of_nonneg_right this hX.le
  rw [inv_mul_cancel_right₀ hX.ne'] at h2
  rw [div_mul_eq_mul_div, le_div_iff₀ hI]
  calc _ = IA (Real.sqrt μ)⁻¹ * VR (Real.sqrt μ)⁻¹ := mul_comm _ _
    _ ≤ _ := h2
    _ = _ := by ring

/-- The hat has all the properties that the method needs, for all means and numbers. -/
theorem hat_all (k : Nat) : Hat (ptrdA μ) (ptrdB μ) (μ + 0.445) (ptrdVr μ) (poissonPmf μ k / ptrdInvAlpha μ) k ∧
    ∀ u, |u| < 1 / 2 → ⌊point (ptrdA μ) (ptrdB μ) (μ + 0.445) u⌋ = k → 1 / 2 - |u| < 0.013 →
      poissonPmf μ k / ptrdInvAlpha μ * Trd.slope (ptrdA μ) (ptrdB μ) u ≤ 1 / 2 - |u| := by
  obtain ⟨hs, hd, hd1, hs1, hq, hsd⟩ := delta_facts hm
  obtain ⟨dl, dh⟩ := delta_range hm
  obtain ⟨ea, eb, ev, ei⟩ := consts hm
  obtain ⟨a1, _, b1, _, _, hvr⟩ := const_bounds hd.le hd1
  have hI := IA_pos hm
  have ha : 0 < ptrdA μ := by rw [ea]; exact mul_pos hs (by linarith)
  have hb : 0 < ptrdB μ := by rw [eb]; exact mul_pos hs (by linarith)
  have hmono := point_strictMono (c := μ + 0.445) ha hb
  have hpm : 0 ≤ poissonPmf μ k := by unfold poissonPmf; positivity
  have hf : 0 ≤ poissonPmf μ k / ptrdInvAlpha μ := by rw [ei]; positivity
  have hcast : (((k : Nat) : Int) : ℝ) = k := by norm_cast
  -- the end with the steeper slope
  have upper : ∀ u, |u| < 1 / 2 → ⌊point (ptrdA μ) (ptrdB μ) (μ + 0.445) u⌋ = k → ∃ U, |u| ≤ |U| ∧ |U| < 1 / 2 ∧
      ((1 / 2 - |U|)⁻¹ < 77 → poissonPmf μ k / IA (Real.sqrt μ)⁻¹ * (Real.sqrt μ * SL (1 / 2 - |U|)⁻¹ (Real.sqrt μ)⁻¹) ≤ 1) ∧
      (769 / 10 ≤ (1 / 2 - |U|)⁻¹ → poissonPmf μ k / IA (Real.sqrt μ)⁻¹ * (Real.sqrt μ * SL (1 / 2 - |U|)⁻¹ (Real.sqrt μ)⁻¹) ≤ (1 / 2 - |U|)⁻¹⁻¹) := by
    intro u hu hfl
    rw [Int.floor_eq_iff, hcast] at hfl
    have hu' : u ∈ Ioo (-(1 / 2)) (1 / 2 : ℝ) := abs_lt.1 hu
    rcases le_total 0 u with h0 | h0
    · obtain ⟨U, hU, eU⟩ := point_surj (c := μ + 0.445) ha hb ((k : ℝ) + 1)
      have huU : u < U := (hmono.lt_iff_lt hu' hU).1 (by rw [eU]; exact hfl.2)
      have hU0 : 0 ≤ U := h0.trans huU.le
      have hUh : |U| < 1 / 2 := abs_lt.2 hU
      have hP : 2 ≤ (1 / 2 - |U|)⁻¹ := by
        rw [le_inv_comm₀ (by norm_num) (by linarith)]
        have := abs_nonneg U
        linarith
      rw [point_nonneg hm hU0 hU.2] at eU
      exact ⟨U, by rw [abs_of_nonneg h0, abs_of_nonneg hU0]; exact huU.le, hUh, right_end hm hP eU.symm⟩
    · obtain ⟨U, hU, eU⟩ := point_surj (c := μ + 0.445) ha hb (k : ℝ)
      have huU : U ≤ u := (hmono.le_iff_le hU hu').1 (by rw [eU]; exact hfl.1)
      have hU0 : U ≤ 0 := huU.trans h0
      have hUh : |U| < 1 / 2 := abs_lt.2 hU
      have hP : 2 ≤ (1 / 2 - |U|)⁻¹ := by
        rw [le_inv_comm₀ (by norm_num) (by linarith)]
        have := abs_nonneg U
        linarith
      rw [point_nonpos hm hU0 hU.1] at eU
      exact ⟨U, by rw [abs_of_nonpos h0, abs_of_nonpos hU0]; linarith, hUh, left_end hm hP eU.symm⟩
  refine ⟨fun u hu hfl => ⟨?_, fun h43 => ?_⟩, fun u hu hfl hlt => ?_⟩
  · obtain ⟨U, h1, h2, h3, h4⟩ := upper u hu hfl
    have s1 := slope_mono (b := ptrdB μ) ha h1 h2
    refine (mul_le_mul_of_nonneg_left s1 hf).trans ?_
    rw [slope_eq hm, ei]
    rcases lt_or_ge (1 / 2 - |U|)⁻¹ 77 with h77 | h77
    · exact h3 h77
    · refine (h4 (by linarith)).trans ?_
      rw [inv_inv]
      have := abs_nonneg U
      linarith
  · rw [Int.floor_eq_iff, hcast] at hfl
    have hu' : u ∈ Ioo (-(1 / 2)) (1 / 2 : ℝ) := abs_lt.1 hu
    -- the part that contains the centre
    have middle : (k : ℝ) ≤ μ + 0.445 → μ + 0.445 ≤ (k : ℝ) + 1 → ptrdVr μ ≤ poissonPmf μ k / ptrdInvAlpha μ * Trd.slope (ptrdA μ) (ptrdB μ) u := by
      intro c1 c2
      norm_num at c1 c2
      have s1 : Trd.slope (ptrdA μ) (ptrdB μ) 0 ≤ Trd.slope (ptrdA μ) (ptrdB μ) u := slope_mono ha (by rw [abs_zero]; exact abs_nonneg u) hu
      refine le_trans ?_ (mul_le_mul_of_nonneg_left s1 hf)
      have e0 : Trd.slope (ptrdA μ) (ptrdB μ) 0 = Real.sqrt μ * (4 * A (Real.sqrt μ)⁻¹ + B (Real.sqrt μ)⁻¹) := by
        unfold Trd.slope; rw [ea, eb, abs_zero]; ring
      rw [e0, ev, ei]
      have ht : ((k : ℝ) - μ + 555 / 1000) * (Real.sqrt μ)⁻¹ - 555 / 1000 * (Real.sqrt μ)⁻¹ = (k - μ) * (Real.sqrt μ)⁻¹ := by ring
      obtain ⟨dl', dh', lo, hi, N, x1, x2, x3, x4, hb⟩ := mid_cov _ ((k : ℝ) - μ + 555 / 1000) dl dh
        (by rw [S_val, Nat.cast_zero]; exact mul_nonneg (by linarith) (by norm_num)) (by rw [S_val]; norm_num; linarith)
      have hv := midBox_pos x1 x2 x3 x4 hb hvr hI
      rw [ht] at hv
      exact low_bound hm hv.1 (by linarith) hv.2
    have pbound : ∀ {L : ℝ}, |L| ≤ |u| → ((2199023255552 : Nat) : ℝ) ≤ (1 / 2 - |L|)⁻¹ * S ∧ (1 / 2 - |L|)⁻¹ * S < (15707309753594 : Nat) := by
      intro L hL
      have h7 : 7 / 100 ≤ 1 / 2 - |L| := by linarith
      have i1 : (1 / 2 - |L|)⁻¹ ≤ 100 / 7 := by
        rw [inv_le_comm₀ (by linarith) (by norm_num)]; norm_num; linarith
      have i2 : 2 ≤ (1 / 2 - |L|)⁻¹ := by
        rw [le_inv_comm₀ (by norm_num) (by linarith)]
        have := abs_nonneg L
        linarith
      rw [S_val]
      constructor
      · norm_num; linarith
      · refine (mul_le_mul_of_nonneg_right i1 (by norm_num)).trans_lt ?_
        norm_num
    rcases le_total 0 u with h0 | h0
    · rcases le_or_gt (μ + 0.445) (k : ℝ) with hc | hc
      · obtain ⟨L, hL, eL⟩ := point_surj (c := μ + 0.445) ha hb (k : ℝ)
        have hLu : L ≤ u := (hmono.le_iff_le hL hu').1 (by rw [eL]; exact hfl.1)
        have hL0 : 0 ≤ L := by
          have e00 : point (ptrdA μ) (ptrdB μ) (μ + 0.445) 0 = μ + 0.445 := by rw [point_of_nonneg le_rfl, mul_zero, zero_add]
          exact (hmono.le_iff_le ⟨by norm_num, by norm_num⟩ hL).1 (by rw [e00, eL]; exact hc)
        have hab : |L| ≤ |u| := by rw [abs_of_nonneg h0, abs_of_nonneg hL0]; exact hLu
        have s1 := slope_mono (b := ptrdB μ) ha hab hu
        refine le_trans ?_ (mul_le_mul_of_nonneg_left s1 hf)
        rw [point_nonneg hm hL0 hL.2] at eL
        rw [slope_eq hm, ev, ei]
        have ht : M (1 / 2 - |L|)⁻¹ (Real.sqrt μ)⁻¹ + 445 / 1000 * (Real.sqrt μ)⁻¹ = (k - μ) * (Real.sqrt μ)⁻¹ := by
          have : (k : ℝ) - μ = Real.sqrt μ * M (1 / 2 - |L|)⁻¹ (Real.sqrt μ)⁻¹ + 445 / 1000 := by norm_num at eL ⊢; linarith
          rw [this, add_mul, mul_right_comm, hsd, one_mul]
        obtain ⟨p1, p2⟩ := pbound hab
        obtain ⟨dl', dh', lo, hi, N, x1, x2, x3, x4, hb⟩ := lowR_cov _ (1 / 2 - |L|)⁻¹ dl dh p1 p2
        have hv := lowRBox_pos x1 x2 x3 x4 hb hvr hI
        rw [ht] at hv
        exact low_bound hm hv.1 (SL_pos hm) hv.2
      · refine middle hc.le ?_
        have e00 : point (ptrdA μ) (ptrdB μ) (μ + 0.445) 0 = μ + 0.445 := by rw [point_of_nonneg le_rfl, mul_zero, zero_add]
        have : point (ptrdA μ) (ptrdB μ) (μ + 0.445) 0 ≤ point (ptrdA μ) (ptrdB μ) (μ + 0.445) u := (hmono.le_iff_le ⟨by norm_num, by norm_num⟩ hu').2 h0
        rw [e00] at this
        linarith [hfl.2]
    · rcases le_or_gt ((k : ℝ) + 1) (μ + 0.445) with hc | hc
      · obtain ⟨L, hL, eL⟩ := point_surj (c := μ + 0.445) ha hb ((k : ℝ) + 1)
        have hLu : u ≤ L := ((hmono.lt_iff_lt hu' hL).1 (by rw [eL]; exact hfl.2)).le
        have hL0 : L ≤ 0 := by
          have e00 : point (ptrdA μ) (ptrdB μ) (μ + 0.445) 0 = μ + 0.445 := by rw [point_of_nonneg le_rfl, mul_zero, zero_add]
          exact (hmono.le_iff_le hL ⟨by norm_num, by norm_num⟩).1 (by rw [e00, eL]; exact hc)
        have hab : |L| ≤ |u| := by rw [abs_of_nonpos h0, abs_of_nonpos hL0]; linarith
        have s1 := slope_mono (b := ptrdB μ) ha hab hu
        refine le_trans ?_ (mul_le_mul_of_nonneg_left s1 hf)
        rw [point_nonpos hm hL0 hL.1] at eL
        rw [slope_eq hm, ev, ei]
        have ht : -(M (1 / 2 - |L|)⁻¹ (Real.sqrt μ)⁻¹ + 555 / 1000 * (Real.sqrt μ)⁻¹) = (k - μ) * (Real.sqrt μ)⁻¹ := by
          have : (k : ℝ) - μ = -(Real.sqrt μ * M (1 / 2 - |L|)⁻¹ (Real.sqrt μ)⁻¹) - 555 / 1000 := by norm_num at eL ⊢; linarith
          rw [this, sub_mul, neg_mul, mul_right_comm, hsd, one_mul]; ring
        obtain ⟨p1, p2⟩ := pbound hab
        obtain ⟨dl', dh', lo, hi, N, x1, x2, x3, x4, hb⟩ := lowL_cov _ (1 / 2 - |L|)⁻¹ dl dh p1 p2
        have hv := lowLBox_pos x1 x2 x3 x4 hb hvr hI
        rw [ht] at hv
        exact low_bound hm hv.1 (SL_pos hm) hv.2
      · refine middle ?_ hc.le
        have e00 : point (ptrdA μ) (ptrdB μ) (μ + 0.445) 0 = μ + 0.445 := by rw [point_of_nonneg le_rfl, mul_zero, zero_add]
        have : point (ptrdA μ) (ptrdB μ) (μ + 0.445) u ≤ point (ptrdA μ) (ptrdB μ) (μ + 0.445) 0 := (hmono.le_iff_le hu' ⟨by norm_num, by norm_num⟩).2 h0
        rw [e00] at this
        linarith [hfl.1]
  · obtain ⟨U, h1, h2, h3, h4⟩ := upper u hu hfl
    have s1 := slope_mono (b := ptrdB μ) ha h1 h2
    refine (mul_le_mul_of_nonneg_left s1 hf).trans ?_
    rw [slope_eq hm, ei]
    norm_num at hlt
    have h769 : 769 / 10 ≤ (1 / 2 - |U|)⁻¹ := by
      rw [le_inv_comm₀ (by norm_num) (by linarith)]
      norm_num; linarith
    refine (h4 h769).trans ?_
    rw [inv_inv]
    linarith

end

end Boost.Random.PtrdBox
