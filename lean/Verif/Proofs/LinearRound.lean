import Verif.Model.LinearRound
import Verif.Proofs.PiecewiseRound
import Verif.Proofs.MixtureFloat

/-!
# Rounded bins of `piecewise_linear_distribution`
-/

namespace Boost.Random
open Spec
namespace Discrete
variable {fl : ℚ → ℚ} {u : ℚ}

theorem Close.ofRel (hu0 : 0 ≤ u) (hu : u ≤ 1) {x y : ℚ} (hx : 0 ≤ x) (h : |y - x| ≤ u * x) : Close u 1 x y := by
  rw [abs_le] at h
  unfold Close
  rw [pow_one]
  refine ⟨by linarith [h.1], ?_⟩
  have h1 : y * (1 - u) ≤ (x + u * x) * (1 - u) := mul_le_mul_of_nonneg_right (by linarith [h.2]) (by linarith)
  have h2 : 0 ≤ x * (u * u) := by positivity
  linarith

theorem Close.mul {k : Nat} {x y c : ℚ} (hc : 0 ≤ c) (h : Close u k x y) : Close u k (c * x) (c * y) := by
  unfold Close at *
  constructor
  · have := mul_le_mul_of_nonneg_left h.1 hc
    linarith
  · have := mul_le_mul_of_nonneg_left h.2 hc
    linarith

theorem Rel.nonneg (R : Rel fl u) {x : ℚ} (hx : 0 ≤ x) : 0 ≤ fl x := R.zero.symm.le.trans (R.mono _ _ hx)

theorem lower_close (R : Rel fl u) (hu : u ≤ 1 / 8) {m d : ℚ} (hm : 0 ≤ m) (hd : 0 ≤ d) : |fl (m * fl d) - m * d| ≤ 8 * u * (m * d) := by
  have hp := R.pos
  have h1 : Close u 2 (m * d) (fl (m * fl d)) := ((Close.round R (by linarith) hd).mul hm).trans (by linarith)
    (Close.round R (by linarith) (mul_nonneg hm (R.nonneg hd)))
  have h2 := h1.bound hp (by push_cast; linarith) (by linarith) (mul_nonneg hm hd) (R.nonneg (mul_nonneg hm (R.nonneg hd)))
  refine h2.trans ?_
  have : 0 ≤ u * (m * d) := by positivity
  push_cast
  linarith

theorem upper_close (R : Rel fl u) (hu : u ≤ 1 / 8) (a : ℚ) {d : ℚ} (hd : 0 ≤ d) :
    |fl (fl (|fl a| * fl d) / 2) - |a| * d / 2| ≤ 8 * u * (|a| * d / 2) := by
  have hp := R.pos
  have hfd := R.nonneg hd
  have ha : Close u 1 |a| |fl a| := Close.ofRel hp (by linarith) (abs_nonneg a) ((abs_abs_sub_abs_le_abs_sub _ _).trans (R.rel a))
  have h0 : Close u 1 (|a| * d) (|fl a| * d) := by rw [mul_comm, mul_comm |fl a|]; exact ha.mul hd
  have h1 : Close u 2 (|a| * d) (|fl a| * fl d) := h0.trans (by linarith) ((Close.round R (by linarith) hd).mul (abs_nonneg _))
  have h2 : Close u 3 (|a| * d) (fl (|fl a| * fl d)) := h1.trans (by linarith) (Close.round R (by linarith) (by positivity))
  have n2 : 0 ≤ fl (|fl a| * fl d) := R.nonneg (by positivity)
  have h3 : Close u 4 (|a| * d / 2) (fl (fl (|fl a| * fl d) / 2)) := (h2.scale (by norm_num)).trans (by linarith) (Close.round R (by linarith) (by positivity))
  have h4 := h3.bound hp (by push_cast; linarith) (by linarith) (by positivity) (R.nonneg (by positivity))
  refine h4.trans (le_of_eq ?_)
  push_cast
  ring

theorem binWeights_close (R : Rel fl u) (hu : u ≤ 1 / 8) : ∀ (ivs ws W W' : List ℚ), ivs.Pairwise (· < ·) → (∀ w ∈ ws, 0 ≤ w) →
    binWeights id ivs ws = some W → binWeights fl ivs ws = some W' → List.Forall₂ (fun x y => 0 ≤ x ∧ |y - x| ≤ 8 * u * x) W W'
  | [], _, _, _, _, _, h, _ => by simp [binWeights] at h
  | [a], ws, W, W', _, _, h, h' => by
    rw [binWeights] at h h'
    rw [← Option.some.inj h, ← Option.some.inj h']
    exact .nil
  | a :: b :: l, [], _, _, _, _, h, _ => by simp [binWeights] at h
  | a :: b :: l, [_], _, _, _, _, h, _ => by simp [binWeights] at h
  | a :: b :: l, w1 :: w2 :: ws, W, W', hp, hw, h, h' => by
    rw [binWeights, Option.map_eq_some_iff] at h h'
    obtain ⟨V, v1, rfl⟩ := h
    obtain ⟨V', v1', rfl⟩ := h'
    have ih := binWeights_close R hu (b :: l) (w2 :: ws) V V' hp.of_cons (fun w hm => hw w (by simp [List.mem_cons.1 hm])) v1 v1'
    have hab : 0 ≤ b - a := by
      have := (List.pairwise_cons.1 hp).1 b (by simp)
      linarith
    have hm : 0 ≤ min w1 w2 := le_min (hw _ (by simp)) (hw _ (by simp))
    simp only [id]
    exact .cons ⟨by positivity, lower_close R hu hm hab⟩ (.cons ⟨by positivity, upper_close R hu _ hab⟩ ih)

theorem forall2_sum {c : ℚ} : ∀ {W W' : List ℚ}, List.Forall₂ (fun x y => 0 ≤ x ∧ |y - x| ≤ c * x) W W' →
    0 ≤ W.sum ∧ |W'.sum - W.sum| ≤ c * W.sum
  | _, _, .nil => by simp
  | _, _, .cons (a := x) (b := y) h t => by
    obtain ⟨i1, i2⟩ := forall2_sum t
    rw [List.sum_cons, List.sum_cons]
    have h2 := h.2
    rw [abs_le] at *
    exact ⟨by linarith [h.1], by linarith [h2.1, i2.1], by linarith [h2.2, i2.2]⟩

theorem forall2_getD {c : ℚ} : ∀ {W W' : List ℚ}, List.Forall₂ (fun x y => 0 ≤ x ∧ |y - x| ≤ c * x) W W' → ∀ v,
    0 ≤ W.getD v 0 ∧ W.getD v 0 ≤ W.sum ∧ |W'.getD v 0 - W.getD v 0| ≤ c * W.getD v 0
  | _, _, .nil, v => by simp
  | _, _, .cons (a := x) (b := y) h t, 0 => by
    have := (forall2_sum t).1
    simpa using ⟨h.1, this, h.2⟩
  | _, _, .cons (a := x) (b := y) h t, v + 1 => by
    obtain ⟨i1, i2, i3⟩ := forall2_getD t v
    simp only [List.getD_cons_succ, List.sum_cons]
    exact ⟨i1, by linarith [h.1], i3⟩

theorem forall2_shares {c : ℚ} (hc0 : 0 ≤ c) (hc : c ≤ 1 / 2) {W W' : List ℚ} (h : List.Forall₂ (fun x y => 0 ≤ x ∧ |y - x| ≤ c * x) W W') (hs : 0 < W.sum) (v : Nat) :
    |W'.getD v 0 / W'.sum - W.getD v 0 / W.sum| ≤ 4 * c := by
  obtain ⟨_, hT⟩ := forall2_sum h
  obtain ⟨x0, xS, hy⟩ := forall2_getD h v
  generalize W'.getD v 0 = y at *
  generalize W.getD v 0 = x at *
  generalize W'.sum = T at *
  generalize W.sum = S at *
  rw [abs_le] at hT hy
  have hcS : c * S ≤ 1 / 2 * S := mul_le_mul_of_nonneg_right hc hs.le
  have hT2 : S / 2 ≤ T := by linarith [hT.1]
  have hTp : 0 < T := by linarith
  have a1 : c * x ≤ c * S := mul_le_mul_of_nonneg_left xS hc0
  have a2 : y * S - x * T ≤ 2 * (c * S) * S := by
    have b1 : (y - x) * S ≤ c * S * S := mul_le_mul_of_nonneg_right (by linarith [hy.2]) hs.le
    have b2 : x * (S - T) ≤ x * (c * S) := mul_le_mul_of_nonneg_left (by linarith [hT.1]) x0
    have b3 : x * (c * S) ≤ S * (c * S) := mul_le_mul_of_nonneg_right xS (by positivity)
    linarith
  have a3 : -(2 * (c * S) * S) ≤ y * S - x * T := by
    have b1 : -(c * S) * S ≤ (y - x) * S := mul_le_mul_of_nonneg_right (by linarith [hy.1]) hs.le
    have b2 : x * -(c * S) ≤ x * (S - T) := mul_le_mul_of_nonneg_left (by linarith [hT.2]) x0
    have b3 : x * (c * S) ≤ S * (c * S) := mul_le_mul_of_nonneg_right xS (by positivity)
    linarith
  have a4 : 2 * (c * S) * S ≤ 4 * c * (T * S) := by
    have : c * S * (S / 2) ≤ c * S * T := mul_le_mul_of_nonneg_left hT2 (by positivity)
    linarith
  rw [div_sub_div _ _ hTp.ne' hs.ne', abs_div, abs_of_pos (mul_pos hTp hs), div_le_iff₀ (mul_pos hTp hs), abs_le]
  constructor <;> linarith

end Discrete

/-- Two tables of nearby weights: what follows the draw has nearby probabilities. -/
theorem draw_law_close (k : Nat) {W W' : List ℚ} {t t' : List (ℚ × Nat)} (H : RealDist.HoldsReal W t) (H' : RealDist.HoldsReal W' t') (hl : W'.length = W.length)
    (h0 : ∀ x ∈ W, 0 ≤ x) (h0' : ∀ x ∈ W', 0 ≤ x) (hs : 0 < W.sum) (hs' : 0 < W'.sum) {c : ℚ}
    (hc : ∀ v, |W'.getD v 0 / W'.sum - W.getD v 0 / W.sum| ≤ c) (P : Nat → List ℝ → Prop) :
    |(chance (k + 2) (fun l => ∃ v s, Discrete.draw t' idealMixed l = .done v s ∧ P v s)).toReal -
      (chance (k + 2) (fun l => ∃ v s, Discrete.draw t idealMixed l = .done v s ∧ P v s)).toReal| ≤ W.length * (c : ℝ) := by
  have nn : ∀ {V : List ℚ}, (∀ x ∈ V, 0 ≤ x) → ∀ v, 0 ≤ V.getD v 0 := by
    intro V h v
    rw [List.getD_eq_getElem?_getD]
    cases hv : V[v]? with
    | none => simp
    | some x => exact h x (List.mem_of_getElem? hv)
  have e : ∀ {V : List ℚ} {t : List (ℚ × Nat)}, RealDist.HoldsReal V t → (∀ x ∈ V, 0 ≤ x) → 0 < V.sum →
      (chance (k + 2) (fun l => ∃ v s, Discrete.draw t idealMixed l = .done v s ∧ P v s)).toReal =
        ∑ v ∈ Finset.range V.length, ((V.getD v 0 / V.sum : ℚ) : ℝ) * (chance k (P v)).toReal := by
    intro V t H h hs
    rw [draw_law k H hs P, ENNReal.toReal_sum]
    · refine Finset.sum_congr rfl fun v _ => ?_
      rw [ENNReal.toReal_mul, ENNReal.toReal_ofReal]
      · push_cast; rfl
      · have := div_nonneg (nn h v) hs.le
        exact_mod_cast this
    · intro v _
      exact ENNReal.mul_ne_top ENNReal.ofReal_ne_top (ne_top_of_le_ne_top ENNReal.one_ne_top (chance_le_one _ _))
  rw [e H h0 hs, e H' h0' hs', hl, ← Finset.sum_sub_distrib]
  refine (Finset.abs_sum_le_sum_abs _ _).trans ?_
  refine (Finset.sum_le_card_nsmul _ _ (c : ℝ) fun v _ => ?_).trans (le_of_eq (by simp))
  rw [← sub_mul, abs_mul]
  have hG : (chance k (P v)).toReal ≤ 1 := ENNReal.toReal_le_of_le_ofReal zero_le_one (by rw [ENNReal.ofReal_one]; exact chance_le_one _ _)
  have hg0 : 0 ≤ (chance k (P v)).toReal := ENNReal.toReal_nonneg
  rw [abs_of_nonneg hg0]
  have hcv : |((W'.getD v 0 / W'.sum : ℚ) : ℝ) - ((W.getD v 0 / W.sum : ℚ) : ℝ)| ≤ (c : ℝ) := by exact_mod_cast hc v
  calc _ ≤ (c : ℝ) * (chance k (P v)).toReal := mul_le_mul_of_nonneg_right hcv hg0
    _ ≤ (c : ℝ) * 1 := mul_le_mul_of_nonneg_left hG ((abs_nonneg _).trans hcv)
    _ = c := mul_one _

end Boost.Random
