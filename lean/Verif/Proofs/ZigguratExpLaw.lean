import Verif.Proofs.ZigguratExp
import Verif.Proofs.Prob

/-!
# The law of the exponential distribution
-/

namespace Boost.Random.Exponential
open Spec Zig MeasureTheory Set
open scoped ENNReal

theorem iter_ideal (s u w : ℝ) (i : Fin 256) (pd : Pending) (l : List (ℝ × Fin 256 × ℝ)) :
    (u * X i < X (i + 1) → iter exactOps ideal s (pd, (u, i, w) :: l) = .done (.inl (s + u * X i)) (.unif w, l)) ∧
    (¬ u * X i < X (i + 1) → (i : Nat) = 0 → iter exactOps ideal s (pd, (u, i, w) :: l) = .done (.inr (s + X 1)) (.unif w, l)) ∧
    (¬ u * X i < X (i + 1) → (i : Nat) ≠ 0 → acc i (u * X i) w → iter exactOps ideal s (pd, (u, i, w) :: l) = .done (.inl (u * X i + s)) (.none, l)) ∧
    (¬ u * X i < X (i + 1) → (i : Nat) ≠ 0 → ¬ acc i (u * X i) w → iter exactOps ideal s (pd, (u, i, w) :: l) = .done (.inr s) (.none, l)) := by
  have hi := i.isLt
  have hfl : ∀ x : ℝ, exactOps.fl x = x := fun _ => rfl
  have h : iter exactOps ideal s (pd, (u, i, w) :: l) =
      if u * X i < X (i + 1) then .done (.inl (s + u * X i)) (.unif w, l)
      else if (i : Nat) = 0 then .done (.inr (s + X 1)) (.unif w, l)
      else if accept exactOps (X i) (X (i + 1)) (Y i) (Y (i + 1)) (u * X i) w then .done (.inl (u * X i + s)) (.none, l) else .done (.inr s) (.none, l) := by
    simp only [iter, ideal, Run.bind, entry_X (show (i : Nat) ≤ 256 by omega), entry_X (show (i : Nat) + 1 ≤ 256 by omega),
      entry_X (show 1 ≤ 256 by omega), entry_Y (show (i : Nat) ≤ 256 by omega), entry_Y (show (i : Nat) + 1 ≤ 256 by omega), hfl]
  rw [h]
  refine ⟨fun h1 => by rw [if_pos h1], fun h1 h2 => by rw [if_neg h1, if_pos h2], fun h1 h2 h3 => ?_, fun h1 h2 h3 => ?_⟩
  · rw [if_neg h1, if_neg h2, if_pos (show accept exactOps (X i) (X (i + 1)) (Y i) (Y (i + 1)) (u * X i) w = true from h3)]
  · rw [if_neg h1, if_neg h2, if_neg (show ¬ accept exactOps (X i) (X (i + 1)) (Y i) (Y (i + 1)) (u * X i) w = true from h3)]

section
variable (t : ℝ)

/-- The loop returns a value not above `t`. -/
def Q (n : Nat) (s : ℝ) (pd : Pending) (l : List (ℝ × Fin 256 × ℝ)) : Prop := Run.Le (unit exactOps ideal n s (pd, l)) t

theorem Q_pending (n : Nat) (s : ℝ) (pd pd' : Pending) (l : List (ℝ × Fin 256 × ℝ)) : Q t n s pd l ↔ Q t n s pd' l := by
  cases n with
  | zero => rfl
  | succ n =>
    have : iter exactOps ideal s (pd, l) = iter exactOps ideal s (pd', l) := by
      cases l <;> rfl
    simp only [Q, unit, this]

/-- Its probability. -/
noncomputable def P (n : Nat) (s : ℝ) : ℝ := (prob n (Q t n s .none)).toReal

theorem Q_succ {n : Nat} {s : ℝ} {pd : Pending} {l : List (ℝ × Fin 256 × ℝ)} {r : ℝ ⊕ ℝ} {pd' : Pending} {l' : List (ℝ × Fin 256 × ℝ)}
    (h : iter exactOps ideal s (pd, l) = .done r (pd', l')) : Q t (n + 1) s pd l ↔ match r with | .inl v => v ≤ t | .inr s' => Q t n s' .none l' := by
  cases r with
  | inl v =>
    simp only [Q, unit, h, Run.bind]
    constructor
    · rintro ⟨v', s', e, hle⟩; cases e; exact hle
    · intro hle; exact ⟨_, _, rfl, hle⟩
  | inr s' =>
    have : Q t (n + 1) s pd l ↔ Q t n s' pd' l' := by simp only [Q, unit, h, Run.bind]
    rw [this]
    exact Q_pending t n s' pd' .none l'

/-- What is returned in layer `i`. -/
def all (i : Nat) : Set (ℝ × ℝ) := {p | Ret X acc i (p.1 * X i) p.2}

theorem measurableSet_all (i : Nat) : MeasurableSet (all i) :=
  (measurable_fst.mul_const (X i) |>.prodMk measurable_snd) (measurableSet_ret measurableSet_acc i)

theorem all_eq {i : Nat} (hi : i < 256) : sq ∩ all i = sq ∩ retSet X acc i (X 0) := by
  ext p
  simp only [mem_inter_iff, all, retSet, Set.mem_ofPred_eq]
  refine ⟨fun h => ⟨h.1, h.2, ?_⟩, fun h => ⟨h.1, h.2.1⟩⟩
  have h1 := h.1.1
  have h2 := table.xle (Nat.zero_le i) hi.le
  have h3 := (table.xpos hi)
  nlinarith [h1.1, h1.2]

theorem layer_prob (n : Nat) (s : ℝ) (i : Fin 256) :
    (∫⁻ a in sq, prob n fun l => Q t (n + 1) s .none ((a.1, i, a.2) :: l)).toReal =
      volume.real (sq ∩ retSet X acc i (t - s)) + P t n (if (i : Nat) = 0 then s + X 1 else s) * (1 - volume.real (sq ∩ all i)) := by
  refine lintegral_three (measurableSet_retSet measurableSet_acc i (t - s)) (measurableSet_all i) (fun p hp => hp.1) (prob_le_one n _) ?_ ?_ ?_
  · rintro ⟨u, w⟩ _ hr
    refine prob_true n fun l => ?_
    obtain ⟨hr1 | hr1, hr2⟩ := hr
    · exact (Q_succ t ((iter_ideal s u w i .none l).1 hr1)).2 (by simp only at hr2 ⊢; linarith)
    · by_cases hlt : u * X i < X (i + 1)
      · exact (Q_succ t ((iter_ideal s u w i .none l).1 hlt)).2 (by simp only at hr2 ⊢; linarith)
      · exact (Q_succ t ((iter_ideal s u w i .none l).2.2.1 hlt hr1.1 hr1.2)).2 (by simp only at hr2 ⊢; linarith)
  · rintro ⟨u, w⟩ _ ha hr
    refine prob_false n fun l => ?_
    have hgt : t - s < u * X i := by
      by_contra hc
      exact hr ⟨ha, not_lt.1 hc⟩
    obtain hr1 | hr1 := ha
    · exact fun h => absurd ((Q_succ t ((iter_ideal s u w i .none l).1 hr1)).1 h) (by simp only; linarith)
    · by_cases hlt : u * X i < X (i + 1)
      · exact fun h => absurd ((Q_succ t ((iter_ideal s u w i .none l).1 hlt)).1 h) (by simp only; linarith)
      · exact fun h => absurd ((Q_succ t ((iter_ideal s u w i .none l).2.2.1 hlt hr1.1 hr1.2)).1 h) (by simp only; linarith)
  · rintro ⟨u, w⟩ _ ha
    have h1 : ¬ u * X i < X (i + 1) := fun h => ha (Or.inl h)
    by_cases h0 : (i : Nat) = 0
    · rw [if_pos h0]
      exact prob_congr fun l => Q_succ t ((iter_ideal s u w i .none l).2.1 h1 h0)
    · rw [if_neg h0]
      have h2 : ¬ acc i (u * X i) w := fun h => ha (Or.inr ⟨h0, h⟩)
      exact prob_congr fun l => Q_succ t ((iter_ideal s u w i .none l).2.2.2 h1 h0 h2)

/-- One iteration. -/
theorem P_succ (n : Nat) (s : ℝ) : P t (n + 1) s * 256 = ∑ i ∈ Finset.range 256, volume.real (sq ∩ retSet X acc i (t - s)) +
    P t n (s + X 1) * (1 - X 1 / X 0) + P t n s * (255 + X 1 / X 0 - ∑ i ∈ Finset.range 256, volume.real (sq ∩ all i)) := by
  rw [P, prob_succ_toReal, div_mul_cancel₀ _ (by norm_num : (256 : ℝ) ≠ 0), Finset.sum_congr rfl fun i _ => layer_prob t n s i, Finset.sum_add_distrib,
    Fin.sum_univ_eq_sum_range (fun i => volume.real (sq ∩ retSet X acc i (t - s))) 256,
    Fin.sum_univ_eq_sum_range (fun i => P t n (if i = 0 then s + X 1 else s) * (1 - volume.real (sq ∩ all i))) 256]
  have h0 : volume.real (sq ∩ all 0) = X 1 / X 0 := by
    rw [all_eq (by norm_num), volume_ret_zero table (by norm_num) (table.xpos (by norm_num)).le, min_eq_right (table.xdec 0 (by norm_num)).le]
  rw [Finset.sum_range_succ' (fun i => P t n (if i = 0 then s + X 1 else s) * (1 - volume.real (sq ∩ all i))),
    Finset.sum_range_succ' (fun i => volume.real (sq ∩ all i)), h0]
  have h1 : ∑ i ∈ Finset.range 255, P t n (if i + 1 = 0 then s + X 1 else s) * (1 - volume.real (sq ∩ all (i + 1))) =
      P t n s * (255 - ∑ i ∈ Finset.range 255, volume.real (sq ∩ all (i + 1))) := by
    rw [Finset.sum_congr rfl fun i _ => by rw [if_neg (Nat.succ_ne_zero i)], ← Finset.mul_sum, Finset.sum_sub_distrib]
    simp
  rw [h1, if_pos rfl]
  ring

/-- The distribution function. -/
noncomputable def G (x : ℝ) : ℝ := if 0 ≤ x then 1 - Real.exp (-x) else 0

theorem G_nonneg (x : ℝ) : 0 ≤ G x := by
  rw [G]; split
  · have := Real.exp_le_one_iff.2 (show -x ≤ 0 by linarith); linarith
  · exact le_rfl

theorem G_le_one (x : ℝ) : G x ≤ 1 := by
  rw [G]; split
  · linarith [Real.exp_pos (-x)]
  · norm_num

theorem integral_exp_neg (T : ℝ) : ∫ x in (0 : ℝ)..T, Real.exp (-x) = 1 - Real.exp (-T) := by
  rw [intervalIntegral.integral_comp_neg Real.exp, integral_exp]; simp

theorem ret_neg {τ : ℝ} (hτ : τ < 0) {i : Nat} (hi : i < 256) : volume.real (sq ∩ retSet X acc i τ) = 0 := by
  have : sq ∩ retSet X acc i τ = ∅ := by
    ext p
    simp only [mem_inter_iff, mem_empty_iff_false, iff_false, not_and]
    intro h1 h2
    have h3 := mul_nonneg h1.1.1 (table.xpos hi).le
    have h4 := h2.2
    linarith
  rw [this]; simp

theorem A_bounds : 0.0039496598 < X 0 * Y 1 ∧ X 0 * Y 1 < 0.0039496599 := by
  rw [X_first, Y_one]; norm_num

theorem small : (256 : ℕ) * (1 / 10 ^ 19 + 2 * (1 / 10 ^ 19) * X 0) ≤ 5 / 10 ^ 16 := by
  rw [X_first]; norm_num

theorem sum_all : |X 0 * Y 1 * ∑ i ∈ Finset.range 256, volume.real (sq ∩ all i) - (1 - Real.exp (-X 1))| ≤ 5 / 10 ^ 16 := by
  have h := total table decides measurableSet_acc (by norm_num) (table.xpos (by norm_num : 0 < 256)).le
  rw [min_eq_right (table.xdec 0 (by norm_num)).le, integral_exp_neg] at h
  rw [Finset.sum_congr rfl fun i hi => by rw [all_eq (Finset.mem_range.1 hi)]]
  exact h.trans small

theorem area_tail : X 0 * Y 1 * (1 - X 1 / X 0) = Y 1 := by
  have h := table.xpos (by norm_num : 0 < 256)
  have h1 := X_step
  field_simp
  rw [h1]; ring

/-- The distribution function satisfies the equation of the loop. -/
theorem G_step (τ : ℝ) : |X 0 * Y 1 * (∑ i ∈ Finset.range 256, volume.real (sq ∩ retSet X acc i τ) + G (τ - X 1) * (1 - X 1 / X 0) +
    G τ * (255 + X 1 / X 0 - ∑ i ∈ Finset.range 256, volume.real (sq ∩ all i)) - 256 * G τ)| ≤ 11 / 10 ^ 16 := by
  have hX1 : 0 < X 1 := table.xpos (by norm_num)
  have h2 := abs_le.1 sum_all
  have h3 := area_tail
  have hv := abs_le.1 (value (i := 1) le_rfl (by norm_num))
  have hG0 := G_nonneg τ
  have hG1 := G_le_one τ
  have hH0 := G_nonneg (τ - X 1)
  have hH1 := G_le_one (τ - X 1)
  have e : X 0 * Y 1 * (∑ i ∈ Finset.range 256, volume.real (sq ∩ retSet X acc i τ) + G (τ - X 1) * (1 - X 1 / X 0) +
      G τ * (255 + X 1 / X 0 - ∑ i ∈ Finset.range 256, volume.real (sq ∩ all i)) - 256 * G τ) =
      X 0 * Y 1 * ∑ i ∈ Finset.range 256, volume.real (sq ∩ retSet X acc i τ) + G (τ - X 1) * Y 1 - G τ * Y 1 -
        G τ * (X 0 * Y 1 * ∑ i ∈ Finset.range 256, volume.real (sq ∩ all i)) := by
    linear_combination (G (τ - X 1) - G τ) * h3
  rw [e]
  rcases lt_or_ge τ 0 with hτ | hτ
  · rw [Finset.sum_eq_zero fun i hi => ret_neg hτ (Finset.mem_range.1 hi)]
    have h4 : G τ = 0 := if_neg (not_le.2 hτ)
    have h5 : G (τ - X 1) = 0 := if_neg (not_le.2 (by linarith))
    rw [h4, h5]; norm_num
  · have h1 := abs_le.1 ((total table decides measurableSet_acc (by norm_num) hτ).trans small)
    rw [integral_exp_neg] at h1
    have hp : Real.exp (-τ) = Real.exp (-X 1) * Real.exp (-(τ - X 1)) := by rw [← Real.exp_add]; congr 1; ring
    have hGτ : G τ = 1 - Real.exp (-τ) := if_pos hτ
    generalize X 0 * Y 1 * ∑ i ∈ Finset.range 256, volume.real (sq ∩ retSet X acc i τ) = a at *
    generalize X 0 * Y 1 * ∑ i ∈ Finset.range 256, volume.real (sq ∩ all i) = b at *
    rcases lt_or_ge τ (X 1) with h | h
    · rw [min_eq_left h.le] at h1
      have h5 : G (τ - X 1) = 0 := if_neg (not_le.2 (by linarith))
      rw [h5]
      generalize G τ = g at *
      generalize Real.exp (-X 1) = q at *
      generalize Real.exp (-τ) = p at *
      rw [abs_le]; constructor <;> nlinarith
    · rw [min_eq_right h] at h1
      have h5 : G (τ - X 1) = 1 - Real.exp (-(τ - X 1)) := if_pos (by linarith)
      generalize G (τ - X 1) = g' at *
      generalize G τ = g at *
      generalize Real.exp (-X 1) = q at *
      generalize Real.exp (-(τ - X 1)) = r at *
      have hgg : g = 1 - q + q * g' := by rw [hGτ, hp, h5]; ring
      rw [abs_le]; constructor <;> nlinarith

theorem rejected : 0 ≤ 255 + X 1 / X 0 - ∑ i ∈ Finset.range 256, volume.real (sq ∩ all i) := by
  have h0 : volume.real (sq ∩ all 0) = X 1 / X 0 := by
    rw [all_eq (by norm_num), volume_ret_zero table (by norm_num) (table.xpos (by norm_num)).le, min_eq_right (table.xdec 0 (by norm_num)).le]
  rw [Finset.sum_range_succ' (fun i => volume.real (sq ∩ all i)), h0]
  have h1 : ∑ i ∈ Finset.range 255, volume.real (sq ∩ all (i + 1)) ≤ ∑ _i ∈ Finset.range 255, (1 : ℝ) := by
    refine Finset.sum_le_sum fun i _ => ?_
    rw [← real_sq]
    exact measureReal_mono inter_subset_left (by rw [volume_sq]; simp)
  simp at h1
  linarith

theorem tail_nonneg : 0 ≤ 1 - X 1 / X 0 := by
  have h := table.xpos (by norm_num : 0 < 256)
  rw [sub_nonneg, div_le_one h]
  exact (table.xdec 0 (by norm_num)).le

theorem rest_le : (1 - X 1 / X 0) + (255 + X 1 / X 0 - ∑ i ∈ Finset.range 256, volume.real (sq ∩ all i)) ≤ 256 / 50 := by
  have h1 := (abs_le.1 sum_all).1
  have h2 := A_bounds
  have hv := (abs_le.1 (value (i := 1) le_rfl (by norm_num))).2
  rw [Y_one] at hv
  generalize ∑ i ∈ Finset.range 256, volume.real (sq ∩ all i) = b at *
  have hb : 0.9995 ≤ X 0 * Y 1 * b := by norm_num at hv h1 ⊢; linarith
  have hb' : 0 < b := by
    by_contra hc
    have : X 0 * Y 1 * b ≤ 0 := mul_nonpos_of_nonneg_of_nonpos (by linarith) (not_lt.1 hc)
    norm_num at hb; linarith
  have : X 0 * Y 1 * b ≤ 0.0039496599 * b := mul_le_mul_of_nonneg_right h2.2.le hb'.le
  norm_num at this hb ⊢
  linarith

theorem law (n : Nat) : ∀ s, |P t n s - G (t - s)| ≤ 2 / 10 ^ 15 + (1 / 50) ^ n := by
  induction n with
  | zero =>
    intro s
    have h0 : P t 0 s = 0 := by
      rw [P, prob_false 0 fun l h => by obtain ⟨v, s', e, _⟩ := h; cases e]; rfl
    rw [h0, abs_le]
    have := G_nonneg (t - s)
    have := G_le_one (t - s)
    constructor <;> norm_num <;> linarith
  | succ n ih =>
    intro s
    have h1 := P_succ t n s
    have h2 := abs_le.1 (G_step (t - s))
    have h3 := abs_le.1 (ih s)
    have h4 := abs_le.1 (ih (s + X 1))
    rw [show t - (s + X 1) = t - s - X 1 by ring] at h4
    have h5 := rest_le
    have h6 := rejected
    have h7 := tail_nonneg
    have h8 := A_bounds
    have hpow : ((1 : ℝ) / 50) ^ (n + 1) = (1 / 50) ^ n / 50 := by rw [pow_succ]; ring
    have hpos : (0 : ℝ) ≤ (1 / 50) ^ n := by positivity
    rw [hpow]
    generalize ((1 : ℝ) / 50) ^ n = k at *
    generalize ∑ i ∈ Finset.range 256, volume.real (sq ∩ retSet X acc i (t - s)) = a at *
    generalize 255 + X 1 / X 0 - ∑ i ∈ Finset.range 256, volume.real (sq ∩ all i) = b at *
    generalize 1 - X 1 / X 0 = c at *
    generalize X 0 * Y 1 = A at *
    generalize G (t - s) = g at *
    generalize G (t - s - X 1) = g' at *
    generalize P t n s = p at *
    generalize P t n (s + X 1) = p' at *
    generalize P t (n + 1) s = p'' at *
    -- the residual of the equation
    have h9 : |a + g' * c + g * b - 256 * g| ≤ 256 * (12 / 10 ^ 16) := by
      have h10 : |A * (a + g' * c + g * b - 256 * g)| ≤ 11 / 10 ^ 16 := abs_le.2 h2
      rw [abs_mul, abs_of_pos (by linarith)] at h10
      by_contra hc
      have h11 := not_le.1 hc
      have := mul_lt_mul_of_pos_left h11 (show 0 < A by linarith)
      norm_num at h8 this h10
      nlinarith
    have h9' := abs_le.1 h9
    have e : (p'' - g) * 256 = (a + g' * c + g * b - 256 * g) + (p' - g') * c + (p - g) * b := by linear_combination h1
    have hk : 0 ≤ 2 / 10 ^ 15 + k := by positivity
    have u1 : (p' - g') * c ≤ (2 / 10 ^ 15 + k) * c := mul_le_mul_of_nonneg_right h4.2 h7
    have u2 : (p - g) * b ≤ (2 / 10 ^ 15 + k) * b := mul_le_mul_of_nonneg_right h3.2 h6
    have u3 : -(2 / 10 ^ 15 + k) * c ≤ (p' - g') * c := mul_le_mul_of_nonneg_right h4.1 h7
    have u4 : -(2 / 10 ^ 15 + k) * b ≤ (p - g) * b := mul_le_mul_of_nonneg_right h3.1 h6
    have u5 : (2 / 10 ^ 15 + k) * (c + b) ≤ (2 / 10 ^ 15 + k) * (256 / 50) := mul_le_mul_of_nonneg_left h5 hk
    rw [abs_le]
    constructor <;> norm_num at * <;> linarith

end
end Boost.Random.Exponential
