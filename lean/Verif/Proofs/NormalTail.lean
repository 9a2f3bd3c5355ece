import Verif.Proofs.GaussTail
import Verif.Proofs.Prob

/-!
# The tail of the normal distribution: rejection from the exponential distribution
-/

namespace Boost.Random.Normal
open Spec Zig MeasureTheory Set Filter Topology
open scoped ENNReal

/-- The distance beyond the corner that is drawn from the first number. -/
noncomputable def dist (u : ℝ) : ℝ := -Real.log (1 - u) / X 1

/-- The pairs that are accepted. -/
def tailAcc : Set (ℝ × ℝ) := {p | dist p.1 * dist p.1 < 2 * (-Real.log (1 - p.2) / 1)}

theorem X1_pos : 0 < X 1 := by rw [X_1]; norm_num

theorem measurable_dist : Measurable dist := by
  unfold dist
  exact ((Real.measurable_log.comp (measurable_const.sub measurable_id)).neg).div_const _

theorem measurableSet_tailAcc : MeasurableSet tailAcc := by
  refine measurableSet_lt ?_ ?_
  · exact (measurable_dist.comp measurable_fst).mul (measurable_dist.comp measurable_fst)
  · exact (((Real.measurable_log.comp (measurable_const.sub measurable_snd)).neg).div_const _).const_mul 2

theorem dist_nonneg {u : ℝ} (h0 : 0 ≤ u) (h1 : u < 1) : 0 ≤ dist u := by
  refine div_nonneg ?_ X1_pos.le
  have := Real.log_nonpos (show 0 ≤ 1 - u by linarith) (by linarith)
  linarith

theorem dist_le_iff {u m : ℝ} (h1 : u < 1) : dist u ≤ m ↔ u ≤ 1 - Real.exp (-(X 1 * m)) := by
  have hp : 0 < 1 - u := by linarith
  rw [dist, div_le_iff₀ X1_pos, neg_le, ← Real.exp_le_exp (y := Real.log (1 - u)), Real.exp_log hp, show -(m * X 1) = -(X 1 * m) by ring]
  constructor <;> intro h <;> linarith

/-- The probability of acceptance given the first number. -/
theorem len_tailAcc (u : ℝ) : (len fun w => (u, w) ∈ tailAcc) = φ (dist u) := by
  have hφ1 : φ (dist u) ≤ 1 := φ_le_one _
  have hφ := φ_pos (dist u)
  have e : {w ∈ Ico (0 : ℝ) 1 | (u, w) ∈ tailAcc} = Ioo (1 - φ (dist u)) 1 := by
    ext w
    have key : w < 1 → ((u, w) ∈ tailAcc ↔ 1 - φ (dist u) < w) := by
      intro hw
      have hp : 0 < 1 - w := by linarith
      change dist u * dist u < 2 * (-Real.log (1 - w) / 1) ↔ _
      rw [show (dist u * dist u < 2 * (-Real.log (1 - w) / 1)) ↔ Real.log (1 - w) < -(dist u * dist u / 2) by
        rw [div_one]; constructor <;> intro h <;> linarith, ← Real.exp_lt_exp, Real.exp_log hp]
      rw [φ]
      constructor <;> intro h <;> linarith
    simp only [Set.mem_ofPred_eq, mem_Ico, mem_Ioo]
    constructor
    · rintro ⟨⟨_, h1⟩, h2⟩; exact ⟨(key h1).1 h2, h1⟩
    · rintro ⟨h1, h2⟩; exact ⟨⟨by linarith, h2⟩, (key h2).2 h1⟩
  rw [len, e, Real.volume_real_Ioo]
  simp [hφ.le]

/-- The factor between the tail of the curve and the probability of acceptance. -/
noncomputable def κ : ℝ := X 1 / φ (X 1)

theorem κ_pos : 0 < κ := div_pos X1_pos (φ_pos _)

theorem dist_inverse (x : ℝ) : dist (1 - Real.exp (-(X 1 * x))) = x := by
  rw [dist, sub_sub_cancel, Real.log_exp]
  have := X1_pos.ne'
  field_simp

/-- The product of the two densities is the shifted curve. -/
theorem density (x : ℝ) : φ x * (X 1 * Real.exp (-(X 1 * x))) = κ * φ (X 1 + x) := by
  have h : φ (X 1 + x) = φ (X 1) * (φ x * Real.exp (-(X 1 * x))) := by
    rw [φ, φ, φ, ← Real.exp_add, ← Real.exp_add]; congr 1; ring
  rw [h, κ]
  have := (φ_pos (X 1)).ne'
  field_simp

/-- The probability of acceptance with a distance not above `m`. -/
theorem volume_tail_le {m : ℝ} (hm : 0 ≤ m) : volume.real (sq ∩ (tailAcc ∩ {p | dist p.1 ≤ m})) = κ * (I (X 1 + m) - I (X 1)) := by
  have hS : MeasurableSet (tailAcc ∩ {p : ℝ × ℝ | dist p.1 ≤ m}) :=
    measurableSet_tailAcc.inter (measurableSet_le (measurable_dist.comp measurable_fst) measurable_const)
  set U := 1 - Real.exp (-(X 1 * m)) with hU
  have hU1 : U < 1 := by have := Real.exp_pos (-(X 1 * m)); linarith
  have hU0 : 0 ≤ U := by
    have : Real.exp (-(X 1 * m)) ≤ 1 := Real.exp_le_one_iff.2 (by have := mul_nonneg X1_pos.le hm; linarith)
    linarith
  rw [area_eq hS]
  have e1 : ∫ u in Ico (0 : ℝ) 1, (len fun w => (u, w) ∈ tailAcc ∩ {p : ℝ × ℝ | dist p.1 ≤ m}) = ∫ u in Ico (0 : ℝ) 1, (Icc 0 U).indicator (fun u => φ (dist u)) u := by
    refine setIntegral_congr_fun measurableSet_Ico fun u hu => ?_
    by_cases h : u ≤ U
    · have h' : u ∈ Icc 0 U := ⟨hu.1, h⟩
      have h2 : dist u ≤ m := (dist_le_iff hu.2).2 h
      simp only [indicator_of_mem h']
      rw [← len_tailAcc]
      congr 1; ext w
      simp [h2]
    · have h' : u ∉ Icc 0 U := fun hc => h hc.2
      simp only [indicator_of_notMem h']
      refine len_false fun w _ hw => h ((dist_le_iff hu.2).1 hw.2)
  rw [e1, setIntegral_indicator measurableSet_Icc, inter_eq_right.2 (show Icc 0 U ⊆ Ico 0 1 from fun u hu => ⟨hu.1, lt_of_le_of_lt hu.2 hU1⟩), integral_Icc_eq_integral_Ioc,
    ← intervalIntegral.integral_of_le hU0]
  have hd : ∀ x : ℝ, HasDerivAt (fun x => 1 - Real.exp (-(X 1 * x))) (X 1 * Real.exp (-(X 1 * x))) x := by
    intro x
    have h1 : HasDerivAt (fun x : ℝ => -(X 1 * x)) (-(X 1)) x := by
      refine ((hasDerivAt_id x).const_mul (X 1)).neg.congr_deriv (by ring)
    exact ((h1.exp).const_sub 1).congr_deriv (by ring)
  have e2 := intervalIntegral.integral_comp_mul_deriv_of_deriv_nonneg (a := 0) (b := m) (f := fun x => 1 - Real.exp (-(X 1 * x)))
    (f' := fun x => X 1 * Real.exp (-(X 1 * x))) (g := fun u => φ (dist u)) (fun x _ => (hd x).continuousAt.continuousWithinAt) (fun x _ => hd x)
    (fun x _ => mul_nonneg X1_pos.le (Real.exp_pos _).le)
  simp only [Function.comp, dist_inverse, mul_zero, neg_zero, Real.exp_zero, sub_self] at e2
  rw [← hU] at e2
  rw [← e2]
  simp only [density]
  rw [intervalIntegral.integral_const_mul, intervalIntegral.integral_comp_add_left φ, add_zero]
  congr 1
  have := intervalIntegral.integral_add_adjacent_intervals (continuous_φ.intervalIntegrable (μ := volume) 0 (X 1)) (continuous_φ.intervalIntegrable (X 1) (X 1 + m))
  rw [I, I]
  linarith

/-- The probability of acceptance. -/
theorem volume_tail : volume.real (sq ∩ tailAcc) = κ * (H - I (X 1)) := by
  have hlim1 : Tendsto (fun n : ℕ => volume.real (sq ∩ (tailAcc ∩ {p | dist p.1 ≤ n}))) atTop (𝓝 (volume.real (sq ∩ tailAcc))) := by
    have hu : ⋃ n : ℕ, sq ∩ (tailAcc ∩ {p : ℝ × ℝ | dist p.1 ≤ n}) = sq ∩ tailAcc := by
      ext p
      simp only [mem_iUnion, mem_inter_iff]
      constructor
      · rintro ⟨n, h1, h2, _⟩; exact ⟨h1, h2⟩
      · rintro ⟨h1, h2⟩
        obtain ⟨n, hn⟩ := exists_nat_ge (dist p.1)
        exact ⟨n, h1, h2, hn⟩
    have hmono : Monotone fun n : ℕ => sq ∩ (tailAcc ∩ {p : ℝ × ℝ | dist p.1 ≤ n}) := by
      intro a b hab p hp
      exact ⟨hp.1, hp.2.1, show dist p.1 ≤ (b : ℝ) from le_trans hp.2.2 (show (a : ℝ) ≤ (b : ℝ) by exact_mod_cast hab)⟩
    have h := tendsto_measure_iUnion_atTop (μ := volume) hmono
    rw [hu] at h
    exact (ENNReal.tendsto_toReal ((measure_mono inter_subset_left).trans_lt (by rw [volume_sq]; simp)).ne).comp h
  have hlim2 : Tendsto (fun n : ℕ => κ * (I (X 1 + n) - I (X 1))) atTop (𝓝 (κ * (H - I (X 1)))) := by
    refine Tendsto.const_mul κ (Tendsto.sub_const ?_ _)
    have h := intervalIntegral_tendsto_integral_Ioi 0 (integrable_φ.integrableOn (s := Ioi 0)) (b := fun n : ℕ => X 1 + (n : ℝ))
      (tendsto_atTop_add_const_left _ _ tendsto_natCast_atTop_atTop)
    rw [integral_φ] at h
    exact h
  refine tendsto_nhds_unique hlim1 (hlim2.congr fun n => ?_)
  rw [volume_tail_le (Nat.cast_nonneg n)]

theorem tail_prob : 0.9 ≤ volume.real (sq ∩ tailAcc) ∧ volume.real (sq ∩ tailAcc) ≤ 1 := by
  constructor
  · rw [volume_tail, κ]
    have h1 := abs_le.1 tail_area
    have h2 := abs_le.1 (value (i := 1) (by norm_num) (by norm_num))
    rw [X_0, X_1, Y_1] at *
    rw [div_mul_eq_mul_div, le_div_iff₀ (φ_pos _)]
    norm_num at *
    linarith [h1.1, h1.2, h2.1, h2.2]
  · rw [← real_sq]
    exact measureReal_mono inter_subset_left (by rw [volume_sq]; simp)

/-! ## The loop -/

/-- The loop returns a value with `p`. -/
def TQ (p : ℝ → Prop) (n : Nat) (pd : Pending) (l : List (ℝ × Fin 256 × ℝ)) : Prop := ∃ v s, tail exactOps ideal n (pd, l) = .done v s ∧ p v

theorem tail_ideal (u w : ℝ) (i : Fin 256) {pd : Pending} (hpd : ∀ w, pd ≠ .expo w) (n : Nat) (l : List (ℝ × Fin 256 × ℝ)) :
    tail exactOps ideal (n + 1) (pd, (u, i, w) :: l) = if dist u * dist u < 2 * (-Real.log (1 - w) / 1) then .done (dist u + X 1) (.none, l) else tail exactOps ideal n (.none, l) := by
  have hfl : ∀ x : ℝ, exactOps.fl x = x := fun _ => rfl
  cases pd with
  | none => simp only [tail, entry_X (show 1 ≤ 128 by norm_num), Exponential.generate, ideal, Run.bind, hfl, dist]; rfl
  | unif w' => simp only [tail, entry_X (show 1 ≤ 128 by norm_num), Exponential.generate, ideal, Run.bind, hfl, dist]; rfl
  | expo w' => exact absurd rfl (hpd w')

theorem TQ_pending (p : ℝ → Prop) (n : Nat) {pd : Pending} (hpd : ∀ w, pd ≠ .expo w) (l : List (ℝ × Fin 256 × ℝ)) : TQ p n pd l ↔ TQ p n .none l := by
  cases n with
  | zero => rfl
  | succ n =>
    cases pd with
    | none => rfl
    | unif w => cases l <;> rfl
    | expo w' => exact absurd rfl (hpd w')

/-- Its probability. -/
noncomputable def T (p : ℝ → Prop) (n : Nat) : ℝ := (prob n (TQ p n .none)).toReal

theorem T_succ {p : ℝ → Prop} (hp : MeasurableSet {x | p x}) (n : Nat) :
    T p (n + 1) = volume.real (sq ∩ (tailAcc ∩ {a | p (dist a.1 + X 1)})) + T p n * (1 - volume.real (sq ∩ tailAcc)) := by
  have hm : MeasurableSet {a : ℝ × ℝ | p (dist a.1 + X 1)} := ((measurable_dist.comp measurable_fst).add_const (X 1)) hp
  have h : ∀ i : Fin 256, (∫⁻ a in sq, prob n fun l => TQ p (n + 1) .none ((a.1, i, a.2) :: l)).toReal =
      volume.real (sq ∩ (tailAcc ∩ {a | p (dist a.1 + X 1)})) + T p n * (1 - volume.real (sq ∩ tailAcc)) := by
    intro i
    refine lintegral_three (measurableSet_tailAcc.inter hm) measurableSet_tailAcc inter_subset_left (prob_le_one n _) ?_ ?_ ?_
    · rintro ⟨u, w⟩ _ hr
      have ha : dist u * dist u < 2 * (-Real.log (1 - w) / 1) := hr.1
      refine prob_true n fun l => ⟨dist u + X 1, (.none, l), ?_, hr.2⟩
      rw [tail_ideal u w i (by simp), if_pos ha]
    · rintro ⟨u, w⟩ _ ha hr
      have ha' : dist u * dist u < 2 * (-Real.log (1 - w) / 1) := ha
      refine prob_false n fun l => ?_
      rintro ⟨v, s, e, hv⟩
      rw [tail_ideal u w i (by simp), if_pos ha'] at e
      cases e
      exact hr ⟨ha, hv⟩
    · rintro ⟨u, w⟩ _ ha
      have ha' : ¬ dist u * dist u < 2 * (-Real.log (1 - w) / 1) := ha
      refine prob_congr fun l => ?_
      rw [TQ, tail_ideal u w i (by simp), if_neg ha']
      rfl
  rw [T, prob_succ_toReal, Finset.sum_congr rfl fun i _ => h i, Finset.sum_const, Finset.card_univ, Fintype.card_fin, nsmul_eq_mul]
  norm_num

theorem T_eq {p : ℝ → Prop} (hp : MeasurableSet {x | p x}) (n : Nat) :
    T p n = volume.real (sq ∩ (tailAcc ∩ {a | p (dist a.1 + X 1)})) / volume.real (sq ∩ tailAcc) * (1 - (1 - volume.real (sq ∩ tailAcc)) ^ n) := by
  have hq : volume.real (sq ∩ tailAcc) ≠ 0 := by have := tail_prob.1; norm_num at this; linarith
  induction n with
  | zero =>
    rw [T, prob_false 0 fun l h => by obtain ⟨v, s', e, _⟩ := h; cases e]; simp
  | succ n ih => rw [T_succ hp, ih, pow_succ]; field_simp; ring

end Boost.Random.Normal
