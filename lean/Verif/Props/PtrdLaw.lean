import Verif.Proofs.PtrdLoop

/-!
# Property C147: the law of `poisson_distribution` for means from 10 on

All rounds of the loop of `poisson_distribution::generate`, in exact arithmetic, on independent uniform numbers (`Spec.chance`).
-/

namespace Boost.Random
open Spec Trd MeasureTheory Set
open scoped ENNReal

section
variable {μ : ℝ} {bits : Nat}

theorem next_ptrd (hm : 10 ≤ μ) (l : List ℝ) : Poisson.next exactOps bits (Poisson.init exactOps μ) l = Poisson.generate exactOps bits (Poisson.ptrd exactOps μ) μ l := by
  unfold Poisson.next Poisson.init
  rw [if_neg (not_lt.2 hm)]

/-- A round accepts with a probability of at least 3/4. -/
theorem ptrd_rate (hm : 10 ≤ μ) : 0 < ptrdInvAlpha μ ∧ 3 / 4 ≤ Real.exp (-(6 / 10 ^ 11)) / ptrdInvAlpha μ ∧ Real.exp (-(6 / 10 ^ 11)) / ptrdInvAlpha μ ≤ 1 ∧
    3 / 4 ≤ Real.exp (6 / 10 ^ 11) / ptrdInvAlpha μ ∧ Real.exp (6 / 10 ^ 11) / ptrdInvAlpha μ ≤ 1 := by
  have hs : 316 / 100 ≤ Real.sqrt μ := (PtrdBox.delta_facts hm).2.2.2.1
  have hb : 0 < ptrdB μ - 3.4 := by unfold ptrdB; norm_num; linarith
  have h1 : 1.1239 ≤ ptrdInvAlpha μ := by
    unfold ptrdInvAlpha
    have : 0 < 1.1328 / (ptrdB μ - 3.4) := by positivity
    linarith
  have h2 : ptrdInvAlpha μ ≤ 1.33 := by
    unfold ptrdInvAlpha
    have : 1.1328 / (ptrdB μ - 3.4) ≤ 0.206 := by
      rw [div_le_iff₀ hb]
      unfold ptrdB
      norm_num
      linarith
    norm_num at this ⊢
    linarith
  have hp : 0 < ptrdInvAlpha μ := by norm_num at h1; linarith
  have e1 : 1 - 6 / 10 ^ 11 ≤ Real.exp (-(6 / 10 ^ 11)) := by have := Real.add_one_le_exp (-(6 / 10 ^ 11 : ℝ)); linarith
  have e2 : Real.exp (-(6 / 10 ^ 11)) ≤ 1 := Real.exp_le_one_iff.2 (by norm_num)
  have e3 : 1 ≤ Real.exp (6 / 10 ^ 11) := Real.one_le_exp (by norm_num)
  have e4 : Real.exp (6 / 10 ^ 11) ≤ 1.1 := by
    have h := Real.exp_bound_div_one_sub_of_interval (x := 6 / 10 ^ 11) (by norm_num) (by norm_num)
    exact h.trans (by norm_num)
  have e5 : (0.9999 : ℝ) ≤ 1 - 6 / 10 ^ 11 := by norm_num
  have e6 := e5.trans e1
  generalize Real.exp (-(6 / 10 ^ 11)) = x at *
  generalize Real.exp (6 / 10 ^ 11) = y at *
  norm_num at h1 h2 e4 e6
  refine ⟨hp, ?_, ?_, ?_, ?_⟩
  · rw [le_div_iff₀ hp]; linarith
  · rw [div_le_one hp]; linarith
  · rw [le_div_iff₀ hp]; linarith
  · rw [div_le_one hp]; linarith

theorem ofReal_round {a s c : ℝ} (ha : 0 ≤ a) (hs : 0 ≤ s) (hs1 : s ≤ 1) (hc : 0 ≤ c) :
    ENNReal.ofReal (a + (1 - s) * c) = ENNReal.ofReal a + (1 - ENNReal.ofReal s) * ENNReal.ofReal c := by
  rw [ENNReal.ofReal_add ha (mul_nonneg (by linarith) hc), ENNReal.ofReal_mul (by linarith), ENNReal.ofReal_sub _ hs, ENNReal.ofReal_one]

/-- The probability that `k` is returned after at most `2 n` numbers of `uniform_01` is that of `k` events, up to a factor of `1 ± 1.2e-10`, and up to the probability
(at most `4⁻ⁿ`) that no number has been returned. -/
theorem c147_law (hm : 10 ≤ μ) {k : Nat} (hk : k < 2 ^ (bits - 1)) (n : Nat) :
    ENNReal.ofReal (poissonPmf μ k * Real.exp (-(12 / 10 ^ 11)) * (1 - (1 / 4) ^ n)) ≤
        chance (2 * n) (fun l => ∃ rest, Poisson.next exactOps bits (Poisson.init exactOps μ) l = .done (k : Int) rest) ∧
      chance (2 * n) (fun l => ∃ rest, Poisson.next exactOps bits (Poisson.init exactOps μ) l = .done (k : Int) rest) ≤
        ENNReal.ofReal (poissonPmf μ k * Real.exp (12 / 10 ^ 11)) := by
  simp only [next_ptrd hm]
  obtain ⟨hp, s1, s2, s3, s4⟩ := ptrd_rate hm
  have hq : 0 < poissonPmf μ k := Poisson.poissonPmf_pos (by linarith) k
  have x1 : Real.exp (6 / 10 ^ 11) * Real.exp (-(12 / 10 ^ 11)) = Real.exp (-(6 / 10 ^ 11)) := by rw [← Real.exp_add]; norm_num
  have x2 : Real.exp (-(6 / 10 ^ 11)) * Real.exp (12 / 10 ^ 11) = Real.exp (6 / 10 ^ 11) := by rw [← Real.exp_add]; norm_num
  induction n with
  | zero =>
    constructor
    · norm_num
    · rw [Nat.mul_zero, chance, if_neg]
      · exact zero_le
      · rintro ⟨_, h⟩
        rw [Poisson.generate] at h
        cases h
  | succ n ih =>
    obtain ⟨i1, i2⟩ := ih
    rw [Nat.mul_succ]
    constructor
    · refine le_trans ?_ (Poisson.round_lower hm hk (2 * n))
      calc _ ≤ ENNReal.ofReal (poissonPmf μ k * Real.exp (-(6 / 10 ^ 11)) / ptrdInvAlpha μ + (1 - Real.exp (6 / 10 ^ 11) / ptrdInvAlpha μ) *
            (poissonPmf μ k * Real.exp (-(12 / 10 ^ 11)) * (1 - (1 / 4) ^ n))) := by
            refine ENNReal.ofReal_le_ofReal ?_
            rw [← x1]
            set s := Real.exp (6 / 10 ^ 11) / ptrdInvAlpha μ with hs
            have e : poissonPmf μ k * (Real.exp (6 / 10 ^ 11) * Real.exp (-(12 / 10 ^ 11))) / ptrdInvAlpha μ = poissonPmf μ k * Real.exp (-(12 / 10 ^ 11)) * s := by
              rw [hs]; ring
            rw [e, pow_succ (1 / 4 : ℝ) n]
            have h4 : (0 : ℝ) ≤ (1 / 4) ^ n := by positivity
            have h5 : 0 ≤ poissonPmf μ k * Real.exp (-(12 / 10 ^ 11)) := by positivity
            have h6 : 1 - (1 / 4 : ℝ) ^ n * (1 / 4) ≤ s + (1 - s) * (1 - (1 / 4) ^ n) := by nlinarith
            calc _ ≤ poissonPmf μ k * Real.exp (-(12 / 10 ^ 11)) * (s + (1 - s) * (1 - (1 / 4) ^ n)) := mul_le_mul_of_nonneg_left h6 h5
              _ = _ := by ring
        _ = ENNReal.ofReal (poissonPmf μ k * Real.exp (-(6 / 10 ^ 11)) / ptrdInvAlpha μ) + (1 - ENNReal.ofReal (Real.exp (6 / 10 ^ 11) / ptrdInvAlpha μ)) *
            ENNReal.ofReal (poissonPmf μ k * Real.exp (-(12 / 10 ^ 11)) * (1 - (1 / 4) ^ n)) := by
            have h4 : (1 / 4 : ℝ) ^ n ≤ 1 := pow_le_one₀ (by norm_num) (by norm_num)
            have h5 : 0 ≤ poissonPmf μ k * Real.exp (-(12 / 10 ^ 11)) * (1 - (1 / 4) ^ n) := mul_nonneg (by positivity) (by linarith)
            exact ofReal_round (by positivity) (by positivity) s4 h5
        _ ≤ _ := by gcongr
    · refine (Poisson.round_upper hm (bits := bits) (D := fun r => ∃ rest, r = .done (k : Int) rest) (A := Poisson.part μ (6 / 10 ^ 11) k) (Poisson.measurable_part hm)
        Poisson.part_square (fun x j _ _ h => by obtain ⟨_, h⟩ := h; cases h) (fun x j rest _ hx h => by
          obtain ⟨_, h⟩ := h
          injection h with h1 _
          have : j = k := by exact_mod_cast h1
          rwa [← this]) (2 * n)).trans ?_
      calc _ ≤ ENNReal.ofReal (poissonPmf μ k * Real.exp (6 / 10 ^ 11) / ptrdInvAlpha μ) + (1 - ENNReal.ofReal (Real.exp (-(6 / 10 ^ 11)) / ptrdInvAlpha μ)) *
            ENNReal.ofReal (poissonPmf μ k * Real.exp (12 / 10 ^ 11)) := by
            gcongr
            exact Poisson.volume_part_le hm
        _ = ENNReal.ofReal (poissonPmf μ k * Real.exp (6 / 10 ^ 11) / ptrdInvAlpha μ + (1 - Real.exp (-(6 / 10 ^ 11)) / ptrdInvAlpha μ) *
            (poissonPmf μ k * Real.exp (12 / 10 ^ 11))) := by
            exact (ofReal_round (by positivity) (by positivity) s2 (by positivity)).symm
        _ = _ := by
            congr 1
            rw [← x2]
            ring

/-- A thousand events, in `int`, and ten rounds: the probability is that of the Poisson distribution up to one in a million. -/
example : ENNReal.ofReal (poissonPmf 1000 1000 * (1 - 1 / 10 ^ 6)) ≤
    chance 20 (fun l => ∃ rest, Poisson.next exactOps 32 (Poisson.init exactOps 1000) l = .done 1000 rest) := by
  refine le_trans (ENNReal.ofReal_le_ofReal ?_) (c147_law (bits := 32) (μ := 1000) (by norm_num) (k := 1000) (by norm_num) 10).1
  have hq : 0 < poissonPmf 1000 1000 := Poisson.poissonPmf_pos (by norm_num) _
  rw [mul_assoc]
  refine mul_le_mul_of_nonneg_left ?_ hq.le
  have e1 : 1 - 12 / 10 ^ 11 ≤ Real.exp (-(12 / 10 ^ 11)) := by have := Real.add_one_le_exp (-(12 / 10 ^ 11 : ℝ)); linarith
  calc (1 - 1 / 10 ^ 6 : ℝ) ≤ (1 - 12 / 10 ^ 11) * (1 - (1 / 4) ^ 10) := by norm_num
    _ ≤ _ := mul_le_mul_of_nonneg_right e1 (by norm_num)

/-- The loop ends: after `2 n` numbers it is still running with a probability of at most `4⁻ⁿ`. -/
theorem c147_ends (hm : 10 ≤ μ) (n : Nat) :
    chance (2 * n) (fun l => Poisson.next exactOps bits (Poisson.init exactOps μ) l = .more) ≤ ENNReal.ofReal ((1 / 4) ^ n) := by
  simp only [next_ptrd hm]
  obtain ⟨hp, s1, s2, _⟩ := ptrd_rate hm
  induction n with
  | zero =>
    rw [pow_zero, ENNReal.ofReal_one]
    exact chance_le_one _ _
  | succ n ih =>
    rw [Nat.mul_succ]
    refine (Poisson.round_upper hm (bits := bits) (D := fun r => r = .more) (A := ∅) MeasurableSet.empty (empty_subset _)
      (fun _ _ _ _ h => by cases h) (fun _ _ _ _ _ h => by cases h) (2 * n)).trans ?_
    rw [measure_empty, zero_add, pow_succ (1 / 4 : ℝ) n, mul_comm _ (1 / 4 : ℝ), ENNReal.ofReal_mul (by norm_num)]
    refine mul_le_mul' ?_ ih
    rw [← ENNReal.ofReal_one, ← ENNReal.ofReal_sub _ (by positivity)]
    exact ENNReal.ofReal_le_ofReal (by linarith)

example : chance 40 (fun l => Poisson.next exactOps 32 (Poisson.init exactOps 12.5) l = .more) ≤ ENNReal.ofReal (1 / 10 ^ 12) :=
  (c147_ends (bits := 32) (μ := 12.5) (by norm_num) 20).trans (ENNReal.ofReal_le_ofReal (by norm_num))

/-- The conversion of the result to `IntType` is undefined with at most the probability of the numbers that do not fit (up to the factor `1 + 1.2e-10`). -/
theorem c147_undefined (hm : 10 ≤ μ) (n : Nat) :
    chance (2 * n) (fun l => Poisson.next exactOps bits (Poisson.init exactOps μ) l = .ub) ≤
      ENNReal.ofReal ((1 - ∑ k ∈ Finset.range (2 ^ (bits - 1)), poissonPmf μ k) * Real.exp (12 / 10 ^ 11)) := by
  simp only [next_ptrd hm]
  obtain ⟨hp, s1, s2, s3, s4⟩ := ptrd_rate hm
  have hq : ∀ k, 0 < poissonPmf μ k := fun k => Poisson.poissonPmf_pos (by linarith) k
  have x2 : Real.exp (-(6 / 10 ^ 11)) * Real.exp (12 / 10 ^ 11) = Real.exp (6 / 10 ^ 11) := by rw [← Real.exp_add]; norm_num
  have hsum : HasSum (fun k => poissonPmf μ (k + 2 ^ (bits - 1))) (1 - ∑ k ∈ Finset.range (2 ^ (bits - 1)), poissonPmf μ k) :=
    (hasSum_nat_add_iff' _).2 (hasSum_poissonPmf μ)
  have ht0 : 0 ≤ 1 - ∑ k ∈ Finset.range (2 ^ (bits - 1)), poissonPmf μ k := hsum.nonneg fun k => (hq _).le
  have hA : volume (⋃ k, Poisson.part μ (6 / 10 ^ 11) (k + 2 ^ (bits - 1))) ≤
      ENNReal.ofReal ((1 - ∑ k ∈ Finset.range (2 ^ (bits - 1)), poissonPmf μ k) * Real.exp (6 / 10 ^ 11) / ptrdInvAlpha μ) := by
    refine (measure_iUnion_le _).trans ((ENNReal.tsum_le_tsum fun k => Poisson.volume_part_le hm).trans (le_of_eq ?_))
    have hs := (hsum.mul_right (Real.exp (6 / 10 ^ 11))).div_const (ptrdInvAlpha μ)
    rw [← ENNReal.ofReal_tsum_of_nonneg (fun k => ?_) hs.summable, hs.tsum_eq]
    have := hq (k + 2 ^ (bits - 1))
    positivity
  generalize 1 - ∑ k ∈ Finset.range (2 ^ (bits - 1)), poissonPmf μ k = T at *
  induction n with
  | zero =>
    rw [Nat.mul_zero, chance, if_neg]
    · exact zero_le
    · intro h
      rw [Poisson.generate] at h
      cases h
  | succ n ih =>
    rw [Nat.mul_succ]
    refine (Poisson.round_upper hm (bits := bits) (D := fun r => r = .ub) (A := ⋃ k, Poisson.part μ (6 / 10 ^ 11) (k + 2 ^ (bits - 1)))
      (MeasurableSet.iUnion fun _ => Poisson.measurable_part hm) (iUnion_subset fun _ => Poisson.part_square)
      (fun x k hk hx _ => mem_iUnion.2 ⟨k - 2 ^ (bits - 1), by rwa [Nat.sub_add_cancel hk]⟩) (fun _ _ _ _ _ h => by cases h) (2 * n)).trans ?_
    calc _ ≤ ENNReal.ofReal (T * Real.exp (6 / 10 ^ 11) / ptrdInvAlpha μ) + (1 - ENNReal.ofReal (Real.exp (-(6 / 10 ^ 11)) / ptrdInvAlpha μ)) *
          ENNReal.ofReal (T * Real.exp (12 / 10 ^ 11)) := by gcongr
      _ = ENNReal.ofReal (T * Real.exp (6 / 10 ^ 11) / ptrdInvAlpha μ + (1 - Real.exp (-(6 / 10 ^ 11)) / ptrdInvAlpha μ) * (T * Real.exp (12 / 10 ^ 11))) := by
          exact (ofReal_round (by positivity) (by positivity) s2 (by positivity)).symm
      _ = _ := by
          congr 1
          rw [← x2]
          ring

/-- With one bit (only the number 0 fits) the bound is the probability of the other numbers. -/
example : chance 2 (fun l => Poisson.next exactOps 1 (Poisson.init exactOps 10) l = .ub) ≤ ENNReal.ofReal ((1 - poissonPmf 10 0) * Real.exp (12 / 10 ^ 11)) := by
  have := c147_undefined (bits := 1) (μ := 10) le_rfl 1
  simpa using this

end

end Boost.Random
