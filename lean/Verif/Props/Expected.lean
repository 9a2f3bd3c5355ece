import Verif.Proofs.Expected
import Verif.Props.UniformInt
import Verif.Props.IndependentBits
import Mathlib.Algebra.Order.Archimedean.Basic
import Mathlib.Data.Int.Interval

/-!
# C152, C153: rejection loops end, after few engine values on average, and their results have the claimed law
-/

namespace Boost.Random
open Spec Finset

theorem tends_zero_of_mul (f : Nat → ℚ) (B : ℚ) (h0 : ∀ n, 0 ≤ f n) (h : ∀ n : Nat, n * f n ≤ B) : Tends f 0 := by
  intro ε hε
  obtain ⟨m, hm⟩ := exists_nat_gt (B / ε)
  refine ⟨m + 1, fun n hn => ?_⟩
  rw [sub_zero, abs_of_nonneg (h0 n)]
  have hn0 : (0 : ℚ) < n := by exact_mod_cast (by omega : 0 < n)
  have hmn : (m : ℚ) ≤ n := by exact_mod_cast (by omega : m ≤ n)
  rw [div_lt_iff₀ hε] at hm
  by_contra hc
  rw [not_lt] at hc
  have := h n
  have h1 : (n : ℚ) * ε ≤ n * f n := mul_le_mul_of_nonneg_left hc hn0.le
  have h2 : (m : ℚ) * ε ≤ n * ε := mul_le_mul_of_nonneg_right hmn hε.le
  linarith

/-- from the mean to the law -/
theorem tends_law {α : Type} [DecidableEq α] (E : EngInfo) (hE : E.min ≤ E.max) (q : List Int → Draw α) (B : ℚ)
    (hm : ∀ n, mu E q n ≤ B) (hr : LocalOn E q) (s : Finset α)
    (hs : ∀ xs, Outputs E xs → q xs ≠ Draw.ub ∧ ∀ v rest, q xs = Draw.done v rest → v ∈ s)
    (hu : ∀ v ∈ s, ∀ v' ∈ s, ∀ n, count E q n v = count E q n v') (v : α) (hv : v ∈ s) :
    Tends (fun n => returned E q n v) (1 / s.card) := by
  have hc : 0 < s.card := Finset.card_pos.2 ⟨v, hv⟩
  have hcq : (0 : ℚ) < s.card := by exact_mod_cast hc
  have key : ∀ n, returned E q n v = 1 / s.card - sigma E q n / s.card := by
    intro n
    have h1 := rho_total E hE q s hs n
    have h2 : ∀ w ∈ s, rho E q n w = rho E q n v := fun w hw =>
      rho_congr E hE q hr w v (fun j => by rw [← count_eq_cnt, ← count_eq_cnt]; exact hu w hw v hv j) n
    rw [sum_congr rfl h2, sum_const, nsmul_eq_mul] at h1
    rw [returned_eq, ← sub_div, eq_div_iff hcq.ne']
    linarith
  have h0 := tends_zero_of_mul (sigma E q) B (sigma_nonneg E hE q) (fun n => le_trans (sigma_le E hE q n) (hm n))
  intro ε hε
  obtain ⟨m, h⟩ := h0 ε hε
  refine ⟨m, fun n hn => ?_⟩
  have h1 := h n hn
  rw [sub_zero, abs_of_nonneg (sigma_nonneg E hE q n)] at h1
  simp only []
  rw [key, sub_sub_cancel_left, abs_neg, abs_of_nonneg (div_nonneg (sigma_nonneg E hE q n) hcq.le), div_lt_iff₀ hcq]
  have : (1 : ℚ) ≤ s.card := by exact_mod_cast hc
  have : ε * 1 ≤ ε * s.card := mul_le_mul_of_nonneg_left this hε.le
  linarith

/-! ## C152 -/

/-- C152: `uniform_int_distribution` uses on average at most `2 (k + 2)` engine values where `k` is the integer part of the
logarithm of `max - min` to the base of the number of engine values, for every legal engine, type and range. -/
theorem c152_mean (E : EngInfo) (hE : EngOK E) (T : IntTy) (mn mx : Int) (hP : ParamOK T mn mx) (n : Nat) :
    meanUsed E (UniformInt.generate E T mn mx) n ≤ 2 * (Nat.log (engValues E) (mx - mn).toNat + 2 : Nat) := by
  rw [meanUsed_eq, mu_congr E hE.lt.le (fun xs hxs => UniformInt.generate_eq_K hE hP xs hxs),
    mu_map E (UniformInt.out E T mn mx) (UniformInt.K E.b (dig E) ((mx - mn).toNat + 1))]
  exact UniformInt.mu_K hE _ (Nat.succ_pos _) n

/-- a die asked for ten values: stopped after four rolls it has used 7/3 on average; the bound is 6 -/
example : meanUsed die (UniformInt.generate die ⟨32, true⟩ (-3) 6) 3 ≤ 6 :=
  le_trans (c152_mean die die_ok ⟨32, true⟩ (-3) 6 ⟨by decide, by decide, by decide, by decide⟩ 3) (by decide +kernel)

#guard meanUsed die (UniformInt.generate die ⟨32, true⟩ (-3) 6) 4 = 7 / 3
#guard meanUsed die (UniformInt.generate die ⟨32, true⟩ 1 4) 4 = 40 / 27

/-- C152: a range that is not larger than that of the engine takes at most two engine values on average. -/
theorem c152_small (E : EngInfo) (hE : EngOK E) (T : IntTy) (mn mx : Int) (hP : ParamOK T mn mx)
    (h : mx - mn ≤ E.max - E.min) (n : Nat) : meanUsed E (UniformInt.generate E T mn mx) n ≤ 2 := by
  have := hP.le
  rw [meanUsed_eq, mu_congr E hE.lt.le (fun xs hxs => UniformInt.generate_eq_K hE hP xs hxs),
    mu_map E (UniformInt.out E T mn mx) (UniformInt.K E.b (dig E) ((mx - mn).toNat + 1))]
  exact UniformInt.mu_K_small hE _ (Nat.succ_pos _) (by unfold EngInfo.b; omega) n

example : ParamOK ⟨32, true⟩ 1 4 ∧ (4 : Int) - 1 ≤ die.max - die.min := ⟨⟨by decide, by decide, by decide, by decide⟩, by decide⟩

/-- C152: the loops end with probability one: that of needing more than `n` engine values is at most `2 (k + 2) / n`. -/
theorem c152_ends (E : EngInfo) (hE : EngOK E) (T : IntTy) (mn mx : Int) (hP : ParamOK T mn mx) :
    (∀ n : Nat, n * stillRunning E (UniformInt.generate E T mn mx) n ≤ 2 * (Nat.log (engValues E) (mx - mn).toNat + 2 : Nat)) ∧
    Tends (stillRunning E (UniformInt.generate E T mn mx)) 0 := by
  have h : ∀ n : Nat, n * stillRunning E (UniformInt.generate E T mn mx) n ≤ 2 * (Nat.log (engValues E) (mx - mn).toNat + 2 : Nat) := by
    intro n
    rw [stillRunning_eq]
    refine le_trans (sigma_le E hE.lt.le _ n) ?_
    rw [← meanUsed_eq]
    exact c152_mean E hE T mn mx hP n
  refine ⟨h, tends_zero_of_mul _ _ (fun n => ?_) h⟩
  rw [stillRunning_eq]
  exact sigma_nonneg E hE.lt.le _ n

#guard stillRunning die (UniformInt.generate die ⟨32, true⟩ (-3) 6) 2 = 1 / 6
#guard stillRunning die (UniformInt.generate die ⟨32, true⟩ 1 4) 4 = 1 / 81

/-- `random_number_generator` calls `uniform_int_distribution` -/
theorem rng_eq (E : EngInfo) (T : IntTy) (hT : 1 ≤ T.bits) (n : Int) (hn : 0 < n) (hnT : InTy T n) :
    ParamOK T 0 (n - 1) ∧ randomNumberGenerator E T n = UniformInt.generate E T 0 (n - 1) := by
  have h0 : InTy T 0 := by
    unfold InTy InSigned at *
    have : (0 : Int) < 2 ^ (T.bits - 1) := by positivity
    have : (0 : Int) < 2 ^ T.bits := by positivity
    split <;> omega
  have h1 : InTy T (n - 1) := inTy_of_between h0 hnT (by omega) (by omega)
  refine ⟨⟨hT, h0, h1, by omega⟩, ?_⟩
  funext xs
  unfold randomNumberGenerator
  unfold InTy at h1
  cases hs : T.signed
  · simp only [hs, Bool.false_eq_true, if_false] at h1 ⊢
    rw [Int.emod_eq_of_lt h1.1 h1.2]
  · simp only [hs, if_true] at h1 ⊢
    rw [signedArith_some h1]
    simp only [wrapSigned_eq hT h1]

/-- C152: the same for `random_number_generator`. -/
theorem c152_rng (E : EngInfo) (hE : EngOK E) (T : IntTy) (hT : 1 ≤ T.bits) (n : Int) (hn : 0 < n) (hnT : InTy T n) :
    (∀ j, meanUsed E (randomNumberGenerator E T n) j ≤ 2 * (Nat.log (engValues E) (n - 1).toNat + 2 : Nat)) ∧
    Tends (stillRunning E (randomNumberGenerator E T n)) 0 := by
  obtain ⟨hP, he⟩ := rng_eq E T hT n hn hnT
  rw [he]
  refine ⟨fun j => ?_, (c152_ends E hE T 0 (n - 1) hP).2⟩
  have := c152_mean E hE T 0 (n - 1) hP j
  rwa [sub_zero] at this

#guard meanUsed die (randomNumberGenerator die ⟨32, true⟩ 36) 3 = 2

theorem ibStages_length (R w n : Nat) (hn : 1 ≤ n) : (ibStages R w n).length = n := by
  unfold ibStages
  have := Nat.mod_lt w (show 0 < n by omega)
  rw [List.length_append, List.length_replicate, List.length_replicate]; omega

theorem ibCount_le_ceil (R w : Nat) : ibCount R w ≤ (w + Nat.log2 R - 1) / Nat.log2 R + 1 := by
  unfold ibCount
  simp only
  split <;> omega

theorem mu_bits (E : EngInfo) (hE : EngOK E) (D w : Nat) (hw : 1 ≤ w) (hwD : w ≤ D)
    (hex : ¬ (E.b = 3 ∧ 3 ≤ w)) (n : Nat) : mu E (IndependentBits.next E D w) n ≤ 2 * ibCount E.b w := by
  obtain ⟨hn1, hbits, hst⟩ := ibStages_facts E hE w hw
  rw [mu_congr E hE.lt.le (fun xs hxs => IndependentBits.next_spec hE D w hw hwD hex xs hxs)]
  have := mu_ibRun E hE.lt.le n (ibStages E.b w (ibCount E.b w)) 0 (fun s hs => ⟨(hst s hs).2.2.1, (hst s hs).2.2.2.le⟩)
  rwa [ibStages_length _ _ _ hn1] at this

/-- C152: `independent_bits_engine` uses on average at most `2 (⌈w / m⌉ + 1)` base values for a number of `w` bits where `m` is
the integer part of the binary logarithm of the number of base values, and returns with probability one. (Left out: three base
values, where the parameters are undefined, see C28.) -/
theorem c152_bits_partial (E : EngInfo) (hE : EngOK E) (D w : Nat) (hw : 1 ≤ w) (hwD : w ≤ D)
    (hex : ¬ (engValues E = 3 ∧ 3 ≤ w)) :
    (∀ n, meanUsed E (IndependentBits.next E D w) n ≤ 2 * ((w + Nat.log2 (engValues E) - 1) / Nat.log2 (engValues E) + 1 : Nat)) ∧
    Tends (stillRunning E (IndependentBits.next E D w)) 0 := by
  have h : ∀ n, mu E (IndependentBits.next E D w) n ≤ 2 * ((w + Nat.log2 (engValues E) - 1) / Nat.log2 (engValues E) + 1 : Nat) := by
    intro n
    refine le_trans (mu_bits E hE D w hw hwD hex n) ?_
    have := ibCount_le_ceil E.b w
    have h1 : (ibCount E.b w : ℚ) ≤ ((w + Nat.log2 (engValues E) - 1) / Nat.log2 (engValues E) + 1 : Nat) := by exact_mod_cast this
    linarith
  refine ⟨fun n => by rw [meanUsed_eq]; exact h n, tends_zero_of_mul _ _ (fun n => ?_) (fun n => (?_ : _ ≤ (2 * ((w + Nat.log2 (engValues E) - 1) / Nat.log2 (engValues E) + 1 : Nat) : ℚ)))⟩
  · rw [stillRunning_eq]
    exact sigma_nonneg E hE.lt.le _ n
  · rw [stillRunning_eq]
    exact le_trans (sigma_le E hE.lt.le _ n) (h n)

example : EngOK die ∧ ¬ (engValues die = 3 ∧ 3 ≤ 3) := ⟨die_ok, by decide⟩
#guard meanUsed die (IndependentBits.next die 32 3) 3 = 7 / 3
#guard stillRunning die (IndependentBits.next die 32 3) 3 = 1 / 9

/-! ## C153 -/

theorem card_Icc_int (mn mx : Int) (h : mn ≤ mx) : ((Finset.Icc mn mx).card : ℚ) = (mx : ℚ) - mn + 1 := by
  rw [Int.card_Icc]
  have : ((mx + 1 - mn).toNat : Int) = mx + 1 - mn := by omega
  have h2 : (((mx + 1 - mn).toNat : Int) : ℚ) = ((mx + 1 - mn : Int) : ℚ) := by rw [this]
  push_cast at h2
  rw [show (((mx + 1 - mn).toNat : Nat) : ℚ) = (((mx + 1 - mn).toNat : Int) : ℚ) by push_cast; rfl]
  push_cast
  rw [h2]
  ring

/-- C153 (guard of C38): the probability that `uniform_int_distribution` returns `v` tends to `1 / (max - min + 1)` for every `v`
in the range, and is 0 for every other `v`. -/
theorem c153_law_partial (E : EngInfo) (hE : EngOK E) (T : IntTy) (mn mx : Int) (hP : ParamOK T mn mx)
    (hg : ¬ ExactPower E mn mx ∨ mn = 0 ∨ FullRange T mn mx) (v : Int) :
    (mn ≤ v ∧ v ≤ mx → Tends (fun n => returned E (UniformInt.generate E T mn mx) n v) (1 / ((mx : ℚ) - mn + 1))) ∧
    (¬ (mn ≤ v ∧ v ≤ mx) → ∀ n, returned E (UniformInt.generate E T mn mx) n v = 0) := by
  have hs : ∀ xs, Outputs E xs → UniformInt.generate E T mn mx xs ≠ Draw.ub ∧
      ∀ v rest, UniformInt.generate E T mn mx xs = Draw.done v rest → v ∈ Finset.Icc mn mx := by
    intro xs hxs
    refine ⟨(c38_no_ub E hE T mn mx hP xs hxs).1, fun v rest h => ?_⟩
    rw [Finset.mem_Icc]
    exact c38_range_partial E hE T mn mx hP hg xs hxs v rest h
  constructor
  · intro hv
    have := tends_law E hE.lt.le (UniformInt.generate E T mn mx) _ (fun n => by
        rw [← meanUsed_eq]; exact c152_mean E hE T mn mx hP n) (UniformInt.generate_local hE hP) (Finset.Icc mn mx) hs
      (fun v hv v' hv' n => c39_uniform_partial E hE T mn mx hP hg n v v' (Finset.mem_Icc.1 hv) (Finset.mem_Icc.1 hv')) v
      (Finset.mem_Icc.2 hv)
    rwa [card_Icc_int mn mx hP.le] at this
  · intro hv n
    rw [returned_eq]
    unfold rho
    refine Eq.trans ?_ (avg_const E 0 n)
    apply avg_congr E hE.lt.le
    intro xs hxs _
    rw [if_neg]
    intro hr
    cases hq : UniformInt.generate E T mn mx xs with
    | more => rw [hq] at hr; simp [returns] at hr
    | ub => rw [hq] at hr; simp [returns] at hr
    | done a rest =>
      rw [hq] at hr
      simp [returns] at hr
      subst hr
      exact hv (Finset.mem_Icc.1 ((hs xs hxs).2 _ _ hq))

example : ParamOK ⟨32, true⟩ (-3) 6 ∧ ¬ ExactPower die (-3) 6 := by
  refine ⟨⟨by decide, by decide, by decide, by decide⟩, ?_⟩
  rintro ⟨k, hk, h⟩
  have h1 : ((6 : Int)) ^ 2 ≤ 6 ^ k := pow_le_pow_right₀ (by norm_num) hk
  have h2 : die.max - die.min + 1 = 6 := by decide
  rw [h2] at h
  omega
#guard returned die (UniformInt.generate die ⟨32, true⟩ (-3) 6) 2 0 = 1 / 12
#guard returned die (UniformInt.generate die ⟨32, true⟩ (-3) 6) 4 0 = 7 / 72

/-- C153 in the remaining case: the law is that of the offset, converted to the type, without the addition of `min`. -/
theorem c153_law_exact_power (E : EngInfo) (hE : EngOK E) (T : IntTy) (mn mx : Int) (hP : ParamOK T mn mx)
    (hep : ExactPower E mn mx) (i : Nat) (hi : (i : Int) ≤ mx - mn) :
    Tends (fun n => returned E (UniformInt.generate E T mn mx) n (castT T i)) (1 / ((mx : ℚ) - mn + 1)) := by
  have hle := hP.le
  have ho : ∀ u : Nat, UniformInt.out E T mn mx u = castT T u := by
    intro u; unfold UniformInt.out; rw [if_pos hep]
  have hinj : Set.InjOn (fun u : Nat => castT T u) (Finset.range ((mx - mn).toNat + 1) : Set Nat) := by
    intro u hu u' hu' h
    have h1 := Finset.mem_range.1 (Finset.mem_coe.1 hu)
    have h2 := Finset.mem_range.1 (Finset.mem_coe.1 hu')
    exact UniformInt.out_inj (E := E) hP u u' h1 h2 (by rw [ho, ho]; exact h)
  have := tends_law E hE.lt.le (UniformInt.generate E T mn mx) _ (fun n => by
      rw [← meanUsed_eq]; exact c152_mean E hE T mn mx hP n) (UniformInt.generate_local hE hP)
    ((Finset.range ((mx - mn).toNat + 1)).image fun u : Nat => castT T u)
    (by
      intro xs hxs
      refine ⟨(c38_no_ub E hE T mn mx hP xs hxs).1, fun v rest h => ?_⟩
      rw [UniformInt.generate_eq_K hE hP xs hxs] at h
      cases hk : UniformInt.K E.b (dig E) ((mx - mn).toNat + 1) xs with
      | more => rw [hk] at h; cases h
      | ub => rw [hk] at h; cases h
      | done a rest' =>
        rw [hk] at h
        simp only [Draw.map, Draw.done.injEq] at h
        rw [← h.1, ho]
        exact Finset.mem_image_of_mem _ (Finset.mem_range.2 (UniformInt.K_done_lt hE (Nat.succ_pos _) hxs hk).1))
    (by
      intro v hv v' hv' n
      obtain ⟨u, hu, rfl⟩ := Finset.mem_image.1 hv
      obtain ⟨u', hu', rfl⟩ := Finset.mem_image.1 hv'
      have h1 := Finset.mem_range.1 hu
      have h2 := Finset.mem_range.1 hu'
      exact c39_uniform_exact_power E hE T mn mx hP hep n u u' (by omega) (by omega))
    (castT T i) (Finset.mem_image_of_mem _ (Finset.mem_range.2 (by omega)))
  rw [Finset.card_image_of_injOn hinj, Finset.card_range] at this
  have h3 : (((mx - mn).toNat + 1 : Nat) : ℚ) = (mx : ℚ) - mn + 1 := by
    have h4 : (((mx - mn).toNat + 1 : Nat) : Int) = mx - mn + 1 := by omega
    have h5 : ((((mx - mn).toNat + 1 : Nat) : Int) : ℚ) = ((mx - mn + 1 : Int) : ℚ) := by rw [h4]
    rw [Int.cast_natCast] at h5
    rw [h5]
    push_cast
    ring
  rwa [h3] at this

/-- C153 is false as claimed: a die asked for a number of 1..36 returns 0 with probability 1/36. -/
theorem c153_law_false : ParamOK ⟨32, true⟩ 1 36 ∧
    Tends (fun n => returned die (UniformInt.generate die ⟨32, true⟩ 1 36) n 0) (1 / 36) := by
  have hP : ParamOK ⟨32, true⟩ 1 36 := ⟨by decide, by decide, by decide, by decide⟩
  refine ⟨hP, ?_⟩
  have := c153_law_exact_power die die_ok ⟨32, true⟩ 1 36 hP ⟨2, le_rfl, by decide⟩ 0 (by decide)
  rw [show castT ⟨32, true⟩ 0 = 0 by decide] at this
  rw [show ((36 : Int) : ℚ) - ((1 : Int) : ℚ) + 1 = 36 by norm_num] at this
  exact this

#guard returned die (UniformInt.generate die ⟨32, true⟩ 1 36) 2 0 = 1 / 36

/-- C153: `random_number_generator` returns each number below `n` with probability `1 / n`. -/
theorem c153_rng (E : EngInfo) (hE : EngOK E) (T : IntTy) (hT : 1 ≤ T.bits) (n : Int) (hn : 0 < n) (hnT : InTy T n)
    (v : Int) (hv : 0 ≤ v ∧ v < n) : Tends (fun j => returned E (randomNumberGenerator E T n) j v) (1 / (n : ℚ)) := by
  obtain ⟨hP, he⟩ := rng_eq E T hT n hn hnT
  rw [he]
  have := (c153_law_partial E hE T 0 (n - 1) hP (Or.inr (Or.inl rfl)) v).1 (by omega)
  have h2 : ((n - 1 : Int) : ℚ) - ((0 : Int) : ℚ) + 1 = n := by push_cast; ring
  rwa [h2] at this

#guard returned die (randomNumberGenerator die ⟨32, true⟩ 4) 3 2 = 13 / 54

/-- C153: `independent_bits_engine` returns each number of `w` bits with probability `2 ^ -w`. (Left out: three base values, see C28.) -/
theorem c153_bits_partial (E : EngInfo) (hE : EngOK E) (D w : Nat) (hw : 1 ≤ w) (hwD : w ≤ D)
    (hex : ¬ (engValues E = 3 ∧ 3 ≤ w)) (v : Nat) (hv : v < 2 ^ w) :
    Tends (fun n => returned E (IndependentBits.next E D w) n v) (1 / 2 ^ w) := by
  have hp := Nat.two_pow_pos w
  have := tends_law E hE.lt.le (IndependentBits.next E D w) _ (mu_bits E hE D w hw hwD hex) (by
      intro xs v rest hxs h
      rw [IndependentBits.next_spec hE D w hw hwD hex xs hxs] at h
      obtain ⟨pre, h1, h2⟩ := ibRun_local E _ _ _ _ _ h
      refine ⟨pre, h1, fun ys hys => ?_⟩
      rw [IndependentBits.next_spec hE D w hw hwD hex, h2]
      intro x hx
      rcases List.mem_append.1 hx with h | h
      · exact hxs x (by rw [h1]; simp [h])
      · exact hys x h) (Finset.range (2 ^ w)) (by
      intro xs hxs
      obtain ⟨h1, h2⟩ := c28_range_partial E hE D w hw hwD hex xs hxs
      refine ⟨h1, fun v rest h => ?_⟩
      have := (h2 v rest h).2.1
      unfold IndependentBits.maxv at this
      rw [Finset.mem_range]
      omega) (by
      intro v hv v' hv' n
      have h1 := Finset.mem_range.1 hv
      have h2 := Finset.mem_range.1 hv'
      exact (c29_uniform_partial E hE D w hw hwD hex n).1 v v' (by unfold IndependentBits.maxv; omega)
        (by unfold IndependentBits.maxv; omega)) v (Finset.mem_range.2 hv)
  rw [Finset.card_range] at this
  push_cast at this
  exact this

#guard returned die (IndependentBits.next die 32 3) 3 5 = 1 / 9

end Boost.Random
