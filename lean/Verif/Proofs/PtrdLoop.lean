import Verif.Proofs.PairLoop
import Verif.Proofs.TrdPoisson
import Verif.Proofs.PtrdHat
import Verif.Proofs.PoissonMix

/-!
# The rounds of algorithm PTRD
-/

namespace Boost.Random.Poisson
open Spec Trd MeasureTheory Set
open scoped ENNReal

/-- A round rejects or ends with a number, independently of the type and of the numbers that follow. -/
theorem round_cases (P : Ptrd ℝ) (μ v w : ℝ) : (∀ bits l, generate exactOps bits P μ (v :: w :: l) = generate exactOps bits P μ l) ∨
    ∃ k : Int, ∀ bits l, (¬ InSigned bits k ∧ generate exactOps bits P μ (v :: w :: l) = .ub) ∨
      (InSigned bits k ∧ ∃ rest, generate exactOps bits P μ (v :: w :: l) = .done k rest) := by
  by_cases h1 : v ≤ exactOps.fl (exactOps.fl (86 / 100) * P.vr)
  · refine Or.inr ⟨⌊candidate exactOps P μ (exactOps.fl (exactOps.fl (v / P.vr) - exactOps.fl (43 / 100)))
      (exactOps.fl (1 / 2 - |exactOps.fl (exactOps.fl (v / P.vr) - exactOps.fl (43 / 100))|))⌋, fun bits l => ?_⟩
    rw [generate.eq_def]
    dsimp only
    rw [if_pos h1, castSigned_int]
    split_ifs with h
    · exact Or.inr ⟨h, _, rfl⟩
    · exact Or.inl ⟨h, rfl⟩
  · by_cases h2 : exactOps.fl (1 / 2 - |(second exactOps P v w).1|) < exactOps.fl (13 / 1000) ∧
        (second exactOps P v w).2 > exactOps.fl (1 / 2 - |(second exactOps P v w).1|)
    · refine Or.inl fun bits l => ?_
      rw [generate.eq_def]
      dsimp only
      rw [if_neg h1, if_pos h2]
    · by_cases h3 : exactOps.fl (1 / 2 - |(second exactOps P v w).1|) = 0
      · refine Or.inl fun bits l => ?_
        rw [generate.eq_def]
        dsimp only
        rw [if_neg h1, if_neg h2, if_pos h3]
      · by_cases h4 : accept exactOps P μ ⌊candidate exactOps P μ (second exactOps P v w).1 (exactOps.fl (1 / 2 - |(second exactOps P v w).1|))⌋
            (exactOps.fl (exactOps.fl ((second exactOps P v w).2 * P.invAlpha) / exactOps.fl (exactOps.fl (P.a / exactOps.fl (exactOps.fl (1 / 2 - |(second exactOps P v w).1|) *
              exactOps.fl (1 / 2 - |(second exactOps P v w).1|))) + P.b))) = true
        · refine Or.inr ⟨⌊candidate exactOps P μ (second exactOps P v w).1 (exactOps.fl (1 / 2 - |(second exactOps P v w).1|))⌋, fun bits l => ?_⟩
          rw [generate.eq_def]
          dsimp only
          rw [if_neg h1, if_neg h2, if_neg h3, if_pos h4, castSigned_int]
          split_ifs with h
          · exact Or.inr ⟨h, _, rfl⟩
          · exact Or.inl ⟨h, rfl⟩
        · refine Or.inl fun bits l => ?_
          rw [generate.eq_def]
          dsimp only
          rw [if_neg h1, if_neg h2, if_neg h3, if_neg h4]

section
variable {μ : ℝ} (hm : 10 ≤ μ)

/-- The pairs of uniform numbers whose position and height lie below `f` times the probability of `k`. -/
noncomputable def part (μ : ℝ) (ε : ℝ) (k : Nat) : Set (ℝ × ℝ) :=
  {x ∈ square | pair (ptrd exactOps μ).vr x ∈
    region (ptrd exactOps μ).a (ptrd exactOps μ).b (μ + 445 / 1000) (poissonPmf μ k * Real.exp ε / (ptrd exactOps μ).invAlpha) k}

theorem part_square {ε : ℝ} {k : Nat} : part μ ε k ⊆ square := fun _ h => h.1

theorem part_disjoint {ε ε' : ℝ} {j k : Nat} {x : ℝ × ℝ} (h1 : x ∈ part μ ε j) (h2 : x ∈ part μ ε' k) : j = k := by
  have e1 := h1.2.1.2
  have e2 := h2.2.1.2
  rw [e1] at e2
  exact_mod_cast e2

include hm

theorem constants : (ptrd exactOps μ).a = ptrdA μ ∧ (ptrd exactOps μ).b = ptrdB μ ∧ (ptrd exactOps μ).vr = ptrdVr μ ∧
    (ptrd exactOps μ).invAlpha = ptrdInvAlpha μ ∧ 0 < (ptrd exactOps μ).invAlpha := by
  have e : (ptrd exactOps μ).invAlpha = ptrdInvAlpha μ := by
    simp only [ptrd, exactOps, id, ptrdB, ptrdInvAlpha]; norm_num
  refine ⟨?_, ?_, ?_, e, ?_⟩
  · simp only [ptrd, exactOps, id, ptrdA, ptrdB]; norm_num
  · simp only [ptrd, exactOps, id, ptrdB]; norm_num
  · simp only [ptrd, exactOps, id, ptrdVr, ptrdB]; norm_num
  · rw [e, (PtrdBox.consts hm).2.2.2]
    exact PtrdBox.IA_pos hm

theorem measurable_part {ε : ℝ} {k : Nat} : MeasurableSet (part μ ε k) := by
  obtain ⟨b1, b2, ha, hb, _⟩ := ptrd_facts hm
  exact measurable_square.inter (measurable_pair (measurable_region ha hb _ _))

theorem volume_part_le {ε : ℝ} {k : Nat} : volume (part μ ε k) ≤ ENNReal.ofReal (poissonPmf μ k * Real.exp ε / ptrdInvAlpha μ) := by
  obtain ⟨b1, b2, ha, hb, _⟩ := ptrd_facts hm
  obtain ⟨_, _, _, e, hα⟩ := constants hm
  have hp := poissonPmf_pos (by linarith : 0 < μ) k
  rw [part, volume_pair b1 (by linarith) (measurable_region ha hb _ _) region_subset, ← e]
  exact volume_region_le ha hb (by positivity)

theorem volume_part {ε : ℝ} (hε : ε ≤ 0) {k : Nat} : volume (part μ ε k) = ENNReal.ofReal (poissonPmf μ k * Real.exp ε / ptrdInvAlpha μ) := by
  obtain ⟨b1, b2, ha, hb, _⟩ := ptrd_facts hm
  obtain ⟨e1, e2, e3, e, hα⟩ := constants hm
  have hp := poissonPmf_pos (by linarith : 0 < μ) k
  have hlo : Real.exp ε ≤ 1 := Real.exp_le_one_iff.2 hε
  rw [part, volume_pair b1 (by linarith) (measurable_region ha hb _ _) region_subset, volume_region ha hb (by positivity), e]
  intro u hu
  have hat := (PtrdBox.hat_all hm k).1
  rw [show (0.445 : ℝ) = 445 / 1000 by norm_num, ← e1, ← e2, ← e] at hat
  refine le_trans ?_ (hat u hu.1 hu.2).1
  have := slope_pos' ha hb u
  refine mul_le_mul_of_nonneg_right (div_le_div_of_nonneg_right ?_ hα.le) this.le
  nlinarith

/-- The pairs for which a round returns `k`. -/
theorem part_round {bits k : Nat} (hk : k < 2 ^ (bits - 1)) {x : ℝ × ℝ} (hx : x ∈ square) :
    ((∃ rest, generate exactOps bits (ptrd exactOps μ) μ [x.1, x.2] = .done (k : Int) rest) → x ∈ part μ (6 / 10 ^ 11) k) ∧
      (x ∈ part μ (-(6 / 10 ^ 11)) k → ∃ rest, generate exactOps bits (ptrd exactOps μ) μ [x.1, x.2] = .done (k : Int) rest) := by
  obtain ⟨b1, b2, ha, hb, _⟩ := ptrd_facts hm
  obtain ⟨e1, e2, e3, e4, hα⟩ := constants hm
  have hp := poissonPmf_pos (by linarith : 0 < μ) k
  obtain ⟨hat, hsq⟩ := PtrdBox.hat_all hm k
  rw [show (0.445 : ℝ) = 445 / 1000 by norm_num] at hat hsq
  rw [show (0.013 : ℝ) = 13 / 1000 by norm_num] at hsq
  rw [← e1, ← e2, ← e3, ← e4] at hat
  rw [← e1, ← e2, ← e4] at hsq
  have hlo : Real.exp (-(6 / 10 ^ 11)) ≤ 1 := Real.exp_le_one_iff.2 (by norm_num)
  have hhi : 1 ≤ Real.exp (6 / 10 ^ 11) := Real.one_le_exp (by norm_num)
  obtain ⟨r1, r2⟩ := Poisson.round_iff (bits := bits) hm hk (f := poissonPmf μ k * Real.exp (-(6 / 10 ^ 11)))
    (g := poissonPmf μ k * Real.exp (6 / 10 ^ 11)) hα (by nlinarith)
    (fun v hv => by
      rcases hv.lt_or_eq with h | h
      · exact Poisson.accept_value hm k h
      · subst h
        refine ⟨fun _ => by positivity, fun _ => ?_⟩
        unfold Poisson.accept
        split
        · rw [if_pos rfl]
        · rw [if_pos (by omega), if_pos rfl])
    (fun u hu hk hle => by
      refine ((hat u hu hk).2 hle).trans ?_
      have := slope_pos' ha hb u
      refine mul_le_mul_of_nonneg_right (div_le_div_of_nonneg_right ?_ hα.le) this.le
      nlinarith)
    (fun u hu hk hlt => by
      refine le_trans ?_ (hsq u hu hk hlt)
      have := slope_pos' ha hb u
      refine mul_le_mul_of_nonneg_right (div_le_div_of_nonneg_right ?_ hα.le) this.le
      nlinarith) hx
  exact ⟨fun h => ⟨hx, r1 h⟩, fun h => r2 h.2⟩

omit hm in
theorem inSigned_nat {bits k : Nat} : InSigned bits (k : Int) ↔ k < 2 ^ (bits - 1) := by
  have h1 : (0 : Int) < 2 ^ (bits - 1) := by positivity
  have h2 : ((k : Int) < 2 ^ (bits - 1)) ↔ k < 2 ^ (bits - 1) := by norm_cast
  unfold InSigned
  rw [← h2]
  omega

/-- A round rejects and the pair is in no part, or it ends with the number of the part. -/
theorem part_cases {x : ℝ × ℝ} (hx : x ∈ square) :
    ((∀ bits l, generate exactOps bits (ptrd exactOps μ) μ (x.1 :: x.2 :: l) = generate exactOps bits (ptrd exactOps μ) μ l) ∧
        ∀ k, x ∉ part μ (-(6 / 10 ^ 11)) k) ∨
      ∃ k : Nat, x ∈ part μ (6 / 10 ^ 11) k ∧ (∀ bits l, (2 ^ (bits - 1) ≤ k ∧ generate exactOps bits (ptrd exactOps μ) μ (x.1 :: x.2 :: l) = .ub) ∨
        (k < 2 ^ (bits - 1) ∧ ∃ rest, generate exactOps bits (ptrd exactOps μ) μ (x.1 :: x.2 :: l) = .done k rest)) := by
  have big : ∀ k : Nat, k < 2 ^ (k + 1 - 1) := fun k => Nat.lt_two_pow_self
  rcases round_cases (ptrd exactOps μ) μ x.1 x.2 with h | ⟨k, h⟩
  · refine Or.inl ⟨h, fun k hk => ?_⟩
    obtain ⟨rest, e⟩ := (part_round hm (big k) hx).2 hk
    rw [h (k + 1) []] at e
    rw [generate] at e
    cases e
  · right
    have hs : InSigned (k.natAbs + 1 + 1) k := by
      have : k.natAbs < 2 ^ (k.natAbs + 1) := (Nat.lt_two_pow_self).trans (Nat.pow_lt_pow_right (by norm_num) (by omega))
      have : (k.natAbs : Int) < 2 ^ (k.natAbs + 1) := by exact_mod_cast this
      unfold InSigned
      rw [Nat.add_sub_cancel]
      omega
    rcases h (k.natAbs + 1 + 1) [] with ⟨h1, _⟩ | ⟨_, rest, e⟩
    · exact absurd hs h1
    · obtain ⟨k0, _, _⟩ := generate_range hm [x.1, x.2] (by
        intro v hv
        simp only [List.mem_cons, List.not_mem_nil, or_false] at hv
        rcases hv with rfl | rfl
        · exact hx.1.1
        · exact hx.2.1) k rest e
      obtain ⟨n, rfl⟩ := Int.eq_ofNat_of_zero_le k0
      refine ⟨n, (part_round hm (inSigned_nat.1 hs) hx).1 ⟨rest, e⟩, fun bits l => ?_⟩
      rcases h bits l with ⟨h1, h2⟩ | ⟨h1, h2⟩
      · rw [inSigned_nat, not_lt] at h1
        exact Or.inl ⟨h1, h2⟩
      · rw [inSigned_nat] at h1
        exact Or.inr ⟨h1, h2⟩

theorem sum_parts (ε : ℝ) : ∑' k, ENNReal.ofReal (poissonPmf μ k * Real.exp ε / ptrdInvAlpha μ) = ENNReal.ofReal (Real.exp ε / ptrdInvAlpha μ) := by
  obtain ⟨_, _, _, e, hα⟩ := constants hm
  rw [e] at hα
  have hs : HasSum (fun k => poissonPmf μ k * Real.exp ε / ptrdInvAlpha μ) (Real.exp ε / ptrdInvAlpha μ) := by
    have := ((hasSum_poissonPmf μ).mul_right (Real.exp ε)).div_const (ptrdInvAlpha μ)
    rwa [one_mul] at this
  rw [← ENNReal.ofReal_tsum_of_nonneg (fun k => ?_) hs.summable, hs.tsum_eq]
  have hp := poissonPmf_pos (by linarith : 0 < μ) k
  positivity

/-- The pairs in no part. -/
noncomputable def gap (μ ε : ℝ) : Set (ℝ × ℝ) := square \ ⋃ k, part μ ε k

theorem measurable_gap {ε : ℝ} : MeasurableSet (gap μ ε) := measurable_square.diff (MeasurableSet.iUnion fun _ => measurable_part hm)

theorem volume_gap_ge {ε : ℝ} : 1 - ENNReal.ofReal (Real.exp ε / ptrdInvAlpha μ) ≤ volume (gap μ ε) := by
  rw [← volume_square, ← sum_parts hm]
  refine le_trans (tsub_le_tsub_left ?_ _) le_measure_sdiff
  exact (measure_iUnion_le _).trans (ENNReal.tsum_le_tsum fun k => volume_part_le hm)

theorem volume_gap {ε : ℝ} (hε : ε ≤ 0) : volume (gap μ ε) = 1 - ENNReal.ofReal (Real.exp ε / ptrdInvAlpha μ) := by
  have hU : volume (⋃ k, part μ ε k) = ENNReal.ofReal (Real.exp ε / ptrdInvAlpha μ) := by
    rw [measure_iUnion _ (fun _ => measurable_part hm), ← sum_parts hm]
    · exact tsum_congr fun k => volume_part hm hε
    · intro i j hij
      exact Set.disjoint_left.2 fun x h1 h2 => hij (part_disjoint h1 h2)
  rw [gap, measure_sdiff (iUnion_subset fun _ => part_square) (MeasurableSet.iUnion fun _ => measurable_part hm).nullMeasurableSet, hU, volume_square]
  rw [hU]
  exact ENNReal.ofReal_ne_top

/-- One more round, from below. -/
theorem round_lower {bits k : Nat} (hk : k < 2 ^ (bits - 1)) (n : Nat) :
    ENNReal.ofReal (poissonPmf μ k * Real.exp (-(6 / 10 ^ 11)) / ptrdInvAlpha μ) + (1 - ENNReal.ofReal (Real.exp (6 / 10 ^ 11) / ptrdInvAlpha μ)) *
      chance n (fun l => ∃ rest, generate exactOps bits (ptrd exactOps μ) μ l = .done (k : Int) rest) ≤
    chance (n + 2) (fun l => ∃ rest, generate exactOps bits (ptrd exactOps μ) μ l = .done (k : Int) rest) := by
  have hsub : part μ (-(6 / 10 ^ 11)) k ⊆ part μ (6 / 10 ^ 11) k := fun x hx =>
    (part_round hm hk hx.1).1 ((part_round hm hk hx.1).2 hx)
  refine le_trans ?_ (pair_lower (q := fun l => ∃ rest, generate exactOps bits (ptrd exactOps μ) μ l = .done (k : Int) rest) (A := part μ (-(6 / 10 ^ 11)) k) (W := gap μ (6 / 10 ^ 11)) (measurable_part hm) (measurable_gap hm) part_square sdiff_subset
    ?_ ?_ ?_)
  · rw [volume_part hm (by norm_num)]
    gcongr
    exact volume_gap_ge hm
  · exact fun x hx hg => hg.2 (mem_iUnion.2 ⟨k, hsub hx⟩)
  · intro u w hx l
    rcases part_cases hm hx.1 with ⟨_, h⟩ | ⟨j, hj, h⟩
    · exact absurd hx (h k)
    · obtain rfl : k = j := part_disjoint hx hj
      rcases h bits l with ⟨h1, _⟩ | ⟨_, h2⟩
      · omega
      · exact h2
  · intro u w hx l
    rcases part_cases hm hx.1 with ⟨h, _⟩ | ⟨j, hj, h⟩
    · have := h bits l
      dsimp only at this
      rw [this]
    · exact absurd (mem_iUnion.2 ⟨j, hj⟩) hx.2

/-- One more round, from above. -/
theorem round_upper {bits : Nat} {D : Draws ℝ Int → Prop} {A : Set (ℝ × ℝ)} (hA : MeasurableSet A) (hA1 : A ⊆ square)
    (h1 : ∀ x k, 2 ^ (bits - 1) ≤ k → x ∈ part μ (6 / 10 ^ 11) k → D .ub → x ∈ A)
    (h2 : ∀ x k rest, k < 2 ^ (bits - 1) → x ∈ part μ (6 / 10 ^ 11) k → D (.done (k : Int) rest) → x ∈ A) (n : Nat) :
    chance (n + 2) (fun l => D (generate exactOps bits (ptrd exactOps μ) μ l)) ≤
      volume A + (1 - ENNReal.ofReal (Real.exp (-(6 / 10 ^ 11)) / ptrdInvAlpha μ)) * chance n (fun l => D (generate exactOps bits (ptrd exactOps μ) μ l)) := by
  rw [← volume_gap hm (by norm_num)]
  refine pair_upper hA (measurable_gap hm) hA1 sdiff_subset fun u w hx => ?_
  rcases part_cases hm hx with ⟨h, hn⟩ | ⟨j, hj, h⟩
  · refine Or.inr (Or.inr ⟨⟨hx, ?_⟩, fun l => ?_⟩)
    · rw [mem_iUnion]
      rintro ⟨k, hk⟩
      exact hn k hk
    · have := h bits l
      dsimp only at this
      rw [this]
  · by_cases ha : (u, w) ∈ A
    · exact Or.inl ha
    · refine Or.inr (Or.inl fun l hD => ha ?_)
      rcases h bits l with ⟨g1, g2⟩ | ⟨g1, rest, g2⟩
      · dsimp only at g2
        rw [g2] at hD
        exact h1 _ _ g1 hj hD
      · dsimp only at g2
        rw [g2] at hD
        exact h2 _ _ rest g1 hj hD

end

end Boost.Random.Poisson
