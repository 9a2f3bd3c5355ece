import Verif.Spec.Mixture
import Verif.Proofs.Chance
import Verif.Proofs.Piecewise
import Mathlib.MeasureTheory.Function.Floor

/-!
# Mixtures: the choice of a component by an alias table
-/

namespace Boost.Random
open Spec MeasureTheory Set
open scoped ENNReal

/-- A uniform index. -/
theorem unitM_index {n i : Nat} (hi : i < n) : unitM {u | ⌊(n : ℝ) * u⌋₊ = i} = ENNReal.ofReal (1 / n) := by
  have hn : (0 : ℝ) < n := by exact_mod_cast (by omega : 0 < n)
  have h : {u : ℝ | ⌊(n : ℝ) * u⌋₊ = i} ∩ Ico (0 : ℝ) 1 = Ico ((i : ℝ) / n) ((i + 1 : ℝ) / n) := by
    ext u
    simp only [mem_inter_iff, mem_ofPred_eq, mem_Ico]
    rw [div_le_iff₀ hn, lt_div_iff₀ hn]
    constructor
    · rintro ⟨h1, h2, -⟩
      have := (Nat.floor_eq_iff (mul_nonneg hn.le h2)).1 h1
      constructor <;> linarith [this.1, this.2]
    · rintro ⟨h1, h2⟩
      have hu : 0 ≤ u := by
        by_contra h
        have : (n : ℝ) * u < 0 := mul_neg_of_pos_of_neg hn (not_le.1 h)
        have : (0 : ℝ) ≤ i := Nat.cast_nonneg i
        linarith
      refine ⟨(Nat.floor_eq_iff (mul_nonneg hn.le hu)).2 ⟨by linarith, by linarith⟩, hu, ?_⟩
      have : (i : ℝ) + 1 ≤ n := by exact_mod_cast hi
      nlinarith
  have hm : MeasurableSet {u : ℝ | ⌊(n : ℝ) * u⌋₊ = i} := (Nat.measurable_floor.comp (measurable_const_mul _)) (measurableSet_singleton i)
  rw [unitM, Measure.restrict_apply hm, h, Real.volume_Ico]
  congr 1
  ring

theorem lintegral_index {n : Nat} (hn : 0 < n) (G : Nat → ℝ≥0∞) :
    ∫⁻ u, G ⌊(n : ℝ) * u⌋₊ ∂unitM = ∑ i ∈ Finset.range n, ENNReal.ofReal (1 / n) * G i := by
  have hn' : (0 : ℝ) < n := by exact_mod_cast hn
  have h : ∀ᵐ u ∂unitM, G ⌊(n : ℝ) * u⌋₊ = ∑ i ∈ Finset.range n, indicator {u : ℝ | ⌊(n : ℝ) * u⌋₊ = i} (fun _ => G i) u := by
    refine unitM_mem.mono fun u hu => ?_
    have hlt : ⌊(n : ℝ) * u⌋₊ < n := by
      rw [Nat.floor_lt (by nlinarith [hu.1])]
      nlinarith [hu.2]
    rw [Finset.sum_eq_single ⌊(n : ℝ) * u⌋₊]
    · rw [indicator_of_mem (by rw [mem_ofPred_eq])]
    · intro j _ hj
      rw [indicator_of_notMem]
      rw [mem_ofPred_eq]
      exact fun h => hj h.symm
    · intro h
      exact absurd (Finset.mem_range.2 hlt) h
  have hm : ∀ i, MeasurableSet {u : ℝ | ⌊(n : ℝ) * u⌋₊ = i} := fun i =>
    (Nat.measurable_floor.comp (measurable_const_mul _)) (measurableSet_singleton i)
  rw [lintegral_congr_ae h, lintegral_finsetSum _ fun i _ => measurable_const.indicator (hm i)]
  refine Finset.sum_congr rfl fun i hi => ?_
  rw [lintegral_indicator (hm i), lintegral_const, Measure.restrict_apply_univ, unitM_index (Finset.mem_range.1 hi), mul_comm]

/-- The choice between a column and its alias. -/
theorem lintegral_alias {x : ℝ} (h0 : 0 ≤ x) (h1 : x ≤ 1) (A B : ℝ≥0∞) :
    ∫⁻ w, (if w < x then A else B) ∂unitM = ENNReal.ofReal x * A + ENNReal.ofReal (1 - x) * B := by
  have hm : MeasurableSet (Iio x) := measurableSet_Iio
  rw [← lintegral_add_compl _ hm]
  have e1 : ∫⁻ w in Iio x, (if w < x then A else B) ∂unitM = ∫⁻ _ in Iio x, A ∂unitM := setLIntegral_congr_fun hm fun w hw => if_pos hw
  have e2 : ∫⁻ w in (Iio x)ᶜ, (if w < x then A else B) ∂unitM = ∫⁻ _ in (Iio x)ᶜ, B ∂unitM :=
    setLIntegral_congr_fun hm.compl fun w hw => if_neg hw
  rw [e1, e2, lintegral_const, lintegral_const, Measure.restrict_apply_univ, Measure.restrict_apply_univ, unitM_Iio h1, compl_Iio, unitM_Ici h0, mul_comm A,
    mul_comm B]

/-- What follows the choice of a component is used with the probability of that component. -/
theorem draw_law (k : Nat) {ws : List ℚ} {t : List (ℚ × Nat)} (H : RealDist.HoldsReal ws t) (hs : 0 < ws.sum) (P : Nat → List ℝ → Prop) :
    chance (k + 2) (fun l => ∃ v s, Discrete.draw t idealMixed l = .done v s ∧ P v s) =
      ∑ v ∈ Finset.range ws.length, ENNReal.ofReal ((ws.getD v 0 : ℚ) / (ws.sum : ℚ)) * chance k (P v) := by
  have hn : 0 < ws.length := by
    rcases ws with _ | ⟨a, l⟩
    · exact absurd hs (by simp)
    · simp
  have hn' : (0 : ℝ) < ws.length := by exact_mod_cast hn
  have hs' : (0 : ℝ) < (ws.sum : ℚ) := by exact_mod_cast hs
  obtain ⟨f, hf0, hf⟩ : ∃ f : Nat → ℝ, (∀ v, 0 ≤ f v) ∧ ∀ v, chance k (P v) = ENNReal.ofReal (f v) :=
    ⟨fun v => (chance k (P v)).toReal, fun _ => ENNReal.toReal_nonneg,
      fun v => (ENNReal.ofReal_toReal (ne_top_of_le_ne_top ENNReal.one_ne_top (chance_le_one _ _))).symm⟩
  have h1 : ∀ (u : ℝ) (l : List ℝ), (∃ v s, Discrete.draw t idealMixed (u :: l) = .done v s ∧ P v s) ↔
      ∃ v s, (take id l).bind (fun test s => match t[⌊(ws.length : ℝ) * u⌋₊]? with
        | none => (.ub : Run (List ℝ) Nat)
        | some e => .done (if test < (e.1 : ℝ) then ⌊(ws.length : ℝ) * u⌋₊ else e.2) s) = .done v s ∧ P v s := by
    intro u l
    rw [← H.len]
    rfl
  rw [chance_succ]
  rw [lintegral_congr fun u => chance_congr (h1 u)]
  rw [lintegral_index hn (fun i => chance (k + 1) fun l => ∃ v s, (take id l).bind (fun test s => match t[i]? with
        | none => (.ub : Run (List ℝ) Nat)
        | some e => .done (if test < (e.1 : ℝ) then i else e.2) s) = .done v s ∧ P v s)]
  choose! x s c1 c2 c3 c4 using H.col
  have h2 : ∀ i ∈ Finset.range ws.length, ENNReal.ofReal (1 / (ws.length : ℝ)) * chance (k + 1) (fun l => ∃ v s, (take id l).bind (fun test s => match t[i]? with
        | none => (.ub : Run (List ℝ) Nat)
        | some e => .done (if test < (e.1 : ℝ) then i else e.2) s) = .done v s ∧ P v s) =
      ENNReal.ofReal (1 / (ws.length : ℝ) * ((x i : ℝ) * f i + (1 - (x i : ℝ)) * f (s i))) := by
    intro i hi
    have hi := Finset.mem_range.1 hi
    have x0 : (0 : ℝ) ≤ x i := by exact_mod_cast c2 i hi
    have x1 : (x i : ℝ) ≤ 1 := by exact_mod_cast c3 i hi
    have e : ∀ w : ℝ, (chance k fun l => ∃ v z, (take id (w :: l)).bind (fun test s => match t[i]? with
        | none => (.ub : Run (List ℝ) Nat)
        | some e => .done (if test < (e.1 : ℝ) then i else e.2) s) = .done v z ∧ P v z) = if w < (x i : ℝ) then ENNReal.ofReal (f i) else ENNReal.ofReal (f (s i)) := by
      intro w
      rw [← apply_ite (fun j => ENNReal.ofReal (f j)) (w < (x i : ℝ)) i (s i), ← hf]
      refine chance_congr fun l => ?_
      rw [c1 i hi]
      constructor
      · rintro ⟨v, z, h1, h2⟩
        change Run.done (if w < (x i : ℝ) then i else s i) l = .done v z at h1
        rw [Run.done.injEq] at h1
        rw [h1.1, h1.2]
        exact h2
      · exact fun h => ⟨_, _, rfl, h⟩
    rw [chance_succ, lintegral_congr e, lintegral_alias x0 x1, ← ENNReal.ofReal_mul x0, ← ENNReal.ofReal_mul (by linarith),
      ← ENNReal.ofReal_add (mul_nonneg x0 (hf0 _)) (mul_nonneg (by linarith) (hf0 _)), ← ENNReal.ofReal_mul (by positivity)]
  rw [Finset.sum_congr rfl h2]
  have hw : ∀ v ∈ Finset.range ws.length, 0 ≤ ((ws.getD v 0 : ℚ) : ℝ) / (ws.sum : ℚ) * f v := by
    intro v hv
    have := H.mass v
    have h3 : 0 ≤ ∑ i ∈ Finset.range ws.length, Discrete.contrib (fun x : ℚ => x) (fun _ => 1) t i v := Finset.sum_nonneg fun i hi =>
      Discrete.contrib_nonneg (φ := fun x : ℚ => x) (g := fun _ => 1) (ok := fun x => 0 ≤ x) (fun x h => h) t i v
        ⟨x i, s i, c1 i (Finset.mem_range.1 hi), c2 i (Finset.mem_range.1 hi), c3 i (Finset.mem_range.1 hi)⟩
    rw [this] at h3
    have hq : (0 : ℚ) < ws.length := by exact_mod_cast hn
    have h4 : 0 ≤ ws.getD v 0 := by
      by_contra h
      exact absurd h3 (not_le.2 (div_neg_of_neg_of_pos (mul_neg_of_neg_of_pos (not_le.1 h) hq) hs))
    have h5 : (0 : ℝ) ≤ (ws.getD v 0 : ℚ) := by exact_mod_cast h4
    exact mul_nonneg (div_nonneg h5 hs'.le) (hf0 v)
  have h6 : ∀ v ∈ Finset.range ws.length, ENNReal.ofReal (((ws.getD v 0 : ℚ) : ℝ) / (ws.sum : ℚ)) * chance k (P v) =
      ENNReal.ofReal (((ws.getD v 0 : ℚ) : ℝ) / (ws.sum : ℚ) * f v) := by
    intro v _
    rw [hf, ENNReal.ofReal_mul' (hf0 v)]
  rw [Finset.sum_congr rfl h6, ← ENNReal.ofReal_sum_of_nonneg hw, ← ENNReal.ofReal_sum_of_nonneg]
  · congr 1
    have key : ∀ i ∈ Finset.range ws.length, (x i : ℝ) * f i + (1 - (x i : ℝ)) * f (s i) =
        ∑ v ∈ Finset.range ws.length, ((Discrete.contrib (fun x : ℚ => x) (fun _ => 1) t i v : ℚ) : ℝ) * f v := by
      intro i hi
      have hi' := Finset.mem_range.1 hi
      have e : ∀ v, ((Discrete.contrib (fun x : ℚ => x) (fun _ => 1) t i v : ℚ) : ℝ) * f v =
          (if i = v then (x i : ℝ) * f i else 0) + (if s i = v then (1 - (x i : ℝ)) * f (s i) else 0) := by
        intro v
        unfold Discrete.contrib
        rw [c1 i hi']
        simp only
        rw [Rat.cast_add, add_mul]
        congr 1
        · split
          · subst v; rfl
          · simp
        · split
          · subst v; push_cast; rfl
          · simp
      rw [Finset.sum_congr rfl fun v _ => e v, Finset.sum_add_distrib, Finset.sum_ite_eq, if_pos hi, Finset.sum_ite_eq]
      rcases c4 i hi' with h | h
      · rw [if_pos (Finset.mem_range.2 h)]
      · rw [h]; simp
    have h7 : ∀ v ∈ Finset.range ws.length, ((ws.getD v 0 : ℚ) : ℝ) / (ws.sum : ℚ) * f v =
        1 / (ws.length : ℝ) * ∑ i ∈ Finset.range ws.length, ((Discrete.contrib (fun x : ℚ => x) (fun _ => 1) t i v : ℚ) : ℝ) * f v := by
      intro v _
      rw [← Finset.sum_mul, ← Rat.cast_sum, H.mass v]
      push_cast
      field_simp
    rw [Finset.sum_congr rfl h7, ← Finset.mul_sum, ← Finset.mul_sum, Finset.sum_comm, Finset.sum_congr rfl key]
  · intro i hi
    have hi := Finset.mem_range.1 hi
    have x0 : (0 : ℝ) ≤ x i := by exact_mod_cast c2 i hi
    have x1 : (x i : ℝ) ≤ 1 := by exact_mod_cast c3 i hi
    exact mul_nonneg (by positivity) (add_nonneg (mul_nonneg x0 (hf0 _)) (mul_nonneg (by linarith) (hf0 _)))

end Boost.Random
