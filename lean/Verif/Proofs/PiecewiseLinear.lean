import Verif.Proofs.Mixture
import Verif.Proofs.Variates
import Mathlib.MeasureTheory.Integral.IntervalIntegral.FundThmCalculus
import Mathlib.Analysis.SpecialFunctions.Integrals.Basic

/-!
# `piecewise_linear_distribution`: the law
-/

namespace Boost.Random
open Spec MeasureTheory Set
open scoped ENNReal

/-- `t`, moved into `[a, b]`. -/
noncomputable def clamp (a b t : ℝ) : ℝ := max a (min b t)

/-- The part of `[a, b]` below `t`. -/
noncomputable def part (a b t : ℝ) : ℝ := (clamp a b t - a) / (b - a)

theorem clamp_mem {a b : ℝ} (h : a ≤ b) (t : ℝ) : a ≤ clamp a b t ∧ clamp a b t ≤ b := ⟨le_max_left _ _, max_le h (min_le_left _ _)⟩

theorem part_mem {a b : ℝ} (h : a < b) (t : ℝ) : 0 ≤ part a b t ∧ part a b t ≤ 1 := by
  have := clamp_mem h.le t
  exact ⟨div_nonneg (by linarith) (by linarith), (div_le_one (by linarith)).2 (by linarith)⟩

/-- The value of `uniform_real` is at most `t`. -/
theorem unitM_real {a b : ℝ} (h : a < b) (t : ℝ) : unitM {u | a + u * (b - a) ≤ t} = ENNReal.ofReal (part a b t) := by
  have hb : 0 < b - a := by linarith
  have e : {u : ℝ | a + u * (b - a) ≤ t} = Iic ((t - a) / (b - a)) := by
    ext u
    rw [mem_ofPred_eq, mem_Iic, le_div_iff₀ hb]
    constructor <;> intro h <;> linarith
  rw [e, unitM_Iic']
  unfold part clamp
  rcases le_or_gt t a with h1 | h1
  · rw [max_eq_left ((min_le_right _ _).trans h1), sub_self, zero_div, ENNReal.ofReal_zero, ENNReal.ofReal_eq_zero]
    exact (min_le_left _ _).trans (div_nonpos_of_nonpos_of_nonneg (by linarith) hb.le)
  · rw [max_eq_right (le_min h.le h1.le)]
    congr 1
    rcases le_or_gt b t with h2 | h2
    · rw [min_eq_left h2, div_self hb.ne', min_eq_right ((one_le_div hb).2 (by linarith))]
    · rw [min_eq_right h2.le, min_eq_left ((div_le_one hb).2 (by linarith))]

theorem measurableSet_real (a b t : ℝ) : MeasurableSet {u : ℝ | a + u * (b - a) ≤ t} :=
  (show Measurable fun u : ℝ => a + u * (b - a) from (measurable_id.mul_const _).const_add _) measurableSet_Iic

theorem runLe_done {v t : ℝ} {s : List ℝ} : Spec.Run.Le (Run.done v s) t ↔ v ≤ t := by
  constructor
  · rintro ⟨w, z, h, h'⟩
    rw [Run.done.injEq] at h
    rw [h.1]; exact h'
  · exact fun h => ⟨v, s, rfl, h⟩

theorem runLe_bind {α : Type} {r : Run (List ℝ) α} {g : α → List ℝ → Run (List ℝ) ℝ} {t : ℝ} :
    Spec.Run.Le (r.bind g) t ↔ ∃ v s, r = .done v s ∧ Spec.Run.Le (g v s) t := by
  constructor
  · rintro ⟨w, z, h, h'⟩
    cases r with
    | done v s => exact ⟨v, s, rfl, w, z, h, h'⟩
    | more => exact absurd h (by simp [Run.bind])
    | ub => exact absurd h (by simp [Run.bind])
  · rintro ⟨v, s, rfl, h⟩
    exact h

theorem chance_real (k : Nat) {a b : ℝ} (h : a < b) (t : ℝ) :
    chance (k + 1) (fun l => Spec.Run.Le (idealMixed.real a b l) t) = ENNReal.ofReal (part a b t) := by
  rw [← unitM_real h, chance_one (measurableSet_real a b t)]
  exact .of_forall fun u l => runLe_done

theorem chance_max (k : Nat) {a b : ℝ} (h : a < b) (t : ℝ) :
    chance (k + 2) (fun l => Spec.Run.Le ((idealMixed.real a b l).bind fun x s => (idealMixed.real a b s).bind fun y s => .done (max x y) s) t) =
      ENNReal.ofReal (part a b t ^ 2) := by
  have hm := measurableSet_real a b t
  rw [chance_two (A := {u | a + u * (b - a) ≤ t} ×ˢ {u | a + u * (b - a) ≤ t}) (hm.prod hm), Measure.prod_prod, unitM_real h,
    ← ENNReal.ofReal_mul (part_mem h t).1, sq]
  exact .of_forall fun u => .of_forall fun w l => (runLe_done (v := max (a + u * (b - a)) (a + w * (b - a)))).trans max_le_iff

theorem chance_min (k : Nat) {a b : ℝ} (h : a < b) (t : ℝ) :
    chance (k + 2) (fun l => Spec.Run.Le ((idealMixed.real a b l).bind fun x s => (idealMixed.real a b s).bind fun y s => .done (min x y) s) t) =
      ENNReal.ofReal (1 - (1 - part a b t) ^ 2) := by
  have hm := measurableSet_real a b t
  have hp := part_mem h t
  rw [chance_two (A := ({u | a + u * (b - a) ≤ t}ᶜ ×ˢ {u | a + u * (b - a) ≤ t}ᶜ)ᶜ) (hm.compl.prod hm.compl).compl,
    prob_compl_eq_one_sub (hm.compl.prod hm.compl), Measure.prod_prod, prob_compl_eq_one_sub hm, unitM_real h,
    ← ENNReal.ofReal_one, ← ENNReal.ofReal_sub _ hp.1, ← ENNReal.ofReal_mul (by linarith), ← ENNReal.ofReal_sub _ (mul_self_nonneg _), sq]
  refine .of_forall fun u => .of_forall fun w l => (runLe_done (v := min (a + u * (b - a)) (a + w * (b - a)))).trans ?_
  rw [min_le_iff, mem_compl_iff, mem_prod, mem_compl_iff, mem_compl_iff, mem_ofPred_eq, mem_ofPred_eq]
  tauto

/-- The sum over the intervals. -/
noncomputable def pieces (g : ℝ → ℝ → ℝ → ℝ → ℝ) : List ℚ → List ℚ → ℝ
  | a :: b :: l, v :: w :: ws => g a b v w + pieces g (b :: l) (w :: ws)
  | _, _ => 0

/-- The integral of the density over the part of an interval below `t`. -/
noncomputable def areaTo (t a b v w : ℝ) : ℝ := (b - a) * (v * part a b t + (w - v) * part a b t ^ 2 / 2)

/-- The probability of a value at most `t` after the choice of a bin. -/
noncomputable def comp (t : ℝ) (ivs ws : List ℚ) (i : Nat) : ℝ :=
  match ivs[i / 2]?, ivs[i / 2 + 1]?, ws[i / 2]?, ws[i / 2 + 1]? with
  | some a, some b, some v, some w =>
    if i % 2 = 0 then part a b t else if v < w then part a b t ^ 2 else 1 - (1 - part a b t) ^ 2
  | _, _, _, _ => 0

theorem comp_add_two (t : ℝ) (a : ℚ) (ivs : List ℚ) (v : ℚ) (ws : List ℚ) (i : Nat) : comp t (a :: ivs) (v :: ws) (i + 2) = comp t ivs ws i := by
  unfold comp
  rw [show (i + 2) / 2 = i / 2 + 1 by omega, show (i + 2) % 2 = i % 2 by omega]
  simp only [List.getElem?_cons_succ]

/-- The bins of an accepted list of boundaries and weights. -/
theorem binWeights_spec (fl : ℚ → ℚ) : ∀ (ivs ws : List ℚ), ivs ≠ [] → ivs.length = ws.length →
    ∃ W, binWeights fl ivs ws = some W ∧ W.length = 2 * (ivs.length - 1)
  | [], _, h, _ => absurd rfl h
  | [_], _, _, _ => ⟨[], rfl, rfl⟩
  | a :: b :: l, [], _, h => absurd h (by simp)
  | a :: b :: l, [_], _, h => absurd h (by simp)
  | a :: b :: l, w1 :: w2 :: ws, _, h => by
    obtain ⟨W, h1, h2⟩ := binWeights_spec fl (b :: l) (w2 :: ws) (by simp) (by simpa using h)
    refine ⟨_, by rw [binWeights, h1]; rfl, ?_⟩
    simp only [List.length_cons] at h2 ⊢
    omega

theorem binWeights_nonneg {fl : ℚ → ℚ} (hf : ∀ x, 0 ≤ x → 0 ≤ fl x) : ∀ (ivs ws W : List ℚ), ivs.Pairwise (· < ·) → (∀ w ∈ ws, 0 ≤ w) →
    binWeights fl ivs ws = some W → ∀ x ∈ W, 0 ≤ x
  | [], _, _, _, _, h => by simp [binWeights] at h
  | [a], ws, W, _, _, h => by
    rw [binWeights] at h
    rw [← Option.some.inj h]
    simp
  | a :: b :: l, [], _, _, _, h => by simp [binWeights] at h
  | a :: b :: l, [_], _, _, _, h => by simp [binWeights] at h
  | a :: b :: l, v :: w :: ws, W, hp, hw, h => by
    obtain ⟨hp1, hp2⟩ := List.pairwise_cons.1 hp
    have hab : 0 ≤ fl (b - a) := hf _ (by linarith [hp1 b (by simp)])
    rw [binWeights, Option.map_eq_some_iff] at h
    obtain ⟨W', h1, rfl⟩ := h
    have ih := binWeights_nonneg hf (b :: l) (w :: ws) W' hp2 (fun x hx => hw x (List.mem_cons_of_mem _ hx)) h1
    intro x hx
    rcases List.mem_cons.1 hx with rfl | hx
    · exact hf _ (mul_nonneg (le_min (hw v (by simp)) (hw w (by simp))) hab)
    rcases List.mem_cons.1 hx with rfl | hx
    · exact hf _ (div_nonneg (hf _ (mul_nonneg (abs_nonneg _) hab)) (by norm_num))
    · exact ih x hx

theorem sum_comp (t : ℝ) : ∀ (ivs ws W : List ℚ), ivs.Pairwise (· < ·) → ivs.length = ws.length → binWeights id ivs ws = some W →
    ∑ i ∈ Finset.range W.length, ((W.getD i 0 : ℚ) : ℝ) * comp t ivs ws i = pieces (areaTo t) ivs ws
  | [], _, _, _, _, h => by simp [binWeights] at h
  | [_], [], _, _, h, _ => by simp at h
  | [_], _ :: _ :: _, _, _, h, _ => by simp at h
  | [a], [v], W, _, _, h => by
    rw [binWeights] at h
    rw [← Option.some.inj h]
    simp [pieces]
  | a :: b :: l, [], _, _, h, _ => by simp at h
  | a :: b :: l, [_], _, _, h, _ => by simp at h
  | a :: b :: l, v :: w :: ws, W, hp, hl, h => by
    obtain ⟨hp1, hp2⟩ := List.pairwise_cons.1 hp
    have hab : a < b := hp1 b (by simp)
    have hab' : (a : ℝ) < b := by exact_mod_cast hab
    rw [binWeights, Option.map_eq_some_iff] at h
    obtain ⟨W', h1, rfl⟩ := h
    have ih := sum_comp t (b :: l) (w :: ws) W' hp2 (by simpa using hl) h1
    rw [pieces, ← ih, List.length_cons, List.length_cons, Finset.sum_range_succ', Finset.sum_range_succ']
    simp only [List.getD_cons_succ, List.getD_cons_zero, comp_add_two]
    rw [add_assoc, add_comm]
    congr 1
    have e0 : comp t (a :: b :: l) (v :: w :: ws) 0 = part a b t := by simp [comp]
    have e1 : comp t (a :: b :: l) (v :: w :: ws) (0 + 1) = if v < w then part a b t ^ 2 else 1 - (1 - part a b t) ^ 2 := by simp [comp]
    rw [e0, e1]
    unfold areaTo
    simp only [id]
    by_cases hvw : v < w
    · rw [if_pos hvw, min_eq_left hvw.le, abs_of_neg (by linarith)]
      push_cast
      ring
    · rw [if_neg hvw, min_eq_right (not_lt.1 hvw), abs_of_nonneg (by linarith [not_lt.1 hvw])]
      push_cast
      ring

/-- All the weights. -/
theorem sum_bins : ∀ (ivs ws W : List ℚ), ivs.Pairwise (· < ·) → ivs.length = ws.length → binWeights id ivs ws = some W →
    ((W.sum : ℚ) : ℝ) = pieces (fun a b v w => (b - a) * (v + w) / 2) ivs ws
  | [], _, _, _, _, h => by simp [binWeights] at h
  | [_], [], _, _, h, _ => by simp at h
  | [_], _ :: _ :: _, _, _, h, _ => by simp at h
  | [a], [v], W, _, _, h => by
    rw [binWeights] at h
    rw [← Option.some.inj h]
    simp [pieces]
  | a :: b :: l, [], _, _, h, _ => by simp at h
  | a :: b :: l, [_], _, _, h, _ => by simp at h
  | a :: b :: l, v :: w :: ws, W, hp, hl, h => by
    obtain ⟨hp1, hp2⟩ := List.pairwise_cons.1 hp
    rw [binWeights, Option.map_eq_some_iff] at h
    obtain ⟨W', h1, rfl⟩ := h
    have ih := sum_bins (b :: l) (w :: ws) W' hp2 (by simpa using hl) h1
    rw [pieces, ← ih]
    simp only [id, List.sum_cons]
    by_cases hvw : v < w
    · rw [min_eq_left hvw.le, abs_of_neg (by linarith)]
      push_cast
      ring
    · rw [min_eq_right (not_lt.1 hvw), abs_of_nonneg (by linarith [not_lt.1 hvw])]
      push_cast
      ring

theorem polygon_below : ∀ (ivs ws : List ℚ) (x : ℝ), ivs.Pairwise (· < ·) → (∀ a ∈ ivs.head?, x < (a : ℝ)) → polygon ivs ws x = 0
  | [], _, _, _, _ => by rw [polygon]; simp
  | [_], _, _, _, _ => by rw [polygon]; simp
  | a :: b :: l, [], _, _, _ => by rw [polygon]; simp
  | a :: b :: l, [_], _, _, _ => by rw [polygon]; simp
  | a :: b :: l, v :: w :: ws, x, hp, h => by
    obtain ⟨hp1, hp2⟩ := List.pairwise_cons.1 hp
    have hx : x < a := h a rfl
    have hab : (a : ℝ) < b := by exact_mod_cast hp1 b (by simp)
    rw [polygon, if_neg (fun h => absurd h.1 (not_le.2 hx)), polygon_below (b :: l) (w :: ws) x hp2]
    intro c hc
    rw [List.head?_cons, Option.mem_some_iff] at hc
    rw [← hc]
    linarith

theorem line_nonneg {a b v w x : ℝ} (hab : a < b) (hv : 0 ≤ v) (hw : 0 ≤ w) (h1 : a ≤ x) (h2 : x ≤ b) : 0 ≤ v + (w - v) * ((x - a) / (b - a)) := by
  have p0 : 0 ≤ (x - a) / (b - a) := div_nonneg (by linarith) (by linarith)
  have p1 : (x - a) / (b - a) ≤ 1 := (div_le_one (by linarith)).2 (by linarith)
  nlinarith

theorem lintegral_line {a b v w : ℝ} (hab : a < b) (hv : 0 ≤ v) (hw : 0 ≤ w) (t : ℝ) :
    ∫⁻ x in Iic t, indicator (Ico a b) (fun x => ENNReal.ofReal (v + (w - v) * ((x - a) / (b - a)))) x = ENNReal.ofReal (areaTo t a b v w) := by
  have hc := clamp_mem hab.le t
  rw [lintegral_indicator measurableSet_Ico, Measure.restrict_restrict measurableSet_Ico]
  have e : (Ico a b ∩ Iic t : Set ℝ) =ᵐ[volume] Ioc a (clamp a b t) := by
    have h1 : (Ico a b ∩ Iic t : Set ℝ) ⊆ Icc a (clamp a b t) := by
      rintro x ⟨⟨h1, h2⟩, h3⟩
      exact ⟨h1, (le_min h2.le h3).trans (le_max_right _ _)⟩
    have h2 : Ioo a (clamp a b t) ⊆ (Ico a b ∩ Iic t : Set ℝ) := by
      rintro x ⟨h1, h2⟩
      have : x < min b t := by
        rcases lt_max_iff.1 h2 with h | h
        · exact absurd h (not_lt.2 h1.le)
        · exact h
      exact ⟨⟨h1.le, this.trans_le (min_le_left _ _)⟩, this.le.trans (min_le_right _ _)⟩
    refine Filter.EventuallyEq.trans ?_ Ioo_ae_eq_Ioc
    exact Filter.EventuallyLE.antisymm (h1.eventuallyLE.trans Ioo_ae_eq_Icc.symm.le) h2.eventuallyLE
  rw [Measure.restrict_congr_set e]
  have hcont : Continuous fun x : ℝ => v + (w - v) * ((x - a) / (b - a)) := by fun_prop
  rw [← ofReal_integral_eq_lintegral_ofReal]
  · congr 1
    rw [← intervalIntegral.integral_of_le hc.1]
    have hd : ∀ x ∈ uIcc a (clamp a b t), HasDerivAt (fun x : ℝ => v * (x - a) + (w - v) * ((x - a) ^ 2 / (2 * (b - a)))) (v + (w - v) * ((x - a) / (b - a))) x := by
      intro x _
      have h1 : HasDerivAt (fun x : ℝ => x - a) 1 x := (hasDerivAt_id x).sub_const a
      have h2 := (h1.const_mul v).add (((h1.pow 2).div_const (2 * (b - a))).const_mul (w - v))
      refine h2.congr_deriv ?_
      have : b - a ≠ 0 := by linarith
      field_simp
      norm_num
      ring
    rw [intervalIntegral.integral_eq_sub_of_hasDerivAt hd (hcont.intervalIntegrable _ _)]
    unfold areaTo part
    have : b - a ≠ 0 := by linarith
    field_simp
    ring
  · exact (hcont.integrableOn_Icc (a := a) (b := clamp a b t)).mono_set Ioc_subset_Icc_self
  · filter_upwards [ae_restrict_mem measurableSet_Ioc] with x hx
    exact line_nonneg hab hv hw hx.1.le (hx.2.trans hc.2)

theorem areaTo_nonneg {a b v w : ℝ} (hab : a < b) (hv : 0 ≤ v) (hw : 0 ≤ w) (t : ℝ) : 0 ≤ areaTo t a b v w := by
  have hp := part_mem hab t
  unfold areaTo
  refine mul_nonneg (by linarith) ?_
  nlinarith [mul_nonneg hv hp.1, mul_nonneg hw (sq_nonneg (part a b t)), mul_nonneg (mul_nonneg hv hp.1) (sub_nonneg.2 hp.2)]

theorem pieces_nonneg {g : ℝ → ℝ → ℝ → ℝ → ℝ} (hg : ∀ a b v w, a < b → 0 ≤ v → 0 ≤ w → 0 ≤ g a b v w) :
    ∀ (ivs ws : List ℚ), ivs.Pairwise (· < ·) → (∀ w ∈ ws, 0 ≤ w) → 0 ≤ pieces g ivs ws
  | [], _, _, _ => by rw [pieces]; simp
  | [_], _, _, _ => by rw [pieces]; simp
  | a :: b :: l, [], _, _ => by rw [pieces]; simp
  | a :: b :: l, [_], _, _ => by rw [pieces]; simp
  | a :: b :: l, v :: w :: ws, hp, h => by
    obtain ⟨hp1, hp2⟩ := List.pairwise_cons.1 hp
    rw [pieces]
    refine add_nonneg (hg _ _ _ _ ?_ ?_ ?_) (pieces_nonneg hg (b :: l) (w :: ws) hp2 fun x hx => h x (List.mem_cons_of_mem _ hx))
    · exact_mod_cast hp1 b (by simp)
    · exact_mod_cast h v (by simp)
    · exact_mod_cast h w (by simp)

theorem measurable_polygon : ∀ (ivs ws : List ℚ), Measurable (polygon ivs ws)
  | [], _ => by
    have : polygon [] ‹_› = fun _ => 0 := by funext x; rw [polygon]; simp
    rw [this]; exact measurable_const
  | [a], ws => by
    have : polygon [a] ws = fun _ => 0 := by funext x; rw [polygon]; simp
    rw [this]; exact measurable_const
  | a :: b :: l, [] => by
    have : polygon (a :: b :: l) [] = fun _ => 0 := by funext x; rw [polygon]; simp
    rw [this]; exact measurable_const
  | a :: b :: l, [v] => by
    have : polygon (a :: b :: l) [v] = fun _ => 0 := by funext x; rw [polygon]; simp
    rw [this]; exact measurable_const
  | a :: b :: l, v :: w :: ws => by
    have : polygon (a :: b :: l) (v :: w :: ws) = fun x => if x ∈ Ico (a : ℝ) b then (v : ℝ) + (w - v) * ((x - a) / (b - a)) else polygon (b :: l) (w :: ws) x := by
      funext x
      rw [polygon]
      rfl
    rw [this]
    exact Measurable.ite measurableSet_Ico (by fun_prop) (measurable_polygon (b :: l) (w :: ws))

/-- The distribution function of the polygon. -/
theorem polygon_Iic (t : ℝ) : ∀ (ivs ws : List ℚ), ivs.Pairwise (· < ·) → ivs.length = ws.length → (∀ w ∈ ws, 0 ≤ w) →
    ∫⁻ x in Iic t, ENNReal.ofReal (polygon ivs ws x) = ENNReal.ofReal (pieces (areaTo t) ivs ws)
  | [], ws, _, _, _ => by
    rw [pieces, lintegral_congr (g := fun _ => 0) fun x => by rw [polygon] <;> simp]
    all_goals simp
  | [a], ws, _, _, _ => by
    rw [pieces, lintegral_congr (g := fun _ => 0) fun x => by rw [polygon] <;> simp]
    all_goals simp
  | a :: b :: l, [], _, h, _ => by simp at h
  | a :: b :: l, [_], _, h, _ => by simp at h
  | a :: b :: l, v :: w :: ws, hp, hl, h => by
    obtain ⟨hp1, hp2⟩ := List.pairwise_cons.1 hp
    have hab : (a : ℝ) < b := by exact_mod_cast hp1 b (by simp)
    have hv : (0 : ℝ) ≤ v := by exact_mod_cast h v (by simp)
    have hw : (0 : ℝ) ≤ w := by exact_mod_cast h w (by simp)
    have ih := polygon_Iic t (b :: l) (w :: ws) hp2 (by simpa using hl) fun x hx => h x (List.mem_cons_of_mem _ hx)
    have e : ∀ x : ℝ, ENNReal.ofReal (polygon (a :: b :: l) (v :: w :: ws) x) =
        indicator (Ico (a : ℝ) b) (fun x => ENNReal.ofReal ((v : ℝ) + (w - v) * ((x - a) / (b - a)))) x + ENNReal.ofReal (polygon (b :: l) (w :: ws) x) := by
      intro x
      rw [polygon]
      by_cases hx : (a : ℝ) ≤ x ∧ x < b
      · rw [if_pos hx, indicator_of_mem (show x ∈ Ico (a : ℝ) b from hx), polygon_below (b :: l) (w :: ws) x hp2, ENNReal.ofReal_zero, add_zero]
        intro c hc
        rw [List.head?_cons, Option.mem_some_iff] at hc
        rw [← hc]
        exact hx.2
      · rw [if_neg hx, indicator_of_notMem (show x ∉ Ico (a : ℝ) b from hx), zero_add]
    rw [lintegral_congr e, lintegral_add_right _ (measurable_polygon _ _).ennreal_ofReal, lintegral_line hab hv hw, ih, pieces,
      ENNReal.ofReal_add (areaTo_nonneg hab hv hw t)]
    exact pieces_nonneg (fun _ _ _ _ h1 h2 h3 => areaTo_nonneg h1 h2 h3 t) _ _ hp2 fun x hx => h x (List.mem_cons_of_mem _ hx)

/-- `operator()` after the choice of a bin. -/
theorem chance_comp (k : Nat) (t : ℝ) {d : Pl} (hl : d.intervals.length = d.weights.length) (hp : d.intervals.Pairwise (· < ·)) {i : Nat}
    (hi : i < 2 * (d.intervals.length - 1)) :
    chance (k + 2) (fun l => Spec.Run.Le (match d.intervals[i / 2]?, d.intervals[i / 2 + 1]? with
      | some a, some b =>
        if a < b then
          if i % 2 = 0 then idealMixed.real a b l
          else
            match d.weights[i / 2]?, d.weights[i / 2 + 1]? with
            | some w1, some w2 =>
              (idealMixed.real a b l).bind fun x s => (idealMixed.real a b s).bind fun y s => .done (if w1 < w2 then max x y else min x y) s
            | _, _ => .ub
        else .ub
      | _, _ => .ub) t) = ENNReal.ofReal (comp t d.intervals d.weights i) := by
  have g1 : i / 2 < d.intervals.length := by omega
  have g2 : i / 2 + 1 < d.intervals.length := by omega
  have g3 : i / 2 < d.weights.length := by omega
  have g4 : i / 2 + 1 < d.weights.length := by omega
  have hab : d.intervals[i / 2] < d.intervals[i / 2 + 1] := List.pairwise_iff_getElem.1 hp _ _ _ _ (by omega)
  unfold comp
  simp only [List.getElem?_eq_getElem g1, List.getElem?_eq_getElem g2, List.getElem?_eq_getElem g3, List.getElem?_eq_getElem g4, if_pos hab]
  generalize d.intervals[i / 2] = a at *
  generalize d.intervals[i / 2 + 1] = b at *
  have hab' : (a : ℝ) < b := by exact_mod_cast hab
  by_cases h : i % 2 = 0
  · simp only [if_pos h]
    exact chance_real (k + 1) hab' t
  · simp only [if_neg h]
    by_cases hw : d.weights[i / 2] < d.weights[i / 2 + 1]
    · simp only [if_pos hw]
      exact chance_max k hab' t
    · simp only [if_neg hw]
      exact chance_min k hab' t

theorem comp_nonneg (t : ℝ) {ivs ws : List ℚ} (hp : ivs.Pairwise (· < ·)) (i : Nat) : 0 ≤ comp t ivs ws i := by
  unfold comp
  split
  · rename_i a b v w h1 h2 h3 h4
    have hab : (a : ℝ) < b := by
      obtain ⟨g1, rfl⟩ := List.getElem?_eq_some_iff.1 h1
      obtain ⟨g2, rfl⟩ := List.getElem?_eq_some_iff.1 h2
      exact_mod_cast List.pairwise_iff_getElem.1 hp _ _ _ _ (by omega)
    have := part_mem hab t
    split
    · exact this.1
    · split
      · positivity
      · nlinarith
  · exact le_refl _

/-- The area under the polygon. -/
theorem polygon_univ (ivs ws : List ℚ) (hp : ivs.Pairwise (· < ·)) (hl : ivs.length = ws.length) (hw : ∀ w ∈ ws, 0 ≤ w) :
    ∫⁻ x, ENNReal.ofReal (polygon ivs ws x) = ENNReal.ofReal (pieces (fun a b v w => (b - a) * (v + w) / 2) ivs ws) := by
  obtain ⟨T, hT⟩ : ∃ T : ℝ, ∀ x ∈ ivs, (x : ℝ) ≤ T := by
    clear hp hl
    induction ivs with
    | nil => exact ⟨0, by simp⟩
    | cons a l ih =>
      obtain ⟨T, h⟩ := ih
      refine ⟨max a T, fun x hx => ?_⟩
      rcases List.mem_cons.1 hx with rfl | hx
      · exact le_max_left _ _
      · exact (h x hx).trans (le_max_right _ _)
  have z : ∀ (ivs ws : List ℚ) (x : ℝ), (∀ c ∈ ivs, (c : ℝ) ≤ T) → T < x → polygon ivs ws x = 0 := by
    intro ivs
    induction ivs with
    | nil => intro ws x _ _; rw [polygon] <;> simp
    | cons a l ih =>
      intro ws x h hx
      match l, ws with
      | [], _ => rw [polygon] <;> simp
      | b :: l, [] => rw [polygon] <;> simp
      | b :: l, [_] => rw [polygon] <;> simp
      | b :: l, v :: w :: ws =>
        rw [polygon, if_neg, ih _ _ (fun c hc => h c (List.mem_cons_of_mem _ hc)) hx]
        exact fun g => absurd g.2 (not_lt.2 ((h b (by simp)).trans hx.le))
  have a1 : ∀ (ivs ws : List ℚ), ivs.Pairwise (· < ·) → (∀ c ∈ ivs, (c : ℝ) ≤ T) → pieces (areaTo T) ivs ws = pieces (fun a b v w => (b - a) * (v + w) / 2) ivs ws := by
    intro ivs
    induction ivs with
    | nil => intro ws _ _; rw [pieces, pieces]; all_goals simp
    | cons a l ih =>
      intro ws hp h
      match l, ws with
      | [], _ => rw [pieces, pieces]; all_goals simp
      | b :: l, [] => rw [pieces, pieces]; all_goals simp
      | b :: l, [_] => rw [pieces, pieces]; all_goals simp
      | b :: l, v :: w :: ws =>
        obtain ⟨hp1, hp2⟩ := List.pairwise_cons.1 hp
        have hab : (a : ℝ) < b := by exact_mod_cast hp1 b (by simp)
        rw [pieces, pieces, ih _ hp2 fun c hc => h c (List.mem_cons_of_mem _ hc)]
        congr 1
        unfold areaTo part clamp
        rw [min_eq_left (h b (by simp)), max_eq_right hab.le, div_self (by linarith)]
        ring
  rw [← a1 ivs ws hp hT, ← polygon_Iic T ivs ws hp hl hw, ← lintegral_indicator measurableSet_Iic]
  refine lintegral_congr fun x => ?_
  by_cases hx : x ≤ T
  · rw [indicator_of_mem (show x ∈ Iic T from hx)]
  · rw [indicator_of_notMem (show x ∉ Iic T from hx), z ivs ws x hT (not_le.1 hx), ENNReal.ofReal_zero]

/-- What `init` establishes, in exact arithmetic. -/
theorem pl_law (k : Nat) {d : Pl} {W : List ℚ} (hl : d.intervals.length = d.weights.length) (hp : d.intervals.Pairwise (· < ·))
    (hne : d.intervals ≠ []) (hw : ∀ w ∈ d.weights, 0 ≤ w) (hW : binWeights id d.intervals d.weights = some W) (H : RealDist.HoldsReal W d.bins)
    (hs : 0 < W.sum) (t : ℝ) :
    chance (k + 4) (fun l => Spec.Run.Le (d.next idealMixed l) t) =
      polygonMeasure d.intervals d.weights (Iic t) / polygonMeasure d.intervals d.weights univ := by
  obtain ⟨W', g1, g2⟩ := binWeights_spec id d.intervals d.weights hne hl
  obtain rfl : W = W' := Option.some.inj (hW.symm.trans g1)
  have hs' : (0 : ℝ) < (W.sum : ℚ) := by exact_mod_cast hs
  unfold Pl.next
  rw [chance_congr (q := fun l => ∃ v s, Discrete.draw d.bins idealMixed l = .done v s ∧ _) fun l => runLe_bind, draw_law (k + 2) H hs]
  refine (Finset.sum_congr rfl (g := fun i => ENNReal.ofReal (((W.getD i 0 : ℚ) : ℝ) * comp t d.intervals d.weights i) / ENNReal.ofReal (W.sum : ℚ))
    fun i hi => (congrArg (ENNReal.ofReal ((W.getD i 0 : ℚ) / (W.sum : ℚ)) * ·)
      (chance_comp k t hl hp (by rw [← g2]; exact Finset.mem_range.1 hi))).trans ?_).trans ?_
  · beta_reduce
    rw [ENNReal.ofReal_div_of_pos hs', ENNReal.ofReal_mul' (comp_nonneg t hp i), ENNReal.mul_div_right_comm]
  simp only [div_eq_mul_inv]
  rw [← Finset.sum_mul, ← ENNReal.ofReal_sum_of_nonneg, sum_comp t _ _ _ hp hl hW, sum_bins _ _ _ hp hl hW]
  · unfold polygonMeasure
    rw [withDensity_apply _ measurableSet_Iic, withDensity_apply _ MeasurableSet.univ, Measure.restrict_univ, polygon_Iic t _ _ hp hl hw, polygon_univ _ _ hp hl hw]
  · intro i hi
    refine mul_nonneg ?_ (comp_nonneg t hp i)
    have h0 := binWeights_nonneg (fl := id) (fun _ h => h) _ _ _ hp hw hW
    rw [List.getD_eq_getElem?_getD, List.getElem?_eq_getElem (Finset.mem_range.1 hi), Option.getD_some]
    exact_mod_cast h0 _ (List.getElem_mem _)

/-- The sum of `densities()` is the area. -/
theorem plArea_id : ∀ (ivs ws : List ℚ) (s : ℚ), ivs ≠ [] → ivs.length = ws.length →
    ∃ c : ℚ, plArea id ivs ws s = some (s + c) ∧ (c : ℝ) = pieces (fun a b v w => (b - a) * (v + w) / 2) ivs ws
  | [], _, _, h, _ => absurd rfl h
  | [_], [], _, _, h => by simp at h
  | [_], _ :: _ :: _, _, _, h => by simp at h
  | [a], [v], s, _, _ => ⟨0, by rw [plArea, add_zero], by simp [pieces]⟩
  | a :: b :: l, [], _, _, h => by simp at h
  | a :: b :: l, [_], _, _, h => by simp at h
  | a :: b :: l, v :: w :: ws, s, _, hl => by
    obtain ⟨c, h1, h2⟩ := plArea_id (b :: l) (w :: ws) (s + (v + w) * (b - a) / 2) (by simp) (by simpa using hl)
    refine ⟨(v + w) * (b - a) / 2 + c, by rw [plArea]; simp only [id]; rw [← add_assoc]; exact h1, ?_⟩
    rw [pieces, ← h2]
    push_cast
    ring

theorem pieces_div (c : ℚ) : ∀ (ivs ws : List ℚ), pieces (fun a b v w => (b - a) * (v + w) / 2) ivs (ws.map (· / c)) =
    pieces (fun a b v w => (b - a) * (v + w) / 2) ivs ws / c
  | [], _ => by simp [pieces]
  | [_], _ => by simp [pieces]
  | a :: b :: l, [] => by simp [pieces]
  | a :: b :: l, [_] => by simp [pieces]
  | a :: b :: l, v :: w :: ws => by
    have := pieces_div c (b :: l) (w :: ws)
    rw [List.map_cons] at this
    rw [List.map_cons, List.map_cons, pieces, this, pieces]
    push_cast
    ring

end Boost.Random
