import Mathlib.MeasureTheory.Measure.Lebesgue.Basic
import Mathlib.MeasureTheory.Integral.Prod
import Mathlib.MeasureTheory.Integral.IntervalIntegral.Basic
import Mathlib.Analysis.SpecialFunctions.Integrals.Basic
import Mathlib.Tactic.Linarith
import Mathlib.Tactic.Positivity
import Mathlib.Tactic.Ring

/-!
# The area of one layer of a ziggurat
-/

namespace Boost.Random.Zig
open MeasureTheory Set

/-- The points of the unit square. -/
def sq : Set (ℝ × ℝ) := Ico 0 1 ×ˢ Ico 0 1

theorem measurableSet_sq : MeasurableSet sq := measurableSet_Ico.prod measurableSet_Ico

theorem volume_sq : volume sq = 1 := by
  rw [sq, Measure.volume_eq_prod, Measure.prod_prod]
  simp

/-- The length of the set of the `w` of the unit interval with `p`. -/
noncomputable def len (p : ℝ → Prop) : ℝ := volume.real {w ∈ Ico (0 : ℝ) 1 | p w}

theorem len_nonneg (p : ℝ → Prop) : 0 ≤ len p := measureReal_nonneg

theorem len_le_one (p : ℝ → Prop) : len p ≤ 1 := by
  have h : volume.real {w ∈ Ico (0 : ℝ) 1 | p w} ≤ volume.real (Ico (0 : ℝ) 1) :=
    measureReal_mono (fun w hw => hw.1) (by simp)
  simpa [len] using h

theorem len_true {p : ℝ → Prop} (h : ∀ w ∈ Ico (0 : ℝ) 1, p w) : len p = 1 := by
  have : {w ∈ Ico (0 : ℝ) 1 | p w} = Ico 0 1 := by ext w; exact ⟨fun h => h.1, fun hw => ⟨hw, h w hw⟩⟩
  rw [len, this]; simp

theorem len_false {p : ℝ → Prop} (h : ∀ w ∈ Ico (0 : ℝ) 1, ¬ p w) : len p = 0 := by
  have : {w ∈ Ico (0 : ℝ) 1 | p w} = ∅ := by ext w; exact ⟨fun hw => h w hw.1 hw.2, fun hw => absurd hw (by simp)⟩
  rw [len, this]; simp

/-- When `p` holds only below `b`. -/
theorem len_le {p : ℝ → Prop} {b : ℝ} (hb : 0 ≤ b) (h : ∀ w ∈ Ico (0 : ℝ) 1, p w → w ≤ b) : len p ≤ b := by
  have h1 : volume.real {w ∈ Ico (0 : ℝ) 1 | p w} ≤ volume.real (Icc (0 : ℝ) b) :=
    measureReal_mono (fun w hw => ⟨hw.1.1, h w hw.1 hw.2⟩) (by simp)
  rw [Real.volume_real_Icc] at h1
  rw [len]
  simpa [hb] using h1

/-- When `p` holds everywhere below `b`. -/
theorem le_len {p : ℝ → Prop} {b : ℝ} (hb : b ≤ 1) (h : ∀ w ∈ Ico (0 : ℝ) 1, w < b → p w) : b ≤ len p := by
  have h1 : volume.real (Ico (0 : ℝ) b) ≤ volume.real {w ∈ Ico (0 : ℝ) 1 | p w} :=
    measureReal_mono (fun w hw => ⟨⟨hw.1, hw.2.trans_le hb⟩, h w ⟨hw.1, hw.2.trans_le hb⟩ hw.2⟩)
      (measure_ne_top_of_subset (fun w hw => hw.1) (by simp : volume (Ico (0 : ℝ) 1) ≠ ⊤))
  rw [Real.volume_real_Ico] at h1
  rw [len]
  simp at h1
  exact h1

/-- The area of a set of the square by the lengths of its sections. -/
theorem area_eq {S : Set (ℝ × ℝ)} (hS : MeasurableSet S) : volume.real (sq ∩ S) = ∫ u in Ico (0 : ℝ) 1, len fun w => (u, w) ∈ S := by
  have hm : MeasurableSet (sq ∩ S) := measurableSet_sq.inter hS
  have h1 : volume (sq ∩ S) = ∫⁻ u in Ico (0 : ℝ) 1, volume {w ∈ Ico (0 : ℝ) 1 | (u, w) ∈ S} := by
    rw [Measure.volume_eq_prod, Measure.prod_apply hm, ← lintegral_indicator measurableSet_Ico]
    refine lintegral_congr fun u => ?_
    by_cases hu : u ∈ Ico (0 : ℝ) 1
    · rw [indicator_of_mem hu]
      congr 1
      ext w
      simp only [mem_preimage, mem_inter_iff, sq, mem_prod, hu, true_and]
      rfl
    · rw [indicator_of_notMem hu]
      have : (Prod.mk u ⁻¹' (sq ∩ S)) = ∅ := by
        ext w
        simp only [mem_preimage, mem_inter_iff, sq, mem_prod, hu, false_and, mem_empty_iff_false]
      rw [this]; simp
  rw [Measure.real, h1]
  have hmeas : Measurable fun u : ℝ => volume {w ∈ Ico (0 : ℝ) 1 | (u, w) ∈ S} := by
    have h2 : MeasurableSet {p : ℝ × ℝ | p.2 ∈ Ico (0 : ℝ) 1 ∧ p ∈ S} := (measurable_snd measurableSet_Ico).inter hS
    exact measurable_measure_prodMk_left h2
  rw [← integral_toReal hmeas.aemeasurable]
  · rfl
  · refine Filter.Eventually.of_forall fun u => ?_
    refine lt_of_le_of_lt (measure_mono (fun w hw => hw.1)) (by simp : volume (Ico (0 : ℝ) 1) < ⊤)

theorem measurable_len {S : Set (ℝ × ℝ)} (hS : MeasurableSet S) : Measurable fun u : ℝ => len fun w => (u, w) ∈ S := by
  have h2 : MeasurableSet {p : ℝ × ℝ | p.2 ∈ Ico (0 : ℝ) 1 ∧ p ∈ S} := (measurable_snd measurableSet_Ico).inter hS
  exact (measurable_measure_prodMk_left h2).ennreal_toReal

theorem integrableOn_of_bounded {h : ℝ → ℝ} (hm : Measurable h) {C : ℝ} (hC : ∀ u, |h u| ≤ C) : IntegrableOn h (Ico 0 1) := by
  refine Measure.integrableOn_of_bounded (M := C) (by simp) hm.aestronglyMeasurable ?_
  exact Filter.Eventually.of_forall fun u => hC u

/-- The area of the part of a layer of width `c` and height `Δ` that is returned and not above `τ`. -/
theorem layer {c Δ ε τ : ℝ} (hc : 0 < c) (hτ : 0 ≤ τ) {ret : ℝ → ℝ → Prop} (hret : MeasurableSet {p : ℝ × ℝ | ret p.1 p.2}) {g : ℝ → ℝ}
    (hg : Continuous g) {C : ℝ} (hC : ∀ x, |g x| ≤ C) (h : ∀ x, 0 ≤ x → x < c → |Δ * len (ret x) - g x| ≤ ε) :
    |Δ * c * volume.real (sq ∩ {p | ret (p.1 * c) p.2 ∧ p.1 * c ≤ τ}) - ∫ x in (0 : ℝ)..min τ c, g x| ≤ ε * c := by
  have hS : MeasurableSet {p : ℝ × ℝ | ret (p.1 * c) p.2 ∧ p.1 * c ≤ τ} := by
    refine MeasurableSet.inter (s₁ := {p : ℝ × ℝ | ret (p.1 * c) p.2}) ?_ ?_
    · exact (measurable_fst.mul_const c |>.prodMk measurable_snd) hret
    · exact measurableSet_le (measurable_fst.mul_const c) measurable_const
  have h1 := area_eq hS
  set G : ℝ → ℝ := fun x => if x ≤ τ then g x else 0 with hG
  have hGm : Measurable G := Measurable.ite (measurableSet_Iic) hg.measurable measurable_const
  have hC0 : 0 ≤ C := (abs_nonneg _).trans (hC 0)
  have hGb : ∀ x, |G x| ≤ C := by
    intro x; simp only [hG]; split
    · exact hC x
    · simpa using hC0
  have h2 : ∫ u in Ico (0 : ℝ) 1, G (u * c) = c⁻¹ * ∫ x in (0 : ℝ)..min τ c, g x := by
    rw [integral_Ico_eq_integral_Ioc, ← intervalIntegral.integral_of_le zero_le_one, intervalIntegral.integral_comp_mul_right G hc.ne']
    simp only [zero_mul, one_mul, smul_eq_mul]
    congr 1
    have hmin0 : 0 ≤ min τ c := le_min hτ hc.le
    have hGi : ∀ a b : ℝ, IntervalIntegrable G volume a b := fun a b => by
      refine (intervalIntegrable_const (c := C)).mono_fun hGm.aestronglyMeasurable ?_
      exact Filter.Eventually.of_forall fun x => by simpa [abs_of_nonneg hC0] using hGb x
    rw [← intervalIntegral.integral_add_adjacent_intervals (hGi 0 (min τ c)) (hGi (min τ c) c)]
    have e1 : ∫ x in (0 : ℝ)..min τ c, G x = ∫ x in (0 : ℝ)..min τ c, g x := by
      refine intervalIntegral.integral_congr fun x hx => ?_
      rw [uIcc_of_le hmin0] at hx
      simp only [hG, if_pos (hx.2.trans (min_le_left _ _))]
    have e2 : ∫ x in (min τ c)..c, G x = 0 := by
      rw [intervalIntegral.integral_of_le (min_le_right _ _)]
      refine setIntegral_eq_zero_of_forall_eq_zero fun x hx => ?_
      have : ¬ x ≤ τ := by
        intro hle
        have h3 := hx.1
        have h4 := hx.2
        rcases le_total τ c with h5 | h5
        · rw [min_eq_left h5] at h3; linarith
        · rw [min_eq_right h5] at h3; linarith
      simp only [hG, if_neg this]
    rw [e1, e2, add_zero]
  have h3 : |∫ u in Ico (0 : ℝ) 1, (Δ * (len fun w => (u, w) ∈ {p : ℝ × ℝ | ret (p.1 * c) p.2 ∧ p.1 * c ≤ τ}) - G (u * c))| ≤ ε := by
    have h4 : ∀ u ∈ Ico (0 : ℝ) 1, ‖Δ * (len fun w => (u, w) ∈ {p : ℝ × ℝ | ret (p.1 * c) p.2 ∧ p.1 * c ≤ τ}) - G (u * c)‖ ≤ ε := by
      intro u hu
      rw [Real.norm_eq_abs]
      have hx0 : 0 ≤ u * c := mul_nonneg hu.1 hc.le
      have hxc : u * c < c := by nlinarith [hu.2]
      by_cases hle : u * c ≤ τ
      · have e : (len fun w => (u, w) ∈ {p : ℝ × ℝ | ret (p.1 * c) p.2 ∧ p.1 * c ≤ τ}) = len (ret (u * c)) := by
          congr 1; ext w; simp [hle]
        rw [e]
        simp only [hG, if_pos hle]
        exact h _ hx0 hxc
      · have e : (len fun w => (u, w) ∈ {p : ℝ × ℝ | ret (p.1 * c) p.2 ∧ p.1 * c ≤ τ}) = 0 := len_false fun w _ hw => hle hw.2
        rw [e]
        simp only [hG, if_neg hle, mul_zero, sub_zero, abs_zero]
        exact (abs_nonneg _).trans (h _ hx0 hxc)
    have h5 := norm_setIntegral_le_of_norm_le_const (μ := volume) (s := Ico (0 : ℝ) 1) (by simp) h4
    simpa using h5
  rw [integral_sub, integral_const_mul, ← h1, h2] at h3
  · have h6 : Δ * c * volume.real (sq ∩ {p | ret (p.1 * c) p.2 ∧ p.1 * c ≤ τ}) - ∫ x in (0 : ℝ)..min τ c, g x =
        c * (Δ * volume.real (sq ∩ {p | ret (p.1 * c) p.2 ∧ p.1 * c ≤ τ}) - c⁻¹ * ∫ x in (0 : ℝ)..min τ c, g x) := by
      field_simp
    rw [h6, abs_mul, abs_of_pos hc]
    nlinarith
  · exact (integrableOn_of_bounded (measurable_len hS) (C := 1) fun u => by rw [abs_of_nonneg (len_nonneg _)]; exact len_le_one _).const_mul Δ
  · exact integrableOn_of_bounded (hGm.comp (measurable_id.mul_const c)) fun u => hGb _

/-! ## The sum of the layers -/

/-- The tables of a ziggurat with `N` layers for the decreasing function `f`: the corners are on the curve up to `ε`, the areas are `A` up to `η`. -/
structure Table (N : Nat) (X Y : Nat → ℝ) (f : ℝ → ℝ) (A ε η : ℝ) : Prop where
  xdec : ∀ i, i < N → X (i + 1) < X i
  xlast : X N = 0
  y0 : Y 0 = 0
  ylast : Y N = 1
  yinc : ∀ i, i < N → Y i < Y (i + 1)
  value : ∀ i, 1 ≤ i → i ≤ N → |f (X i) - Y i| ≤ ε
  area : ∀ i, i < N → |(Y (i + 1) - Y i) * X i - A| ≤ η
  cont : Continuous f
  anti : AntitoneOn f (Ici 0)
  nonneg : ∀ x, 0 ≤ x → 0 ≤ f x
  le_one : ∀ x, 0 ≤ x → f x ≤ 1

/-- The acceptance test of the layers decides whether a point is below the curve, up to `ε`. -/
def Decides (N : Nat) (X Y : Nat → ℝ) (f : ℝ → ℝ) (ε : ℝ) (acc : Nat → ℝ → ℝ → Prop) : Prop :=
  ∀ i, 1 ≤ i → i < N → ∀ x w, X (i + 1) ≤ x → x < X i → 0 ≤ w → w < 1 →
    (acc i x w → Y i + w * (Y (i + 1) - Y i) < f x + ε) ∧ (Y i + w * (Y (i + 1) - Y i) < f x - ε → acc i x w)

/-- What is returned in layer `i`. -/
def Ret (X : Nat → ℝ) (acc : Nat → ℝ → ℝ → Prop) (i : Nat) (x w : ℝ) : Prop := x < X (i + 1) ∨ (i ≠ 0 ∧ acc i x w)

/-- The part of the curve in layer `i`. -/
def part (Y : Nat → ℝ) (f : ℝ → ℝ) (i : Nat) (x : ℝ) : ℝ := max (Y i) (min (f x) (Y (i + 1))) - Y i

section
variable {N : Nat} {X Y : Nat → ℝ} {f : ℝ → ℝ} {A ε η : ℝ} {acc : Nat → ℝ → ℝ → Prop}

theorem Table.xnonneg (H : Table N X Y f A ε η) : ∀ k i, i + k = N → 0 ≤ X i := by
  intro k
  induction k with
  | zero => intro i hi; rw [show i = N by omega, H.xlast]
  | succ k ih => intro i hi; exact (ih (i + 1) (by omega)).trans (H.xdec i (by omega)).le

theorem Table.xpos (H : Table N X Y f A ε η) {i : Nat} (hi : i < N) : 0 < X i := (H.xnonneg (N - (i + 1)) (i + 1) (by omega)).trans_lt (H.xdec i hi)

theorem Table.xle (H : Table N X Y f A ε η) {i j : Nat} (hij : i ≤ j) (hj : j ≤ N) : X j ≤ X i := by
  induction j, hij using Nat.le_induction with
  | base => exact le_rfl
  | succ j hij ih => exact (H.xdec j (by omega)).le.trans (ih (by omega))

theorem Table.yle (H : Table N X Y f A ε η) {i j : Nat} (hij : i ≤ j) (hj : j ≤ N) : Y i ≤ Y j := by
  induction j, hij using Nat.le_induction with
  | base => exact le_rfl
  | succ j hij ih => exact (ih (by omega)).trans (H.yinc j (by omega)).le

theorem part_continuous (H : Table N X Y f A ε η) (i : Nat) : Continuous (part Y f i) :=
  (continuous_const.max (H.cont.min continuous_const)).sub continuous_const

theorem part_nonneg (i : Nat) (x : ℝ) : 0 ≤ part Y f i x := sub_nonneg.2 (le_max_left _ _)

theorem part_le (H : Table N X Y f A ε η) {i : Nat} (hi : i < N) (x : ℝ) : part Y f i x ≤ Y (i + 1) - Y i := by
  have := H.yinc i hi
  exact sub_le_sub_right (max_le this.le (min_le_right _ _)) _

/-- The parts of the layers add up to the curve. -/
theorem sum_part (H : Table N X Y f A ε η) {x : ℝ} (hx : 0 ≤ x) : ∑ i ∈ Finset.range N, part Y f i x = f x := by
  have key : ∀ n, n ≤ N → ∑ i ∈ Finset.range n, part Y f i x = min (f x) (Y n) := by
    intro n
    induction n with
    | zero => intro _; simp [H.y0, H.nonneg x hx]
    | succ n ih =>
      intro hn
      rw [Finset.sum_range_succ, ih (by omega), part]
      have h := H.yinc n (by omega)
      rcases le_total (f x) (Y n) with h1 | h1
      · rw [min_eq_left h1, min_eq_left (h1.trans h.le), max_eq_left h1]; ring
      · rw [min_eq_right h1, max_eq_right (le_min h1 h.le)]; ring
  rw [key N le_rfl, H.ylast, min_eq_left (H.le_one x hx)]

/-- To the right of a layer the curve is below it. -/
theorem part_right (H : Table N X Y f A ε η) {i : Nat} (h1 : 1 ≤ i) (hi : i < N) {x : ℝ} (hx : X i ≤ x) : part Y f i x ≤ ε := by
  have h2 : f x ≤ f (X i) := H.anti (H.xpos hi).le ((H.xpos hi).le.trans hx) hx
  have h3 := (abs_le.1 (H.value i h1 hi.le)).2
  have hε : 0 ≤ ε := (abs_nonneg _).trans (H.value i h1 hi.le)
  have : max (Y i) (min (f x) (Y (i + 1))) ≤ Y i + ε := max_le (by linarith) ((min_le_left _ _).trans (by linarith))
  rw [part]; linarith

/-- To the left of the next corner the layer is below the curve. -/
theorem part_left (H : Table N X Y f A ε η) {i : Nat} (hi : i < N) {x : ℝ} (hx0 : 0 ≤ x) (hx : x < X (i + 1)) :
    |Y (i + 1) - Y i - part Y f i x| ≤ ε := by
  have h2 : f (X (i + 1)) ≤ f x := H.anti hx0 (hx0.trans hx.le) hx.le
  have h3 := (abs_le.1 (H.value (i + 1) (by omega) (by omega))).1
  have hε : 0 ≤ ε := (abs_nonneg _).trans (H.value (i + 1) (by omega) (by omega))
  have h4 := part_le H hi x
  have h5 : Y (i + 1) - ε ≤ max (Y i) (min (f x) (Y (i + 1))) := le_max_of_le_right (le_min (by linarith) (by linarith))
  rw [abs_le]
  constructor
  · linarith
  · rw [part]; linarith

theorem ret_len (H : Table N X Y f A ε η) (D : Decides N X Y f ε acc) {i : Nat} (h1 : 1 ≤ i) (hi : i < N) {x : ℝ} (hx0 : 0 ≤ x) (hx : x < X i) :
    |(Y (i + 1) - Y i) * len (Ret X acc i x) - part Y f i x| ≤ ε := by
  have hε : 0 ≤ ε := (abs_nonneg _).trans (H.value i h1 hi.le)
  have hΔ : 0 < Y (i + 1) - Y i := sub_pos.2 (H.yinc i hi)
  rcases lt_or_ge x (X (i + 1)) with hlt | hge
  · rw [len_true (p := Ret X acc i x) (fun w _ => Or.inl hlt), mul_one]
    exact part_left H hi hx0 hlt
  · have hR : ∀ w, Ret X acc i x w ↔ acc i x w := fun w => ⟨fun h => (h.resolve_left (not_lt.2 hge)).2, fun h => Or.inr ⟨by omega, h⟩⟩
    have hup : (Y (i + 1) - Y i) * len (Ret X acc i x) ≤ part Y f i x + ε := by
      rcases le_or_gt (Y (i + 1)) (f x + ε) with h2 | h2
      · have h3 : Y (i + 1) - ε ≤ max (Y i) (min (f x) (Y (i + 1))) := le_max_of_le_right (le_min (by linarith) (by linarith))
        have h4 := len_le_one (Ret X acc i x)
        rw [part]; nlinarith
      · rcases le_or_gt (f x + ε) (Y i) with h3 | h3
        · have h4 : len (Ret X acc i x) = 0 := len_false fun w hw hr => by
            have h5 := (D i h1 hi x w hge hx hw.1 hw.2).1 ((hR w).1 hr)
            have := mul_nonneg hw.1 hΔ.le
            linarith
          rw [h4, mul_zero]
          exact add_nonneg (part_nonneg i x) hε
        · have h4 : len (Ret X acc i x) ≤ (f x + ε - Y i) / (Y (i + 1) - Y i) := by
            refine len_le (div_nonneg (by linarith) hΔ.le) fun w hw hr => ?_
            have h5 := (D i h1 hi x w hge hx hw.1 hw.2).1 ((hR w).1 hr)
            rw [le_div_iff₀ hΔ]; linarith
          rw [le_div_iff₀ hΔ] at h4
          have h5 : f x ≤ max (Y i) (min (f x) (Y (i + 1))) := le_max_of_le_right (le_min le_rfl (by linarith))
          rw [part]; linarith
    have hlow : part Y f i x - ε ≤ (Y (i + 1) - Y i) * len (Ret X acc i x) := by
      have h0 := mul_nonneg hΔ.le (len_nonneg (Ret X acc i x))
      rcases le_or_gt (f x - ε) (Y i) with h3 | h3
      · have h4 : max (Y i) (min (f x) (Y (i + 1))) ≤ Y i + ε := max_le (by linarith) ((min_le_left _ _).trans (by linarith))
        rw [part]; linarith
      · rcases le_or_gt (Y (i + 1)) (f x - ε) with h2 | h2
        · have h4 : len (Ret X acc i x) = 1 := len_true fun w hw => (hR w).2 ((D i h1 hi x w hge hx hw.1 hw.2).2 (by nlinarith [hw.2]))
          rw [h4, mul_one]
          have := part_le H hi x
          linarith
        · have h4 : (f x - ε - Y i) / (Y (i + 1) - Y i) ≤ len (Ret X acc i x) := by
            refine le_len (by rw [div_le_one hΔ]; linarith) fun w hw hlt => (hR w).2 ((D i h1 hi x w hge hx hw.1 hw.2).2 ?_)
            rw [lt_div_iff₀ hΔ] at hlt
            linarith
          rw [div_le_iff₀ hΔ] at h4
          have h5 : max (Y i) (min (f x) (Y (i + 1))) ≤ f x := max_le (by linarith) (min_le_left _ _)
          rw [part]; linarith
    rw [abs_le]; constructor <;> linarith

/-- What is returned in layer `i` and not above `τ`. -/
def retSet (X : Nat → ℝ) (acc : Nat → ℝ → ℝ → Prop) (i : Nat) (τ : ℝ) : Set (ℝ × ℝ) := {p | Ret X acc i (p.1 * X i) p.2 ∧ p.1 * X i ≤ τ}

theorem measurableSet_ret (hacc : ∀ i, MeasurableSet {p : ℝ × ℝ | acc i p.1 p.2}) (i : Nat) : MeasurableSet {p : ℝ × ℝ | Ret X acc i p.1 p.2} := by
  refine MeasurableSet.union (s₁ := {p : ℝ × ℝ | p.1 < X (i + 1)}) (s₂ := {p : ℝ × ℝ | i ≠ 0 ∧ acc i p.1 p.2}) (measurableSet_lt measurable_fst measurable_const) ?_
  by_cases hi : i = 0
  · have : {p : ℝ × ℝ | i ≠ 0 ∧ acc i p.1 p.2} = ∅ := by ext p; simp [hi]
    exact this ▸ MeasurableSet.empty
  · have : {p : ℝ × ℝ | i ≠ 0 ∧ acc i p.1 p.2} = {p : ℝ × ℝ | acc i p.1 p.2} := by ext p; simp [hi]
    exact this ▸ hacc i

theorem measurableSet_retSet (hacc : ∀ i, MeasurableSet {p : ℝ × ℝ | acc i p.1 p.2}) (i : Nat) (τ : ℝ) : MeasurableSet (retSet X acc i τ) := by
  refine MeasurableSet.inter (s₁ := {p : ℝ × ℝ | Ret X acc i (p.1 * X i) p.2}) ?_ ?_
  · exact (measurable_fst.mul_const (X i) |>.prodMk measurable_snd) (measurableSet_ret hacc i)
  · exact measurableSet_le (measurable_fst.mul_const (X i)) measurable_const

theorem layer_pos (H : Table N X Y f A ε η) (D : Decides N X Y f ε acc) (hacc : ∀ i, MeasurableSet {p : ℝ × ℝ | acc i p.1 p.2}) {τ : ℝ} (hτ : 0 ≤ τ)
    {i : Nat} (h1 : 1 ≤ i) (hi : i < N) :
    |(Y (i + 1) - Y i) * X i * volume.real (sq ∩ retSet X acc i τ) - ∫ x in (0 : ℝ)..min τ (X 1), part Y f i x| ≤ 2 * ε * X 0 := by
  have hε : 0 ≤ ε := (abs_nonneg _).trans (H.value i h1 hi.le)
  have h2 := layer (ε := ε) (Δ := Y (i + 1) - Y i) (H.xpos hi) hτ (measurableSet_ret hacc i) (part_continuous H i) (C := Y (i + 1) - Y i)
    (fun x => by rw [abs_of_nonneg (part_nonneg i x)]; exact part_le H hi x) (fun x hx0 hx => ret_len H D h1 hi hx0 hx)
  have hint : ∀ a b : ℝ, IntervalIntegrable (part Y f i) volume a b := fun a b => (part_continuous H i).intervalIntegrable a b
  have h3 := intervalIntegral.integral_add_adjacent_intervals (hint 0 (min τ (X i))) (hint (min τ (X i)) (min τ (X 1)))
  have hx1 : X i ≤ X 1 := H.xle h1 hi.le
  have hx0 : X 1 < X 0 := H.xdec 0 (by omega)
  have hmm : min τ (X i) ≤ min τ (X 1) := min_le_min_left _ hx1
  have h4 : |∫ x in (min τ (X i))..(min τ (X 1)), part Y f i x| ≤ ε * X 0 := by
    have h5 : ∀ x ∈ uIoc (min τ (X i)) (min τ (X 1)), ‖part Y f i x‖ ≤ ε := by
      intro x hx
      rw [uIoc_of_le hmm] at hx
      rw [Real.norm_eq_abs, abs_of_nonneg (part_nonneg i x)]
      refine part_right H h1 hi ?_
      rcases le_total τ (X i) with h6 | h6
      · have h7 := hx.1; have h8 := hx.2
        rw [min_eq_left h6] at h7
        exact absurd (h8.trans (min_le_left _ _)) (not_le.2 h7)
      · have h7 := hx.1
        rw [min_eq_right h6] at h7
        exact h7.le
    have h6 := intervalIntegral.norm_integral_le_of_norm_le_const h5
    rw [Real.norm_eq_abs, abs_of_nonneg (sub_nonneg.2 hmm)] at h6
    refine h6.trans (mul_le_mul_of_nonneg_left ?_ hε)
    have h7 : min τ (X 1) ≤ X 1 := min_le_right _ _
    have h8 : 0 ≤ min τ (X i) := le_min hτ (H.xpos hi).le
    linarith
  have h9 : ε * X i ≤ ε * X 0 := mul_le_mul_of_nonneg_left (hx1.trans hx0.le) hε
  rw [← h3]
  have e : retSet X acc i τ = {p | Ret X acc i (p.1 * X i) p.2 ∧ p.1 * X i ≤ τ} := rfl
  rw [e]
  rw [abs_le] at h2 h4 ⊢
  constructor <;> linarith [h2.1, h2.2, h4.1, h4.2]

theorem volume_ret_zero (H : Table N X Y f A ε η) (hN : 1 ≤ N) {τ : ℝ} (hτ : 0 ≤ τ) : volume.real (sq ∩ retSet X acc 0 τ) = min τ (X 1) / X 0 := by
  have hX0 : 0 < X 0 := H.xpos (by omega)
  have hX1 : X 1 < X 0 := H.xdec 0 (by omega)
  have hX1' : 0 ≤ X 1 := H.xnonneg (N - 1) 1 (by omega)
  have hiff : ∀ p : ℝ × ℝ, p ∈ retSet X acc 0 τ ↔ p.1 * X 0 < X 1 ∧ p.1 * X 0 ≤ τ := fun p => by simp [retSet, Ret]
  rcases lt_or_ge τ (X 1) with h | h
  · have e : sq ∩ retSet X acc 0 τ = Icc 0 (τ / X 0) ×ˢ Ico 0 1 := by
      ext p
      rw [mem_inter_iff, hiff, sq, mem_prod, mem_prod, mem_Ico, mem_Icc, le_div_iff₀ hX0]
      constructor
      · rintro ⟨⟨⟨h1, h2⟩, h3⟩, h4, h5⟩; exact ⟨⟨h1, h5⟩, h3⟩
      · rintro ⟨⟨h1, h2⟩, h3⟩
        refine ⟨⟨⟨h1, ?_⟩, h3⟩, by linarith, h2⟩
        by_contra hc
        nlinarith
    have h5 : 0 ≤ τ / X 0 := div_nonneg hτ hX0.le
    rw [e, min_eq_left h.le, Measure.real, Measure.volume_eq_prod, Measure.prod_prod]
    simp [h5]
  · have e : sq ∩ retSet X acc 0 τ = Ico 0 (X 1 / X 0) ×ˢ Ico 0 1 := by
      ext p
      rw [mem_inter_iff, hiff, sq, mem_prod, mem_prod, mem_Ico, mem_Ico, mem_Ico, lt_div_iff₀ hX0]
      constructor
      · rintro ⟨⟨⟨h1, h2⟩, h3⟩, h4, h5⟩; exact ⟨⟨h1, h4⟩, h3⟩
      · rintro ⟨⟨h1, h2⟩, h3⟩
        refine ⟨⟨⟨h1, ?_⟩, h3⟩, h2, by linarith⟩
        by_contra hc
        nlinarith
    have h5 : 0 ≤ X 1 / X 0 := div_nonneg hX1' hX0.le
    rw [e, min_eq_right h, Measure.real, Measure.volume_eq_prod, Measure.prod_prod]
    simp [h5]

theorem layer_zero (H : Table N X Y f A ε η) (hN : 1 ≤ N) {τ : ℝ} (hτ : 0 ≤ τ) :
    |(Y 1 - Y 0) * X 0 * volume.real (sq ∩ retSet X acc 0 τ) - ∫ x in (0 : ℝ)..min τ (X 1), part Y f 0 x| ≤ 2 * ε * X 0 := by
  have hε : 0 ≤ ε := (abs_nonneg _).trans (H.value 1 le_rfl hN)
  have hX0 : 0 < X 0 := H.xpos (by omega)
  have hX1 : X 1 < X 0 := H.xdec 0 (by omega)
  have hX1' : 0 ≤ X 1 := H.xnonneg (N - 1) 1 (by omega)
  have hT : 0 ≤ min τ (X 1) := le_min hτ hX1'
  rw [volume_ret_zero H hN hτ]
  have e : (Y 1 - Y 0) * X 0 * (min τ (X 1) / X 0) = ∫ _ in (0 : ℝ)..min τ (X 1), (Y 1 - Y 0) := by
    rw [intervalIntegral.integral_const, smul_eq_mul, sub_zero]; field_simp
  rw [e, ← intervalIntegral.integral_sub (by simp) ((part_continuous H 0).intervalIntegrable _ _)]
  have h5 : ∀ x ∈ uIoc 0 (min τ (X 1)), ‖Y 1 - Y 0 - part Y f 0 x‖ ≤ 2 * ε := by
    intro x hx
    rw [uIoc_of_le hT] at hx
    rw [Real.norm_eq_abs]
    rcases lt_or_ge x (X 1) with h | h
    · exact (part_left H (by omega) hx.1.le h).trans (by linarith)
    · have hx1 : x = X 1 := le_antisymm (hx.2.trans (min_le_right _ _)) h
      have h3 := (abs_le.1 (H.value 1 le_rfl hN)).1
      have h4 := part_le H (i := 0) (by omega) x
      have h6 : Y 1 - ε ≤ max (Y 0) (min (f x) (Y 1)) := le_max_of_le_right (le_min (by rw [hx1]; linarith) (by linarith))
      rw [abs_le]
      simp only [zero_add] at h4
      constructor
      · linarith
      · simp only [part, zero_add]; linarith
  have h6 := intervalIntegral.norm_integral_le_of_norm_le_const h5
  rw [Real.norm_eq_abs, sub_zero, abs_of_nonneg hT] at h6
  refine h6.trans (mul_le_mul_of_nonneg_left ((min_le_right _ _).trans hX1.le) (by linarith))

/-- The area that is returned and not above `τ` is the area below the curve up to `τ`. -/
theorem total (H : Table N X Y f A ε η) (D : Decides N X Y f ε acc) (hacc : ∀ i, MeasurableSet {p : ℝ × ℝ | acc i p.1 p.2}) (hN : 1 ≤ N) {τ : ℝ} (hτ : 0 ≤ τ) :
    |A * ∑ i ∈ Finset.range N, volume.real (sq ∩ retSet X acc i τ) - ∫ x in (0 : ℝ)..min τ (X 1), f x| ≤ N * (η + 2 * ε * X 0) := by
  have hT : 0 ≤ min τ (X 1) := le_min hτ (H.xnonneg (N - 1) 1 (by omega))
  have e1 : ∫ x in (0 : ℝ)..min τ (X 1), f x = ∑ i ∈ Finset.range N, ∫ x in (0 : ℝ)..min τ (X 1), part Y f i x := by
    rw [← intervalIntegral.integral_finsetSum fun i _ => (part_continuous H i).intervalIntegrable _ _]
    refine intervalIntegral.integral_congr fun x hx => ?_
    rw [uIcc_of_le hT] at hx
    exact (sum_part H hx.1).symm
  rw [e1, Finset.mul_sum, ← Finset.sum_sub_distrib]
  refine (Finset.abs_sum_le_sum_abs _ _).trans ?_
  have h : ∀ i ∈ Finset.range N, |A * volume.real (sq ∩ retSet X acc i τ) - ∫ x in (0 : ℝ)..min τ (X 1), part Y f i x| ≤ η + 2 * ε * X 0 := by
    intro i hi
    rw [Finset.mem_range] at hi
    have h1 : |(Y (i + 1) - Y i) * X i * volume.real (sq ∩ retSet X acc i τ) - ∫ x in (0 : ℝ)..min τ (X 1), part Y f i x| ≤ 2 * ε * X 0 := by
      rcases Nat.eq_zero_or_pos i with h0 | h0
      · subst h0; exact layer_zero H hN hτ
      · exact layer_pos H D hacc hτ h0 hi
    have h2 := H.area i hi
    have h3 : volume.real (sq ∩ retSet X acc i τ) ≤ 1 := by
      have h4 := measureReal_mono (μ := volume) (inter_subset_left : sq ∩ retSet X acc i τ ⊆ sq) (by rw [volume_sq]; simp)
      rwa [Measure.real, Measure.real, volume_sq, ENNReal.toReal_one] at h4
    have h4 : (0 : ℝ) ≤ volume.real (sq ∩ retSet X acc i τ) := measureReal_nonneg
    have h5 : |((Y (i + 1) - Y i) * X i - A) * volume.real (sq ∩ retSet X acc i τ)| ≤ η := by
      rw [abs_mul, abs_of_nonneg h4]
      have := abs_nonneg ((Y (i + 1) - Y i) * X i - A)
      nlinarith
    rw [abs_le] at h1 h5 ⊢
    constructor <;> nlinarith [h1.1, h1.2, h5.1, h5.2]
  refine (Finset.sum_le_sum h).trans ?_
  rw [Finset.sum_const, Finset.card_range, nsmul_eq_mul]

end
end Boost.Random.Zig
