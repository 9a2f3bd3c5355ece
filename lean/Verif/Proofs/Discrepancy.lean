import Verif.Spec.Discrepancy
import Mathlib.Algebra.Order.Floor.Semiring
import Mathlib.Data.Real.Archimedean
import Mathlib.Algebra.BigOperators.Group.Finset.Interval
import Mathlib.Data.Nat.Choose.Sum
import Mathlib.Algebra.Order.BigOperators.Ring.Finset
import Mathlib.Tactic.Linarith
import Mathlib.Tactic.Ring
import Mathlib.Tactic.FieldSimp
import Mathlib.Tactic.Positivity
import Mathlib.Tactic.NormNum
import Mathlib.Tactic.LinearCombination

/-!
# The discrepancy of nets
-/

namespace Boost.Random.Nets
open Spec Finset
open Classical

/-- The points `x i`, `i ∈ X`, form a `(t,m,s)`-net in base `b`. -/
def IsNet (b t m s : Nat) (X : Finset Nat) (x : Nat → Nat → ℝ) : Prop :=
  ∀ k a : Nat → Nat, t + ∑ d ∈ range s, k d ≤ m → (∀ d < s, a d < b ^ k d) →
    (X.filter fun i => ∀ d < s, (a d : ℝ) ≤ (b : ℝ) ^ k d * x i d ∧ (b : ℝ) ^ k d * x i d < a d + 1).card = b ^ (m - ∑ d ∈ range s, k d)

variable {b t m s : Nat} {X : Finset Nat} {x : Nat → Nat → ℝ}

/-- The points in a part of the last coordinate are a net without that coordinate. -/
theorem IsNet.slice (h : IsNet b t m (s + 1) X x) {j a : Nat} (hj : t + j ≤ m) (ha : a < b ^ j) :
    IsNet b t (m - j) s (X.filter fun i => (a : ℝ) ≤ (b : ℝ) ^ j * x i s ∧ (b : ℝ) ^ j * x i s < a + 1) x := by
  intro k c hk hc
  have hs : ∑ d ∈ range (s + 1), (if d = s then j else k d) = ∑ d ∈ range s, k d + j := by
    rw [sum_range_succ, if_pos rfl, sum_congr rfl fun d hd => if_neg (Nat.ne_of_lt (mem_range.1 hd))]
  have := h (fun d => if d = s then j else k d) (fun d => if d = s then a else c d) (by rw [hs]; omega) (fun d hd => by
    by_cases hds : d = s
    · simp only [if_pos hds]; exact ha
    · simp only [if_neg hds]; exact hc d (by omega))
  rw [hs, ← Nat.sub_sub, Nat.sub_right_comm] at this
  rw [← this, filter_filter]
  refine congrArg card (filter_congr fun i _ => ?_)
  constructor
  · rintro ⟨h1, h2⟩ d hd
    by_cases hds : d = s
    · subst hds; simpa using h1
    · simpa [hds] using h2 d (by omega)
  · intro h1
    refine ⟨by simpa using h1 s (by omega), fun d hd => ?_⟩
    simpa [Nat.ne_of_lt hd] using h1 d (by omega)

theorem IsNet.card (h : IsNet b t m s X x) (ht : t ≤ m) (hx : ∀ i ∈ X, ∀ d < s, x i d ∈ Set.Ico (0 : ℝ) 1) : X.card = b ^ m := by
  have := h (fun _ => 0) (fun _ => 0) (by simpa using ht) (fun d _ => by simp)
  simp only [sum_const_zero, Nat.sub_zero] at this
  rw [← this]
  congr 1
  refine (filter_true_of_mem fun i hi d hd => ?_).symm
  have := hx i hi d hd
  simpa using ⟨this.1, this.2⟩

/-- The points in a box. -/
noncomputable def boxCount (s : Nat) (X : Finset Nat) (x : Nat → Nat → ℝ) (y : Nat → ℝ) : Nat := (X.filter fun i => ∀ d < s, x i d < y d).card

theorem prod_unit {y : Nat → ℝ} {s : Nat} (hy : ∀ d < s, y d ∈ Set.Icc (0 : ℝ) 1) : ∏ d ∈ range s, y d ∈ Set.Icc (0 : ℝ) 1 :=
  ⟨prod_nonneg fun d hd => (hy d (mem_range.1 hd)).1, prod_le_one (fun d hd => (hy d (mem_range.1 hd)).1) fun d hd => (hy d (mem_range.1 hd)).2⟩

/-- Several parts of the last coordinate. -/
theorem slab (h : IsNet b t m (s + 1) X x) {B : Nat → ℝ} {y : Nat → ℝ}
    (ih : ∀ m' X', t ≤ m' → X' ⊆ X → IsNet b t m' s X' x → |(boxCount s X' x y : ℝ) - (b : ℝ) ^ m' * ∏ d ∈ range s, y d| ≤ B m')
    {j : Nat} (hj : t + j ≤ m) (A : Nat) : ∀ n, A + n ≤ b ^ j →
    |((X.filter fun i => (∀ d < s, x i d < y d) ∧ (A : ℝ) ≤ (b : ℝ) ^ j * x i s ∧ (b : ℝ) ^ j * x i s < A + n).card : ℝ) -
      n * ((b : ℝ) ^ (m - j) * ∏ d ∈ range s, y d)| ≤ n * B (m - j) := by
  intro n
  induction n with
  | zero =>
    intro _
    have : (X.filter fun i => (∀ d < s, x i d < y d) ∧ (A : ℝ) ≤ (b : ℝ) ^ j * x i s ∧ (b : ℝ) ^ j * x i s < A + (0 : Nat)) = ∅ :=
      filter_eq_empty_iff.2 fun i _ hi => by have := hi.2; push_cast at this; linarith
    rw [this]
    simp
  | succ n ihn =>
    intro hn
    have h1 := ihn (by omega)
    have h2 := ih (m - j) _ (by omega) (filter_subset _ _) (h.slice hj (a := A + n) (by omega))
    have hsplit : ((X.filter fun i => (∀ d < s, x i d < y d) ∧ (A : ℝ) ≤ (b : ℝ) ^ j * x i s ∧ (b : ℝ) ^ j * x i s < A + (n + 1 : Nat)).card : ℝ) =
        (X.filter fun i => (∀ d < s, x i d < y d) ∧ (A : ℝ) ≤ (b : ℝ) ^ j * x i s ∧ (b : ℝ) ^ j * x i s < A + n).card +
        (boxCount s (X.filter fun i => ((A + n : Nat) : ℝ) ≤ (b : ℝ) ^ j * x i s ∧ (b : ℝ) ^ j * x i s < (A + n : Nat) + 1) x y : Nat) := by
      refine Eq.trans (congrArg Nat.cast ?_) (Nat.cast_add _ _)
      rw [boxCount, ← card_union_of_disjoint, filter_filter, ← filter_or]
      · congr 1
        refine filter_congr fun i _ => ?_
        push_cast
        constructor
        · rintro ⟨e1, e2, e3⟩
          by_cases hlt : (b : ℝ) ^ j * x i s < A + n
          · exact .inl ⟨e1, e2, hlt⟩
          · exact .inr ⟨⟨not_lt.1 hlt, by linarith⟩, e1⟩
        · rintro (⟨e1, e2, e3⟩ | ⟨⟨e1, e2⟩, e3⟩)
          · exact ⟨e1, e2, by linarith⟩
          · exact ⟨e3, by linarith [(Nat.cast_nonneg n : (0 : ℝ) ≤ n)], by linarith⟩
      · rw [filter_filter]
        refine disjoint_filter.2 fun i _ e1 e2 => ?_
        have := e2.1.1
        push_cast at this
        linarith [e1.2.2]
    rw [hsplit]
    push_cast
    calc _ = |(((X.filter fun i => (∀ d < s, x i d < y d) ∧ (A : ℝ) ≤ (b : ℝ) ^ j * x i s ∧ (b : ℝ) ^ j * x i s < A + n).card : ℝ) -
          n * ((b : ℝ) ^ (m - j) * ∏ d ∈ range s, y d)) + ((boxCount s (X.filter fun i => ((A + n : Nat) : ℝ) ≤ (b : ℝ) ^ j * x i s ∧
            (b : ℝ) ^ j * x i s < (A + n : Nat) + 1) x y : ℝ) - (b : ℝ) ^ (m - j) * ∏ d ∈ range s, y d)| := by push_cast; congr 1; ring
      _ ≤ n * B (m - j) + B (m - j) := (abs_add_le _ _).trans (add_le_add h1 h2)
      _ = (n + 1) * B (m - j) := by ring

/-- The boxes whose last side has `j` digits. -/
theorem digits (hb : 2 ≤ b) (h : IsNet b t m (s + 1) X x) (hx : ∀ i ∈ X, ∀ d < s + 1, x i d ∈ Set.Ico (0 : ℝ) 1) {B : Nat → ℝ} (hB : ∀ m, 0 ≤ B m) {y : Nat → ℝ}
    (ih : ∀ m' X', t ≤ m' → X' ⊆ X → IsNet b t m' s X' x → |(boxCount s X' x y : ℝ) - (b : ℝ) ^ m' * ∏ d ∈ range s, y d| ≤ B m')
    {z : ℝ} (hz : z ∈ Set.Ico (0 : ℝ) 1) : ∀ j, t + j ≤ m →
    |((X.filter fun i => (∀ d < s, x i d < y d) ∧ (b : ℝ) ^ j * x i s < ⌊(b : ℝ) ^ j * z⌋₊).card : ℝ) -
      (b : ℝ) ^ (m - j) * ⌊(b : ℝ) ^ j * z⌋₊ * ∏ d ∈ range s, y d| ≤ ∑ l ∈ range j, ((b - 1 : Nat) : ℝ) * B (m - 1 - l) := by
  intro j
  induction j with
  | zero =>
    intro _
    have hf : ⌊(b : ℝ) ^ 0 * z⌋₊ = 0 := by rw [Nat.floor_eq_zero]; simpa using hz.2
    have : (X.filter fun i => (∀ d < s, x i d < y d) ∧ (b : ℝ) ^ 0 * x i s < (⌊(b : ℝ) ^ 0 * z⌋₊ : Nat)) = ∅ :=
      filter_eq_empty_iff.2 fun i hi hh => by
        have h1 := hh.2
        rw [hf] at h1
        have h2 := (hx i hi s (by omega)).1
        simp only [pow_zero, one_mul, Nat.cast_zero] at h1
        linarith
    rw [this, hf]
    simp
  | succ j ihj =>
    intro hj
    have h1 := ihj (by omega)
    have hb0 : (0 : ℝ) < b := by exact_mod_cast (by omega : 0 < b)
    have hzj : 0 ≤ (b : ℝ) ^ j * z := mul_nonneg (by positivity) hz.1
    have hzj1 : 0 ≤ (b : ℝ) ^ (j + 1) * z := mul_nonneg (by positivity) hz.1
    generalize hf : ⌊(b : ℝ) ^ j * z⌋₊ = f at *
    generalize hg : ⌊(b : ℝ) ^ (j + 1) * z⌋₊ = g at *
    obtain ⟨f1, f2⟩ := (Nat.floor_eq_iff hzj).1 hf
    obtain ⟨g1, g2⟩ := (Nat.floor_eq_iff hzj1).1 hg
    have e : (b : ℝ) ^ (j + 1) * z = b * ((b : ℝ) ^ j * z) := by ring
    have l1 : b * f ≤ g := by
      have : ((b * f : Nat) : ℝ) < g + 1 := by
        push_cast
        calc (b : ℝ) * f ≤ b * ((b : ℝ) ^ j * z) := mul_le_mul_of_nonneg_left f1 hb0.le
          _ < g + 1 := by rw [← e]; exact g2
      have : b * f < g + 1 := by exact_mod_cast this
      omega
    have l2 : g < b * f + b := by
      have : (g : ℝ) < ((b * f + b : Nat) : ℝ) := by
        push_cast
        calc (g : ℝ) ≤ b * ((b : ℝ) ^ j * z) := by rw [← e]; exact g1
          _ < b * (f + 1) := mul_lt_mul_of_pos_left f2 hb0
          _ = b * f + b := by ring
      exact_mod_cast this
    have l3 : g < b ^ (j + 1) := by
      have : (g : ℝ) < ((b ^ (j + 1) : Nat) : ℝ) := by
        push_cast
        calc (g : ℝ) ≤ (b : ℝ) ^ (j + 1) * z := g1
          _ < (b : ℝ) ^ (j + 1) * 1 := mul_lt_mul_of_pos_left hz.2 (by positivity)
          _ = _ := mul_one _
      exact_mod_cast this
    obtain ⟨n, rfl⟩ : ∃ n, g = b * f + n := ⟨g - b * f, by omega⟩
    have h2 := slab h ih hj (b * f) n (by omega)
    have hsplit : ((X.filter fun i => (∀ d < s, x i d < y d) ∧ (b : ℝ) ^ (j + 1) * x i s < ((b * f + n : Nat) : ℝ)).card : ℝ) =
        (X.filter fun i => (∀ d < s, x i d < y d) ∧ (b : ℝ) ^ j * x i s < f).card +
        (X.filter fun i => (∀ d < s, x i d < y d) ∧ ((b * f : Nat) : ℝ) ≤ (b : ℝ) ^ (j + 1) * x i s ∧ (b : ℝ) ^ (j + 1) * x i s < (b * f : Nat) + n).card := by
      refine Eq.trans (congrArg Nat.cast ?_) (Nat.cast_add _ _)
      rw [← card_union_of_disjoint, ← filter_or]
      · congr 1
        refine filter_congr fun i _ => ?_
        have ei : (b : ℝ) ^ (j + 1) * x i s = b * ((b : ℝ) ^ j * x i s) := by ring
        have hlt : (b : ℝ) ^ j * x i s < f ↔ (b : ℝ) ^ (j + 1) * x i s < b * f := by
          rw [ei]
          exact (mul_lt_mul_iff_right₀ hb0).symm
        rw [hlt]
        push_cast
        constructor
        · rintro ⟨e1, e2⟩
          by_cases hh : (b : ℝ) ^ (j + 1) * x i s < b * f
          · exact .inl ⟨e1, hh⟩
          · exact .inr ⟨e1, not_lt.1 hh, e2⟩
        · rintro (⟨e1, e2⟩ | ⟨e1, e2, e3⟩)
          · exact ⟨e1, by linarith [(Nat.cast_nonneg n : (0 : ℝ) ≤ n)]⟩
          · exact ⟨e1, e3⟩
      · refine disjoint_filter.2 fun i _ e1 e2 => ?_
        have h3 := e2.2.1
        have ei : (b : ℝ) ^ (j + 1) * x i s = b * ((b : ℝ) ^ j * x i s) := by ring
        have h4 := mul_lt_mul_of_pos_left e1.2 hb0
        push_cast at h3
        rw [ei] at h3
        linarith
    have hpow : (b : ℝ) ^ (m - j) = b * (b : ℝ) ^ (m - (j + 1)) := by
      rw [← pow_succ', show m - (j + 1) + 1 = m - j by omega]
    rw [hsplit, sum_range_succ]
    have hnb : (n : ℝ) * B (m - (j + 1)) ≤ ((b - 1 : Nat) : ℝ) * B (m - 1 - j) := by
      rw [show m - 1 - j = m - (j + 1) by omega]
      refine mul_le_mul_of_nonneg_right ?_ (hB _)
      exact_mod_cast (by omega : n ≤ b - 1)
    rw [hpow] at h1
    push_cast at h1 h2 ⊢
    refine le_trans ?_ (add_le_add h1 (le_trans h2 (by exact_mod_cast hnb)))
    refine le_trans (le_of_eq ?_) (abs_add_le _ _)
    congr 1
    ring

theorem sum_choose (n i : Nat) : ∑ l ∈ range n, (n - 1 - l).choose i = n.choose (i + 1) := by
  rw [sum_range_reflect (fun r => r.choose i) n]
  induction n with
  | zero => simp
  | succ n ih => rw [sum_range_succ, ih, Nat.choose_succ_succ', Nat.add_comm]

theorem netBound_succ (s : Nat) (ht : t ≤ m) : ∑ l ∈ range (m - t), (b - 1) * netBound b t s (m - 1 - l) + b ^ t = netBound b t (s + 1) m := by
  have h1 : ∀ l ∈ range (m - t), (b - 1) * netBound b t s (m - 1 - l) = b ^ t * ∑ i ∈ range s, (m - t - 1 - l).choose i * (b - 1) ^ (i + 1) := by
    intro l hl
    rw [mem_range] at hl
    rw [netBound, if_neg (by omega), show m - 1 - l - t = m - t - 1 - l by omega, mul_left_comm, mul_sum]
    congr 1
    refine sum_congr rfl fun i _ => ?_
    ring
  rw [sum_congr rfl h1, ← mul_sum, sum_comm, netBound, if_neg (by omega), sum_range_succ']
  simp only [← sum_mul, sum_choose, Nat.choose_zero_right, pow_zero, mul_one]
  ring

theorem netBound_mono (s : Nat) (ht : t ≤ m) : netBound b t s m ≤ netBound b t (s + 1) m := by
  rw [netBound, netBound, if_neg (by omega), if_neg (by omega), sum_range_succ]
  exact Nat.mul_le_mul_left _ (Nat.le_add_right _ _)

/-- H. Niederreiter: the number of points of a net in a box with a corner at zero. -/
theorem discrepancy (hb : 2 ≤ b) : ∀ (s m : Nat) (X : Finset Nat) (y : Nat → ℝ), t ≤ m → IsNet b t m s X x → (∀ i ∈ X, ∀ d < s, x i d ∈ Set.Ico (0 : ℝ) 1) →
    (∀ d < s, y d ∈ Set.Icc (0 : ℝ) 1) → |(boxCount s X x y : ℝ) - (b : ℝ) ^ m * ∏ d ∈ range s, y d| ≤ netBound b t s m := by
  intro s
  induction s with
  | zero =>
    intro m X y ht h hx hy
    have hc := h.card ht hx
    rw [boxCount, filter_true_of_mem (fun i _ d hd => by omega), hc]
    simp
  | succ s ih =>
    intro m X y ht h hx hy
    have hb0 : (0 : ℝ) < b := by exact_mod_cast (by omega : 0 < b)
    have ih' : ∀ m' X', t ≤ m' → X' ⊆ X → IsNet b t m' s X' x →
        |(boxCount s X' x y : ℝ) - (b : ℝ) ^ m' * ∏ d ∈ range s, y d| ≤ (netBound b t s m' : ℝ) := fun m' X' ht' hs hn =>
      ih m' X' y ht' hn (fun i hi d hd => hx i (hs hi) d (by omega)) fun d hd => hy d (by omega)
    have hP := prod_unit (y := y) (s := s) fun d hd => hy d (by omega)
    rw [prod_range_succ]
    rcases (hy s (by omega)).2.lt_or_eq with hlt | heq
    · have hz : y s ∈ Set.Ico (0 : ℝ) 1 := ⟨(hy s (by omega)).1, hlt⟩
      have h1 := digits hb h hx (fun m => Nat.cast_nonneg (netBound b t s m)) ih' hz (m - t) (by omega)
      have hzj : 0 ≤ (b : ℝ) ^ (m - t) * y s := mul_nonneg (by positivity) hz.1
      generalize hf : ⌊(b : ℝ) ^ (m - t) * y s⌋₊ = f at *
      obtain ⟨f1, f2⟩ := (Nat.floor_eq_iff hzj).1 hf
      have hfb : f < b ^ (m - t) := by
        have : (f : ℝ) < ((b ^ (m - t) : Nat) : ℝ) := by
          push_cast
          calc (f : ℝ) ≤ (b : ℝ) ^ (m - t) * y s := f1
            _ < (b : ℝ) ^ (m - t) * 1 := mul_lt_mul_of_pos_left hlt (by positivity)
            _ = _ := mul_one _
        exact_mod_cast this
      have hcell := (h.slice (j := m - t) (by omega) hfb).card (by omega) fun i hi d hd => hx i (mem_filter.1 hi).1 d (by omega)
      rw [show m - (m - t) = t by omega] at hcell h1
      have hsplit : (boxCount (s + 1) X x y : ℝ) = (X.filter fun i => (∀ d < s, x i d < y d) ∧ (b : ℝ) ^ (m - t) * x i s < f).card +
          (X.filter fun i => (∀ d < s, x i d < y d) ∧ (f : ℝ) ≤ (b : ℝ) ^ (m - t) * x i s ∧ x i s < y s).card := by
        refine Eq.trans (congrArg Nat.cast ?_) (Nat.cast_add _ _)
        rw [boxCount, ← card_union_of_disjoint, ← filter_or]
        · congr 1
          refine filter_congr fun i _ => ?_
          have hall : (∀ d < s + 1, x i d < y d) ↔ (∀ d < s, x i d < y d) ∧ x i s < y s :=
            ⟨fun h => ⟨fun d hd => h d (by omega), h s (by omega)⟩, fun h d hd => by
              rcases Nat.lt_succ_iff_lt_or_eq.1 hd with hd | rfl
              · exact h.1 d hd
              · exact h.2⟩
          rw [hall]
          constructor
          · rintro ⟨e1, e2⟩
            by_cases hh : (b : ℝ) ^ (m - t) * x i s < f
            · exact .inl ⟨e1, hh⟩
            · exact .inr ⟨e1, not_lt.1 hh, e2⟩
          · rintro (⟨e1, e2⟩ | ⟨e1, e2, e3⟩)
            · exact ⟨e1, lt_of_mul_lt_mul_left (lt_of_lt_of_le e2 f1) (by positivity)⟩
            · exact ⟨e1, e3⟩
        · refine disjoint_filter.2 fun i _ e1 e2 => ?_
          linarith [e1.2, e2.2.1]
      have hres : ((X.filter fun i => (∀ d < s, x i d < y d) ∧ (f : ℝ) ≤ (b : ℝ) ^ (m - t) * x i s ∧ x i s < y s).card : ℝ) ≤ (b : ℝ) ^ t := by
        have : (X.filter fun i => (∀ d < s, x i d < y d) ∧ (f : ℝ) ≤ (b : ℝ) ^ (m - t) * x i s ∧ x i s < y s).card ≤ b ^ t := by
          rw [← hcell]
          refine card_le_card fun i hi => ?_
          rw [mem_filter] at hi ⊢
          refine ⟨hi.1, hi.2.2.1, lt_trans (mul_lt_mul_of_pos_left hi.2.2.2 (by positivity)) f2⟩
        exact_mod_cast this
      have hpow : (b : ℝ) ^ m = (b : ℝ) ^ t * (b : ℝ) ^ (m - t) := by rw [← pow_add, Nat.add_sub_cancel' ht]
      have hvol : 0 ≤ (b : ℝ) ^ t * ((b : ℝ) ^ (m - t) * y s - f) * ∏ d ∈ range s, y d ∧
          (b : ℝ) ^ t * ((b : ℝ) ^ (m - t) * y s - f) * ∏ d ∈ range s, y d ≤ (b : ℝ) ^ t := by
        have hd0 : 0 ≤ (b : ℝ) ^ (m - t) * y s - f := by linarith
        have hd1 : (b : ℝ) ^ (m - t) * y s - f ≤ 1 := by linarith
        have ht0 : (0 : ℝ) < (b : ℝ) ^ t := by positivity
        refine ⟨mul_nonneg (mul_nonneg ht0.le hd0) hP.1, ?_⟩
        calc _ ≤ (b : ℝ) ^ t * 1 * 1 := mul_le_mul (mul_le_mul_of_nonneg_left hd1 ht0.le) hP.2 hP.1 (by positivity)
          _ = _ := by ring
      have hnn : (0 : ℝ) ≤ ((X.filter fun i => (∀ d < s, x i d < y d) ∧ (f : ℝ) ≤ (b : ℝ) ^ (m - t) * x i s ∧ x i s < y s).card : ℝ) := Nat.cast_nonneg _
      rw [hsplit, ← netBound_succ s ht, hpow]
      push_cast
      have h2 : |((X.filter fun i => (∀ d < s, x i d < y d) ∧ (f : ℝ) ≤ (b : ℝ) ^ (m - t) * x i s ∧ x i s < y s).card : ℝ) -
          (b : ℝ) ^ t * ((b : ℝ) ^ (m - t) * y s - f) * ∏ d ∈ range s, y d| ≤ (b : ℝ) ^ t := by
        rw [abs_le]
        constructor <;> linarith [hvol.1, hvol.2]
      refine le_trans ?_ (add_le_add h1 h2)
      refine le_trans (le_of_eq ?_) (abs_add_le _ _)
      congr 1
      ring
    · have hcount : boxCount (s + 1) X x y = boxCount s X x y := by
        unfold boxCount
        refine congrArg Finset.card (filter_congr fun i hi => ?_)
        refine ⟨fun h d hd => h d (by omega), fun h d hd => ?_⟩
        rcases Nat.lt_succ_iff_lt_or_eq.1 hd with hd | rfl
        · exact h d hd
        · rw [heq]
          exact (hx i hi d (by omega)).2
      have hnet : IsNet b t m s X x := by
        have := h.slice (j := 0) (a := 0) (by omega) (by simp)
        rwa [filter_true_of_mem (fun i hi => by simpa using ⟨(hx i hi s (by omega)).1, (hx i hi s (by omega)).2⟩)] at this
      rw [hcount, heq, mul_one]
      refine le_trans (ih' m X ht (Subset.refl _) hnet) ?_
      exact_mod_cast netBound_mono s ht

/-- The first points of a sequence of nets. -/
theorem sequence (hb : 2 ≤ b) {s w : Nat} {y : Nat → ℝ} (hy : ∀ d < s, y d ∈ Set.Icc (0 : ℝ) 1) {N : Nat} (hN : N < b ^ w)
    (hx : ∀ i < N, ∀ d < s, x i d ∈ Set.Ico (0 : ℝ) 1)
    (h : ∀ m c, t ≤ m → (c + 1) * b ^ m ≤ N → IsNet b t m s (Finset.Ico (c * b ^ m) ((c + 1) * b ^ m)) x) :
    |(inCorner s N x y : ℝ) - N * ∏ d ∈ range s, y d| ≤ sequenceBound b t s w N := by
  have hP := prod_unit hy
  have hb0 : 0 < b := by omega
  -- one block
  have hblock : ∀ m c, (c + 1) * b ^ m ≤ N → |(boxCount s (Finset.Ico (c * b ^ m) ((c + 1) * b ^ m)) x y : ℝ) - (b : ℝ) ^ m * ∏ d ∈ range s, y d| ≤ netBound b t s m := by
    intro m c hc
    by_cases ht : t ≤ m
    · exact discrepancy hb s m _ y ht (h m c ht hc) (fun i hi d hd => hx i (by rw [Finset.mem_Ico] at hi; omega) d hd) hy
    · rw [netBound, if_pos (by omega)]
      have h1 : boxCount s (Finset.Ico (c * b ^ m) ((c + 1) * b ^ m)) x y ≤ b ^ m := by
        refine (card_filter_le _ _).trans ?_
        rw [Nat.card_Ico, Nat.add_mul, Nat.one_mul, Nat.add_sub_cancel_left]
      have h1' : (boxCount s (Finset.Ico (c * b ^ m) ((c + 1) * b ^ m)) x y : ℝ) ≤ (b : ℝ) ^ m := by exact_mod_cast h1
      have h0 : (0 : ℝ) ≤ (boxCount s (Finset.Ico (c * b ^ m) ((c + 1) * b ^ m)) x y : ℝ) := Nat.cast_nonneg _
      have hp : (0 : ℝ) ≤ (b : ℝ) ^ m := by positivity
      have hq : (b : ℝ) ^ m * ∏ d ∈ range s, y d ≤ (b : ℝ) ^ m := mul_le_of_le_one_right hp hP.2
      have hq0 := mul_nonneg hp hP.1
      push_cast
      rw [abs_le]
      constructor <;> linarith
  have hadd : ∀ A B C, A ≤ B → B ≤ C → (boxCount s (Finset.Ico A C) x y : ℝ) = boxCount s (Finset.Ico A B) x y + boxCount s (Finset.Ico B C) x y := by
    intro A B C h1 h2
    rw [← Nat.cast_add, boxCount, boxCount, boxCount, ← card_union_of_disjoint, ← filter_union, Finset.Ico_union_Ico_eq_Ico h1 h2]
    exact disjoint_filter_filter (Finset.Ico_disjoint_Ico_consecutive A B C)
  -- several blocks
  have hblocks : ∀ m c n, (c + n) * b ^ m ≤ N → |(boxCount s (Finset.Ico (c * b ^ m) ((c + n) * b ^ m)) x y : ℝ) - n * (b : ℝ) ^ m * ∏ d ∈ range s, y d| ≤ n * netBound b t s m := by
    intro m c n
    induction n with
    | zero => intro _; simp [boxCount]
    | succ n ih =>
      intro hn
      have h1 := ih (le_trans (Nat.mul_le_mul_right _ (by omega)) hn)
      have h2 := hblock m (c + n) (by rw [Nat.add_assoc]; exact hn)
      rw [hadd (c * b ^ m) ((c + n) * b ^ m) ((c + (n + 1)) * b ^ m) (Nat.mul_le_mul_right _ (by omega)) (Nat.mul_le_mul_right _ (by omega)), ← Nat.add_assoc]
      push_cast
      refine le_trans ?_ (le_trans (add_le_add h1 h2) (by ring_nf; rfl))
      refine le_trans (le_of_eq ?_) (abs_add_le _ _)
      congr 1
      ring
  -- from the highest digit on
  have main : ∀ k ≤ w, |(boxCount s (Finset.Ico 0 (N / b ^ (w - k) * b ^ (w - k))) x y : ℝ) - (N / b ^ (w - k) * b ^ (w - k) : Nat) * ∏ d ∈ range s, y d| ≤
      (∑ j ∈ Finset.Ico (w - k) w, N / b ^ j % b * netBound b t s j : Nat) := by
    intro k
    induction k with
    | zero =>
      intro _
      rw [Nat.sub_zero, Nat.div_eq_of_lt hN, Nat.zero_mul]
      simp [boxCount]
    | succ k ih =>
      intro hk
      have h1 := ih (by omega)
      obtain ⟨j, hj⟩ : ∃ j, w - (k + 1) = j := ⟨_, rfl⟩
      have hj1 : w - k = j + 1 := by omega
      rw [hj]
      rw [hj1] at h1
      have e : N / b ^ j = b * (N / b ^ (j + 1)) + N / b ^ j % b := by
        rw [Nat.pow_succ, ← Nat.div_div_eq_div_mul]
        exact (Nat.div_add_mod _ _).symm
      have e2 : N / b ^ (j + 1) * b ^ (j + 1) = b * (N / b ^ (j + 1)) * b ^ j := by rw [Nat.pow_succ]; ring
      have hle : N / b ^ j * b ^ j ≤ N := Nat.div_mul_le_self _ _
      have h2 := hblocks j (b * (N / b ^ (j + 1))) (N / b ^ j % b) (by rw [← e]; exact hle)
      rw [← e] at h2
      rw [e2] at h1
      have hle2 : b * (N / b ^ (j + 1)) * b ^ j ≤ N / b ^ j * b ^ j := Nat.mul_le_mul_right _ (by omega)
      rw [hadd 0 _ _ (Nat.zero_le _) hle2, Finset.sum_eq_sum_Ico_succ_bot (by omega : j < w)]
      have e3 : ((N / b ^ j * b ^ j : Nat) : ℝ) = (b * (N / b ^ (j + 1)) * b ^ j : Nat) + (N / b ^ j % b : Nat) * (b : ℝ) ^ j := by
        conv_lhs => rw [e]
        push_cast
        ring
      rw [e3]
      refine le_trans ?_ (le_trans (add_le_add h1 h2) (le_of_eq (by push_cast; ring)))
      refine le_trans (le_of_eq ?_) (abs_add_le _ _)
      congr 1
      ring
  have := main w (le_refl _)
  rw [Nat.sub_self, Nat.pow_zero, Nat.div_one, Nat.mul_one, Nat.Ico_zero_eq_range] at this
  rw [sequenceBound, inCorner]
  rw [← Finset.range_eq_Ico] at this
  exact this

end Boost.Random.Nets
