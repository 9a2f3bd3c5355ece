import Verif.Proofs.Expected
import Verif.Spec.WholePeriod
import Mathlib.Algebra.BigOperators.Ring.Finset

/-! Sums over the positions of an engine and sums over all lists of engine values. -/

namespace Boost.Random
open Spec Finset

section
variable {E : EngInfo}

theorem mem_tuples_iff (hE : E.min ≤ E.max) (n : Nat) (t : List Int) : t ∈ tuples E n ↔ t.length = n ∧ Outputs E t := by
  induction n generalizing t with
  | zero =>
    simp only [tuples, List.mem_singleton, List.length_eq_zero_iff]
    constructor
    · rintro rfl; exact ⟨rfl, by intro x hx; cases hx⟩
    · exact fun h => h.1
  | succ n ih =>
    unfold tuples
    rw [List.mem_flatMap]
    constructor
    · rintro ⟨d, hd, ht⟩
      obtain ⟨t', ht', rfl⟩ := List.mem_map.1 ht
      obtain ⟨a, b⟩ := (ih t').1 ht'
      refine ⟨by simp [a], ?_⟩
      intro x hx
      rcases List.mem_cons.1 hx with rfl | hx
      · have := List.mem_range.1 hd
        omega
      · exact b x hx
    · rintro ⟨hl, hO⟩
      cases t with
      | nil => simp at hl
      | cons x t =>
        have hx := hO x (by simp)
        refine ⟨(x - E.min).toNat, List.mem_range.2 (by omega), List.mem_map.2 ⟨t, (ih t).2 ⟨by simpa using hl, fun y hy => hO y (by simp [hy])⟩, ?_⟩⟩
        congr 1
        omega

theorem nodup_tuples (n : Nat) : (tuples E n).Nodup := by
  induction n with
  | zero => simp [tuples]
  | succ n ih =>
    unfold tuples
    rw [List.nodup_flatMap]
    refine ⟨fun d _ => ih.map fun a b h => by simpa using h, ?_⟩
    refine List.Pairwise.imp_of_mem ?_ List.nodup_range
    intro d e _ _ hne t h1 h2
    obtain ⟨t1, _, rfl⟩ := List.mem_map.1 h1
    obtain ⟨t2, _, h⟩ := List.mem_map.1 h2
    simp only [List.cons.injEq] at h
    exact hne (by omega)

theorem idealMean_eq (g : List Int → ℚ) (k : Nat) : idealMean E g k = avg E g k := avg_eq E g k

/-- values that are not looked at do not matter -/
theorem avg_take (hE : E.min ≤ E.max) (g : List Int → ℚ) (k m : Nat) : avg E (fun xs => g (xs.take k)) (k + m) = avg E g k := by
  have hb := b_pos E
  induction k generalizing g with
  | zero => simp only [List.take_zero, avg_const]; rfl
  | succ k ih =>
    rw [show k + 1 + m = (k + m) + 1 by omega]
    unfold avg
    congr 1
    apply sum_congr rfl
    intro d _
    exact ih fun xs => g ((E.min + (d : Int)) :: xs)

theorem window_length (out : Nat → Nat) (k t : Nat) : (window out k t).length = k := by simp [window]

theorem window_take (out : Nat → Nat) (k m t : Nat) : (window out (k + m) t).take k = window out k t := by
  unfold window
  rw [← List.map_take, List.take_range, Nat.min_eq_left (by omega)]

theorem list_sum_range_finset (f : Nat → ℚ) (n : Nat) : ((List.range n).map f).sum = ∑ t ∈ range n, f t := list_sum_rangeQ f n

/-- sums over the positions, if every list occurs equally often but one -/
theorem sum_windows (hE : E.min ≤ E.max) (out : Nat → Nat) (N k c : Nat) (z : List Int) (hz : z ∈ tuples E k) (hO : ∀ t, Outputs E (window out k t))
    (h : ∀ V ∈ tuples E k, ((range N).filter fun t => window out k t = V).card + (if V = z then 1 else 0) = c) (g : List Int → ℚ) :
    (∑ t ∈ range N, g (window out k t)) + g z = c * ((tuples E k).map g).sum := by
  have h1 : ((tuples E k).map g).sum = ∑ V ∈ (tuples E k).toFinset, g V := by
    rw [List.sum_toFinset _ (nodup_tuples k)]
  have h2 : (∑ t ∈ range N, g (window out k t)) = ∑ V ∈ (tuples E k).toFinset, ((range N).filter fun t => window out k t = V).card * g V := by
    rw [← sum_fiberwise_of_maps_to (s := range N) (t := (tuples E k).toFinset) (g := window out k) (fun t _ => List.mem_toFinset.2 ((mem_tuples_iff hE k _).2 ⟨window_length _ _ _, hO t⟩))]
    apply sum_congr rfl
    intro V _
    rw [sum_congr rfl (g := fun _ => g V) (fun t ht => by rw [(mem_filter.1 ht).2]), sum_const, nsmul_eq_mul]
  have h3 : g z = ∑ V ∈ (tuples E k).toFinset, (if V = z then 1 else 0) * g V := by
    rw [sum_eq_single z (fun V _ hV => by rw [if_neg hV, zero_mul]) (fun hn => absurd (List.mem_toFinset.2 hz) hn), if_pos rfl, one_mul]
  rw [h1, h2, h3, ← sum_add_distrib, mul_sum]
  apply sum_congr rfl
  intro V hV
  rw [← add_mul, ← h V (List.mem_toFinset.1 hV)]
  push_cast
  split <;> rfl

theorem sum_windows_all (hE : E.min ≤ E.max) (out : Nat → Nat) (N k c : Nat) (hO : ∀ t, Outputs E (window out k t))
    (h : ∀ V ∈ tuples E k, ((range N).filter fun t => window out k t = V).card = c) (g : List Int → ℚ) :
    (∑ t ∈ range N, g (window out k t)) = c * ((tuples E k).map g).sum := by
  have h1 : ((tuples E k).map g).sum = ∑ V ∈ (tuples E k).toFinset, g V := by
    rw [List.sum_toFinset _ (nodup_tuples k)]
  rw [h1, ← sum_fiberwise_of_maps_to (s := range N) (t := (tuples E k).toFinset) (g := window out k) (fun t _ => List.mem_toFinset.2 ((mem_tuples_iff hE k _).2 ⟨window_length _ _ _, hO t⟩)), mul_sum]
  apply sum_congr rfl
  intro V hV
  rw [sum_congr rfl (g := fun _ => g V) (fun t ht => by rw [(mem_filter.1 ht).2]), sum_const, nsmul_eq_mul, h V (List.mem_toFinset.1 hV)]

end

end Boost.Random
