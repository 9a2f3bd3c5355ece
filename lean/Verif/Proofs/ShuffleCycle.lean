import Verif.Spec.ShuffleCycle
import Mathlib.Data.Int.GCD
import Mathlib.Data.Nat.Find
import Mathlib.Data.Int.ModEq
import Mathlib.Data.Fintype.Pi
import Mathlib.Data.Fintype.Prod
import Mathlib.Data.Finite.Prod
import Mathlib.Data.Fintype.Pigeonhole
import Mathlib.Tactic.Ring

/-!
# Cycles of shuffled sequences
-/

namespace Boost.Random
namespace ShuffleCycle
open Spec

/-- A table from which element `idx (y n)` is taken and replaced by `x n`. -/
structure Shuffles {α : Type} (idx : α → Nat) (x : Nat → α) (V : Nat → List α) (y : Nat → α) : Prop where
  get : ∀ n, (V n)[idx (y n)]? = some (y (n + 1))
  set : ∀ n, V (n + 1) = (V n).set (idx (y n)) (x n)

variable {α : Type} {idx : α → Nat} {x : Nat → α} {V : Nat → List α} {y : Nat → α}

/-- An element that is not taken stays. -/
theorem Shuffles.keep (h : Shuffles idx x V y) {s m n : Nat} (hmn : m ≤ n) (hs : ∀ i, m ≤ i → i < n → idx (y i) ≠ s) : (V n)[s]? = (V m)[s]? := by
  induction n, hmn using Nat.le_induction with
  | base => rfl
  | succ n hn ih =>
    rw [h.set n, List.getElem?_set_ne (hs n hn (by omega)), ih fun i hi hi' => hs i hi (by omega)]

theorem Shuffles.put (h : Shuffles idx x V y) (m : Nat) : (V (m + 1))[idx (y m)]? = some (x m) := by
  rw [h.set m, List.getElem?_set_self]
  by_contra hn
  have := h.get m
  rw [List.getElem?_eq_none (by omega)] at this
  simp at this

/-- What is put into the table is returned at the next visit. -/
theorem Shuffles.visit (h : Shuffles idx x V y) {m n : Nat} (hmn : m < n) (hn : idx (y n) = idx (y m)) (hs : ∀ i, m < i → i < n → idx (y i) ≠ idx (y m)) :
    y (n + 1) = x m := by
  have h1 := h.get n
  rw [hn, h.keep (m := m + 1) hmn (fun i hi hi' => hs i (by omega) hi'), h.put m] at h1
  exact (Option.some.inj h1).symm

/-- If the values repeat after `T` steps from some place on, so do the values put into the table. -/
theorem Shuffles.period (h : Shuffles idx x V y) {N T : Nat} (hT : 0 < T) (hp : ∀ n, N ≤ n → y (n + T) = y n) {m : Nat} (hm : N ≤ m) : x (m + T) = x m := by
  classical
  have hex : ∃ n, m < n ∧ idx (y n) = idx (y m) := ⟨m + T, by omega, by rw [hp m hm]⟩
  obtain ⟨h1, h2⟩ := Nat.find_spec hex
  have h3 : ∀ i, m < i → i < Nat.find hex → idx (y i) ≠ idx (y m) := fun i hi hi' he => Nat.find_min hex hi' ⟨hi, he⟩
  generalize Nat.find hex = n at *
  have e1 := h.visit h1 h2 h3
  have e2 := h.visit (m := m + T) (n := n + T) (by omega) (by rw [hp n (by omega), hp m hm, h2]) (fun i hi hi' => by
    have := h3 (i - T) (by omega) (by omega)
    rwa [← hp (i - T) (by omega), show i - T + T = i by omega, ← hp m hm] at this)
  rw [← e1, ← e2, show n + T + 1 = n + 1 + T by omega, hp (n + 1) (by omega)]

/-- A freshly filled table: the values never repeat from the first on. -/
theorem Shuffles.fresh {X : Nat → α} {k P T : Nat} (hk : 0 < k) (hP : DistinctCycle X P) (hkP : k < P) (h : Shuffles idx (fun n => X (k + 1 + n)) V y)
    (hlen : (V 0).length = k) (h0 : ∀ s < k, (V 0)[s]? = some (X s)) (hy : y 0 = X k) (hT : 0 < T) : ∃ n, y (n + T + 1) ≠ y (n + 1) := by
  classical
  by_contra hn
  push Not at hn
  have hp : ∀ n, 1 ≤ n → y (n + T) = y n := fun n hn1 => by
    have := hn (n - 1)
    rwa [show n - 1 + T + 1 = n + T by omega, show n - 1 + 1 = n by omega] at this
  have hx := h.period hT hp (m := 1) (le_refl _)
  have hdvd : P ∣ T := by
    have := (hP.2 _ _).1 hx
    have e : k + 1 + (1 + T) = T + (k + 1 + 1) := by omega
    rw [e] at this
    have h2 : (T + (k + 1 + 1)) % P = (0 + (k + 1 + 1)) % P := by rw [this, Nat.zero_add]
    have h3 : Nat.ModEq P T 0 := Nat.ModEq.add_right_cancel' (k + 1 + 1) h2
    exact (Nat.modEq_zero_iff_dvd).1 h3
  have hTP : P ≤ T := Nat.le_of_dvd hT hdvd
  have hne : ∀ s < k, X s ≠ X k := fun s hs he => by
    have := (hP.2 _ _).1 he
    rw [Nat.mod_eq_of_lt (by omega), Nat.mod_eq_of_lt hkP] at this
    omega
  have hidx : ∀ n, (V n).length = k := fun n => by
    induction n with
    | zero => exact hlen
    | succ n ih => rw [h.set n, List.length_set, ih]
  have hlt : ∀ n, idx (y n) < k := fun n => by
    by_contra hc
    have := h.get n
    rw [List.getElem?_eq_none (by rw [hidx]; omega)] at this
    simp at this
  have hex : ∃ n, T - 1 < n ∧ idx (y n) = idx (y (T - 1)) := ⟨T - 1 + T, by omega, by rw [hp (T - 1) (by omega)]⟩
  obtain ⟨h1, h2⟩ := Nat.find_spec hex
  have h3 : ∀ i, T - 1 < i → i < Nat.find hex → idx (y i) ≠ idx (y (T - 1)) := fun i hi hi' he => Nat.find_min hex hi' ⟨hi, he⟩
  have h4 : Nat.find hex ≤ T - 1 + T := Nat.find_min' hex ⟨by omega, by rw [hp (T - 1) (by omega)]⟩
  generalize Nat.find hex = n at *
  have e1 : y (n + 1) = X k := by
    rw [h.visit h1 h2 h3, hP.2, show k + 1 + (T - 1) = k + T by omega]
    obtain ⟨c, rfl⟩ := hdvd
    exact Nat.add_mul_mod_self_left _ _ _
  obtain ⟨i, rfl⟩ : ∃ i, n = i + T := ⟨n - T, by omega⟩
  rw [show i + T + 1 = i + 1 + T by omega, hp _ (by omega)] at e1
  have e2 := h.get i
  rw [e1] at e2
  rcases Nat.eq_zero_or_pos i with rfl | hi
  · rw [h0 _ (hlt 0)] at e2
    exact hne _ (hlt 0) (Option.some.inj e2)
  · rw [hp i hi] at h2
    rw [h.keep (m := 1) hi (fun l hl hl' he => h3 (l + T) (by omega) (by omega) (by rw [hp l hl, he, h2]))] at e2
    by_cases hs : idx (y 0) = idx (y i)
    · have := h.put 0
      rw [hs, Nat.zero_add, e2] at this
      have := (hP.2 _ _).1 (Option.some.inj this)
      rw [Nat.mod_eq_of_lt hkP] at this
      have h5 : k + 1 + 0 = k + 1 := rfl
      rw [h5] at this
      rcases Nat.lt_or_ge (k + 1) P with h6 | h6
      · rw [Nat.mod_eq_of_lt h6] at this; omega
      · rw [show k + 1 = P by omega, Nat.mod_self] at this; omega
    · rw [h.keep (m := 0) (by omega) (fun l hl hl' => by rwa [show l = 0 by omega]), h0 _ (hlt i)] at e2
      exact hne _ (hlt i) (Option.some.inj e2)

/-- Equal tables at places with equal inputs have equal futures. -/
theorem Shuffles.same (h : Shuffles idx x V y) {a T : Nat} (hx : ∀ n, x (n + T) = x n) (hV : V (a + T) = V a) (hy : y (a + T) = y a) :
    ∀ n, a ≤ n → V (n + T) = V n ∧ y (n + T) = y n := by
  intro n hn
  induction n, hn using Nat.le_induction with
  | base => exact ⟨hV, hy⟩
  | succ n hn ih =>
    obtain ⟨h1, h2⟩ := ih
    rw [show n + 1 + T = n + T + 1 by omega]
    refine ⟨by rw [h.set, h.set, h1, h2, hx], ?_⟩
    have e1 := h.get (n + T)
    rw [h1, h2, h.get n] at e1
    exact (Option.some.inj e1).symm

/-- The table and the value come back. -/
theorem Shuffles.recurs (h : Shuffles idx x V y) {P k : Nat} (hP : 0 < P) (hx : ∀ n, x (n + P) = x n) (S : Finset α)
    (hV : ∀ n, (V n).length = k ∧ ∀ z ∈ V n, z ∈ S) (hy : ∀ n, y n ∈ S) : ∃ N T, 0 < T ∧ ∀ n, N ≤ n → y (n + T) = y n := by
  classical
  let f : Nat → (Fin k → S) × S := fun n => (fun i => ⟨(V (n * P))[i]'(by rw [(hV _).1]; exact i.2), (hV _).2 _ (List.getElem_mem _)⟩, ⟨y (n * P), hy _⟩)
  have key : ∀ a b, a < b → f a = f b → ∃ N T, 0 < T ∧ ∀ n, N ≤ n → y (n + T) = y n := by
    intro a b hab he
    have h1 : V (a * P) = V (b * P) := by
      refine List.ext_getElem (by rw [(hV _).1, (hV _).1]) fun i hi hi' => ?_
      have := congrFun (congrArg Prod.fst he) ⟨i, by rw [(hV _).1] at hi; exact hi⟩
      exact congrArg Subtype.val this
    have h2 : y (a * P) = y (b * P) := congrArg Subtype.val (congrArg Prod.snd he)
    have hbP : b * P = a * P + (b - a) * P := by rw [← Nat.add_mul]; congr 1; omega
    refine ⟨a * P, (b - a) * P, Nat.mul_pos (by omega) hP, fun n hn => (h.same ?_ ?_ ?_ n hn).2⟩
    · intro n
      generalize b - a = c
      induction c with
      | zero => simp
      | succ c ih => rw [Nat.add_mul, Nat.one_mul, ← Nat.add_assoc, hx, ih]
    · rw [← hbP, h1]
    · rw [← hbP, h2]
  obtain ⟨a, b, hab, he⟩ := Finite.exists_ne_map_eq_of_infinite f
  rcases Nat.lt_or_gt_of_ne hab with hlt | hgt
  · exact key a b hlt he
  · exact key b a hgt he.symm

/-- A sequence that repeats from some place on has a cycle. -/
theorem hasCycle_of {out : Nat → α} (h : ∃ N T, 0 < T ∧ ∀ n, N ≤ n → out (n + T) = out n) : ∃ C, HasCycle out C := by
  classical
  have hex : ∃ T, 0 < T ∧ ∃ N, ∀ n, N ≤ n → out (n + T) = out n := by
    obtain ⟨N, T, hT, hN⟩ := h
    exact ⟨T, hT, N, hN⟩
  obtain ⟨hC, N, hN⟩ := Nat.find_spec hex
  have hmin : ∀ T, T < Nat.find hex → ¬ (0 < T ∧ ∃ N, ∀ n, N ≤ n → out (n + T) = out n) := fun T hT => Nat.find_min hex hT
  generalize Nat.find hex = C at *
  have hmul : ∀ c n, N ≤ n → out (n + C * c) = out n := by
    intro c n hn
    induction c with
    | zero => simp
    | succ c ih => rw [Nat.mul_succ, ← Nat.add_assoc, hN _ (by omega), ih]
  refine ⟨C, hC, fun T => ⟨?_, ?_⟩⟩
  · rintro ⟨N', hN'⟩
    refine Nat.dvd_of_mod_eq_zero ?_
    by_contra hne
    refine hmin (T % C) (Nat.mod_lt _ hC) ⟨Nat.pos_of_ne_zero hne, max N N', fun n hn => ?_⟩
    rw [← hmul (T / C) (n + T % C) (by omega), Nat.add_assoc, Nat.mod_add_div, hN' n (by omega)]
  · rintro ⟨c, rfl⟩
    exact ⟨N, hmul c⟩

end ShuffleCycle
end Boost.Random
