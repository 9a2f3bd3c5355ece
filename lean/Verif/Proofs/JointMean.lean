import Verif.Proofs.Shuffle
import Verif.Proofs.ExpectedDiscrete

/-! Mean running times of programs that draw several times. -/

namespace Boost.Random
open Spec Finset

section
variable {α β : Type} {E : EngInfo}

/-- The running time of two calls in turn. -/
theorem mu_bind_le (hE : E.min ≤ E.max) (f : α → List Int → Draw β) (B : ℚ) (hB : 0 ≤ B) (n : Nat) :
    ∀ (q : List Int → Draw α), LocalOn E q → (∀ u j, j ≤ n → (∃ xs rest, Outputs E xs ∧ q xs = Draw.done u rest) → mu E (f u) j ≤ B) →
    mu E (fun xs => (q xs).bind f) n ≤ mu E q n + B := by
  classical
  have hb := b_pos E
  induction n with
  | zero =>
    intro q _ _
    rw [mu_zero, mu_zero, zero_add]
    exact hB
  | succ n ih =>
    intro q hq hf
    rcases hq.cases with ⟨u, hu⟩ | hn
    · have e1 : mu E (fun xs => (q xs).bind f) (n + 1) = mu E (f u) (n + 1) := by
        apply mu_congr E hE
        intro xs hxs
        rw [hu xs hxs]; rfl
      have e4 := mu_nonneg E q hE (n + 1)
      have e5 := hf u (n + 1) le_rfl ⟨[], [], Outputs.nil, hu [] Outputs.nil⟩
      rw [e1]
      linarith
    · have h1 := mu_succ E (fun xs => (q xs).bind f) (fun d xs => (q ((E.min + (d : Int)) :: xs)).bind f) hE n (fun d _ xs _ => rfl)
      refine le_trans h1 ?_
      have h2 : ∀ d ∈ range E.b, mu E (fun xs => (q ((E.min + (d : Int)) :: xs)).bind f) n ≤
          mu E (fun xs => q ((E.min + (d : Int)) :: xs)) n + B := by
        intro d hd
        have hd' := mem_range.1 hd
        apply ih (fun xs => q ((E.min + (d : Int)) :: xs)) (hq.deriv hn hE hd')
        intro u j hj ⟨xs, rest, hO, h⟩
        exact hf u j (by omega) ⟨_, rest, outputs_cons hE hd' hO, h⟩
      have h3 := div_le_div_of_nonneg_right (sum_le_sum h2) hb.le
      rw [sum_add_distrib, add_div, sum_const, card_range, nsmul_eq_mul] at h3
      rw [mu_succ_local E q hE hq hn n]
      have h4 : (E.b : ℚ) * B / E.b = B := by field_simp
      rw [h4] at h3
      linarith

end

namespace Program
variable {α : Type} [DecidableEq α] {E : EngInfo}

theorem mu_inTurn (hE : E.min ≤ E.max) (l : List ((List Int → Draw α) × ℚ))
    (h : ∀ x ∈ l, LocalOn E x.1 ∧ 0 ≤ x.2 ∧ ∀ n, mu E x.1 n ≤ x.2) (n : Nat) :
    mu E (inTurn (l.map fun x => x.1)) n ≤ (l.map fun x => x.2).sum := by
  induction l generalizing n with
  | nil => exact (mu_done E [] n).le
  | cons x l ih =>
    obtain ⟨a, b, c⟩ := h x (by simp)
    have hl : LocalOn E (inTurn (l.map fun x => x.1)) := inTurn_local _ fun q hq => by
      obtain ⟨y, hy, rfl⟩ := List.mem_map.1 hq
      exact (h y (by simp [hy])).1
    have hS : 0 ≤ (l.map fun x => x.2).sum := List.sum_nonneg fun y hy => by
      obtain ⟨x, hx, rfl⟩ := List.mem_map.1 hy
      exact (h x (by simp [hx])).2.1
    have i1 := fun n => ih (fun y hy => h y (by simp [hy])) n
    simp only [List.map_cons, List.sum_cons]
    have h1 := mu_bind_le (q := x.1) (f := fun v rest => (inTurn (l.map fun x => x.1) rest).bind fun vs rest => Draw.done (v :: vs) rest)
      hE _ hS n a (fun u j _ _ => by
        have := mu_bind_le (q := inTurn (l.map fun x => x.1)) (f := fun vs rest => Draw.done (u :: vs) rest) hE 0 le_rfl j hl
          (fun vs i _ _ => (mu_done E (u :: vs) i).le)
        rw [add_zero] at this
        exact this.trans (i1 j))
    exact h1.trans (add_le_add_left (c n) _)

omit [DecidableEq α] in
theorem swapAt_perm (a c : List α) (i j : Nat) (h : swapAt a i j = some c) : c.Perm a := by
  unfold swapAt at h
  by_cases hi : i < a.length
  · by_cases hj : j < a.length
    · rw [List.getElem?_eq_getElem hi, List.getElem?_eq_getElem hj] at h
      simp only [Option.some.injEq] at h
      rw [← h]
      exact List.set_set_perm hi hj
    · rw [List.getElem?_eq_getElem hi, List.getElem?_eq_none (by omega)] at h
      cases h
  · rw [List.getElem?_eq_none (by omega)] at h
    cases h

omit [DecidableEq α] in
theorem swapAt_some (a : List α) (i j : Nat) (hi : i < a.length) (hj : j < a.length) : ∃ c, swapAt a i j = some c := by
  unfold swapAt
  rw [List.getElem?_eq_getElem hi, List.getElem?_eq_getElem hj]
  exact ⟨_, rfl⟩

omit [DecidableEq α] in
/-- A step with an index that is drawn swaps. -/
theorem step_done (b : List α) (k : Nat) (hk : k + 1 < b.length) (j : Int) (hj : 0 ≤ j ∧ j < (k : Int) + 2) :
    ∃ c, c.Perm b ∧ step b k j = fun rest => Draw.done c rest := by
  obtain ⟨c, hc⟩ := swapAt_some b (k + 1) j.toNat hk (by omega)
  refine ⟨c, swapAt_perm b c _ _ hc, ?_⟩
  funext rest
  unfold step
  rw [if_neg (by omega), hc]

omit [DecidableEq α] in
/-- Whatever the engine returns, the result is a permutation, and nothing is undefined. -/
theorem shuffleTo_perm (rand : Int → List Int → Draw Int) (a : List α) (k : Nat) (hk : k < a.length ∨ k = 0)
    (hr : ∀ i, i < k → ∀ xs, Outputs E xs → rand ((i : Int) + 2) xs ≠ Draw.ub ∧
      ∀ j rest, rand ((i : Int) + 2) xs = Draw.done j rest → (0 ≤ j ∧ j < (i : Int) + 2) ∧ rest <:+ xs)
    (xs : List Int) (hxs : Outputs E xs) :
    shuffleTo rand a k xs ≠ Draw.ub ∧ ∀ b rest, shuffleTo rand a k xs = Draw.done b rest → b.Perm a ∧ rest <:+ xs := by
  induction k with
  | zero => exact ⟨by simp [shuffleTo], fun b rest h => by cases h; exact ⟨List.Perm.refl _, List.suffix_refl _⟩⟩
  | succ k ih =>
    obtain ⟨i1, i2⟩ := ih (by omega) (fun i hi => hr i (by omega))
    have e := congrFun (shuffleTo_succ rand a k) xs
    rw [e]
    cases hq : shuffleTo rand a k xs with
    | more => exact ⟨by simp [Draw.bind], fun _ _ h => by cases h⟩
    | ub => exact absurd hq i1
    | done b mid =>
      obtain ⟨p1, p2⟩ := i2 b mid hq
      obtain ⟨r1, r2⟩ := hr k (by omega) mid (fun x hx => hxs x (p2.subset hx))
      simp only [Draw.bind]
      cases hq2 : rand ((k : Int) + 2) mid with
      | more => exact ⟨by simp, fun _ _ h => by cases h⟩
      | ub => exact absurd hq2 r1
      | done j rest =>
        obtain ⟨r3, r4⟩ := r2 j rest hq2
        obtain ⟨c, hc, hs⟩ := step_done b k (by rw [p1.length_eq]; omega) j r3
        simp only [hs]
        refine ⟨by simp, fun c' rest' h => ?_⟩
        cases h
        exact ⟨hc.trans p1, r4.trans p2⟩

theorem mu_shuffleTo (hE : E.min ≤ E.max) (rand : Int → List Int → Draw Int) (a : List α) (k : Nat) (hk : k < a.length ∨ k = 0) (B : Nat → ℚ)
    (hr : ∀ i, i < k → LocalOn E (rand ((i : Int) + 2)) ∧ 0 ≤ B i ∧ ∀ n, mu E (rand ((i : Int) + 2)) n ≤ B i)
    (hr' : ∀ i, i < k → ∀ xs, Outputs E xs → rand ((i : Int) + 2) xs ≠ Draw.ub ∧
      ∀ j rest, rand ((i : Int) + 2) xs = Draw.done j rest → (0 ≤ j ∧ j < (i : Int) + 2) ∧ rest <:+ xs) (n : Nat) :
    mu E (shuffleTo rand a k) n ≤ ∑ i ∈ range k, B i := by
  induction k generalizing n with
  | zero =>
    rw [sum_range_zero]
    exact (mu_done E a n).le
  | succ k ih =>
    obtain ⟨r1, r2, r3⟩ := hr k (by omega)
    rw [shuffleTo_succ, sum_range_succ]
    have hl := shuffleTo_local (E := E) rand a k fun i hi => (hr i (by omega)).1
    have h1 := mu_bind_le (q := shuffleTo rand a k) (f := fun b rest => (rand ((k : Int) + 2) rest).bind (step b k)) hE (B k) r2 n hl
      (fun b m _ hb => by
        obtain ⟨xs, rest, hO, hb⟩ := hb
        have hp := ((shuffleTo_perm rand a k (by omega) (fun i hi => hr' i (by omega)) xs hO).2 b rest hb).1
        have := mu_bind_le (q := rand ((k : Int) + 2)) (f := step b k) hE 0 le_rfl m r1 (fun j i _ hj => by
          obtain ⟨ys, rest', hO', hj⟩ := hj
          obtain ⟨c, -, hs⟩ := step_done b k (by rw [hp.length_eq]; omega) j (((hr' k (by omega) ys hO').2 j rest' hj).1)
          rw [hs]
          exact (mu_done E c i).le)
        rw [add_zero] at this
        exact this.trans (r3 m))
    exact h1.trans (add_le_add_left (ih (by omega) (fun i hi => hr i (by omega)) (fun i hi => hr' i (by omega)) n) _)

end Program
end Boost.Random
