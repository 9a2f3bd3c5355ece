import Verif.Proofs.ExpectedDiscrete
import Verif.Props.Expected
import Verif.Props.Discrete

/-!
# C154: law and running time of `discrete_distribution` with integer weights
-/

namespace Boost.Random
open Spec Discrete Finset

theorem average_eq {WT : IntTy} {ws : List Nat} {d : IntAlias} (H : Holds WT ws d) : ws.sum / ws.length = d.average := by
  have h1 := H.sum
  have h2 := H.excess
  rw [← h1, Nat.mul_comm, Nat.mul_add_div (by omega), Nat.div_eq_of_lt h2, Nat.add_zero]

/-- C154 (time): for all weights of positive sum `S`, a call uses on average at most `A (L (a + 1) / S)` engine values, where `L` is the
number of weights, `a` the integer part of their average and `A` the bound of C152 for a draw below `L` and one below `a + 1`. So the loop
ends with probability one. -/
theorem c154_time (E : EngInfo) (hE : EngOK E) (WT T : IntTy) (hWb : 1 ≤ WT.bits) (hTb : 1 ≤ T.bits) (old : IntAlias) (ws : List Nat)
    (hT : ws.length ≤ T.maxv) (hW : ∀ x ∈ ws, x ≤ WT.maxv) (hs : 0 < ws.sum) :
    ∃ d, IntAlias.init WT T old ws = some d ∧
      (∀ n, meanUsed E (IntAlias.next E WT T d) n ≤
        (2 * (Nat.log (engValues E) (ws.length - 1) + 2 : Nat) + 2 * (Nat.log (engValues E) (ws.sum / ws.length) + 2 : Nat)) *
          ((ws.length * (ws.sum / ws.length + 1) : Nat) / (ws.sum : ℚ))) ∧
      Tends (stillRunning E (IntAlias.next E WT T d)) 0 := by
  have hne : ws ≠ [] := by rintro rfl; simp at hs
  obtain ⟨d, h1, H, _⟩ := init_spec WT T old ws hne hT hW
  rw [average_eq H]
  refine ⟨d, h1, fun n => by rw [meanUsed_eq]; exact mu_next hE hWb hTb H hT hs n, ?_⟩
  have h := tends_zero_of_mul (sigma E (IntAlias.next E WT T d)) _ (sigma_nonneg E hE.lt.le _)
    (fun n => le_trans (sigma_le E hE.lt.le _ n) (mu_next hE hWb hTb H hT hs n))
  intro ε hε
  obtain ⟨m, hm⟩ := h ε hε
  exact ⟨m, fun n hn => by rw [stillRunning_eq]; exact hm n hn⟩

/-- weights 3, 0, 1: the pairs are two thirds accepted, the bound is 12 for a die -/
example : ([3, 0, 1] : List Nat).length ≤ IntTy.maxv ⟨32, true⟩ ∧ 0 < ([3, 0, 1] : List Nat).sum := by decide
#guard (IntAlias.make ⟨32, true⟩ ⟨32, true⟩ [3, 0, 1]).map (fun d => meanUsed die (IntAlias.next die ⟨32, true⟩ ⟨32, true⟩ d) 3) = some (7 / 3)
#guard (IntAlias.make ⟨32, true⟩ ⟨32, true⟩ [3, 0, 1]).map (fun d => stillRunning die (IntAlias.next die ⟨32, true⟩ ⟨32, true⟩ d) 3) = some (1 / 3)
#guard (2 * (Nat.log 6 2 + 2) + 2 * (Nat.log 6 1 + 2)) * (3 * 2) / 4 = 12

/-- C154 (time): if the sum of the weights is at least their number, more than half of the pairs are accepted, so that the bound is at most twice
that of the two draws. -/
theorem c154_twice (E : EngInfo) (hE : EngOK E) (WT T : IntTy) (hWb : 1 ≤ WT.bits) (hTb : 1 ≤ T.bits) (old : IntAlias) (ws : List Nat)
    (hne : ws ≠ []) (hT : ws.length ≤ T.maxv) (hW : ∀ x ∈ ws, x ≤ WT.maxv) (hs : ws.length ≤ ws.sum) :
    ∃ d, IntAlias.init WT T old ws = some d ∧ ∀ n, meanUsed E (IntAlias.next E WT T d) n ≤
      4 * (Nat.log (engValues E) (ws.length - 1) + Nat.log (engValues E) (ws.sum / ws.length) + 4 : Nat) := by
  have hl : 0 < ws.length := List.length_pos_iff.2 hne
  obtain ⟨d, h1, h2, _⟩ := c154_time E hE WT T hWb hTb old ws hT hW (by omega)
  refine ⟨d, h1, fun n => le_trans (h2 n) ?_⟩
  have hsq : (0 : ℚ) < ws.sum := by exact_mod_cast (by omega : 0 < ws.sum)
  have h3 : ((ws.length * (ws.sum / ws.length + 1) : Nat) : ℚ) / (ws.sum : ℚ) ≤ 2 := by
    rw [div_le_iff₀ hsq]
    have h4 : ws.length * (ws.sum / ws.length + 1) ≤ 2 * ws.sum := by
      have := Nat.mul_div_le ws.sum ws.length
      rw [Nat.mul_add, Nat.mul_one]
      omega
    exact_mod_cast h4
  refine le_trans (mul_le_mul_of_nonneg_left h3 (by positivity)) (le_of_eq ?_)
  push_cast
  ring

example : ([3, 0, 1] : List Nat).length ≤ ([3, 0, 1] : List Nat).sum := by decide

/-- C154 (law): a call returns `v` with probability `weight(v) / sum`. -/
theorem c154_law (E : EngInfo) (hE : EngOK E) (WT T : IntTy) (hWb : 1 ≤ WT.bits) (hTb : 1 ≤ T.bits) (old : IntAlias) (ws : List Nat)
    (hT : ws.length ≤ T.maxv) (hW : ∀ x ∈ ws, x ≤ WT.maxv) (hs : 0 < ws.sum) :
    ∃ d, IntAlias.init WT T old ws = some d ∧
      ∀ v, Tends (fun n => returned E (IntAlias.next E WT T d) n v) ((weightOf ws v : ℚ) / ws.sum) := by
  have hne : ws ≠ [] := by rintro rfl; simp at hs
  have hle := hE.lt.le
  obtain ⟨d, h1, H, _⟩ := init_spec WT T old ws hne hT hW
  refine ⟨d, h1, fun v => ?_⟩
  have hsq : (0 : ℚ) < ws.sum := by exact_mod_cast hs
  have hloc := next_local hE hWb hTb H hT hs
  have h2 : ∀ n, ∃ C : ℚ, ∀ u, rho E (IntAlias.next E WT T d) n u = C * weightOf ws u := by
    intro n
    refine ⟨∑ j ∈ range (n + 1), (hits E d (j + 1) j : ℚ) / (E.b : ℚ) ^ j, fun u => ?_⟩
    rw [rho_eq_sum E hle n _ hloc, sum_mul]
    apply sum_congr rfl
    intro j _
    rw [← count_eq_cnt, count_next hE hWb hTb H hT]
    push_cast
    ring
  have h3 : ∀ l : List Nat, l.sum = ∑ v ∈ range l.length, l.getD v 0 := by
    intro l
    induction l with
    | nil => rfl
    | cons x l ih => rw [List.sum_cons, List.length_cons, sum_range_succ', ih, Nat.add_comm]; rfl
  have h4 : (∑ v ∈ range ws.length, (weightOf ws v : ℚ)) = ws.sum := by
    rw [h3 ws]; push_cast; rfl
  have key : ∀ n, returned E (IntAlias.next E WT T d) n v =
      (weightOf ws v : ℚ) / ws.sum - sigma E (IntAlias.next E WT T d) n * ((weightOf ws v : ℚ) / ws.sum) := by
    intro n
    obtain ⟨C, hC⟩ := h2 n
    have h5 := rho_total E hle (IntAlias.next E WT T d) (range ws.length) (fun xs hxs => by
      obtain ⟨a, b⟩ := loop_range hE hWb hTb H hT (xs.length + 1) xs hxs
      exact ⟨a, fun v rest h => mem_range.2 (b v rest h).1⟩) n
    rw [sum_congr rfl (fun u _ => hC u), ← mul_sum, h4] at h5
    rw [returned_eq, hC]
    have h6 : C = (1 - sigma E (IntAlias.next E WT T d) n) / ws.sum := by
      rw [eq_div_iff hsq.ne']; linarith
    rw [h6]
    ring
  have h0 := tends_zero_of_mul (sigma E (IntAlias.next E WT T d)) _ (sigma_nonneg E hle _)
    (fun n => le_trans (sigma_le E hle _ n) (mu_next hE hWb hTb H hT hs n))
  intro ε hε
  obtain ⟨m, h⟩ := h0 ε hε
  refine ⟨m, fun n hn => ?_⟩
  have h5 := h n hn
  have h6 := sigma_nonneg E hle (IntAlias.next E WT T d) n
  rw [sub_zero, abs_of_nonneg h6] at h5
  have hw : (0 : ℚ) ≤ (weightOf ws v : ℚ) / ws.sum := by positivity
  have hw1 : (weightOf ws v : ℚ) / ws.sum ≤ 1 := by
    rw [div_le_one hsq]
    have : weightOf ws v ≤ ws.sum := by
      by_cases hv : v < ws.length
      · rw [h3 ws]
        exact single_le_sum (f := fun v => ws.getD v 0) (fun _ _ => Nat.zero_le _) (mem_range.2 hv)
      · unfold weightOf
        rw [List.getD_eq_getElem?_getD, List.getElem?_eq_none (by omega)]
        exact Nat.zero_le _
    exact_mod_cast this
  simp only []
  rw [key, sub_sub_cancel_left, abs_neg, abs_of_nonneg (mul_nonneg h6 hw)]
  nlinarith

/-- after three rolls of a die: three quarters and a quarter of what has been decided -/
example : 0 < ([3, 0, 1] : List Nat).sum ∧ weightOf [3, 0, 1] 0 = 3 ∧ weightOf [3, 0, 1] 2 = 1 := by decide
#guard (IntAlias.make ⟨32, true⟩ ⟨32, true⟩ [3, 0, 1]).map (fun d => returned die (IntAlias.next die ⟨32, true⟩ ⟨32, true⟩ d) 3 0) = some (1 / 2)
#guard (IntAlias.make ⟨32, true⟩ ⟨32, true⟩ [3, 0, 1]).map (fun d => returned die (IntAlias.next die ⟨32, true⟩ ⟨32, true⟩ d) 3 2) = some (1 / 6)

end Boost.Random
