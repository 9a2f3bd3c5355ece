import Verif.Model.LaggedFibonacci
import Verif.Proofs.Run

/-!
# Engines that produce their values in blocks

A table refilled in place follows the infinite sequence defined by the recurrence.
-/

namespace Boost.Random
open Spec

variable {α : Type}

/-- The sequence that starts with the table and continues by the recurrence `G`, a function of the `N`
preceding values. -/
def blockSeq (d : α) (N : Nat) (G : (Nat → α) → α) (x : List α) (n : Nat) : α :=
  if n < N then x.getD n d else G fun j => if _h : n - N + j < n then blockSeq d N G x (n - N + j) else d
termination_by n

theorem blockSeq_lt (d : α) (N : Nat) (G : (Nat → α) → α) (x : List α) {n : Nat} (h : n < N) :
    blockSeq d N G x n = x.getD n d := by
  rw [blockSeq, if_pos h]

theorem blockSeq_add (d : α) (N : Nat) (hN : 0 < N) (G : (Nat → α) → α)
    (hG : ∀ f g : Nat → α, (∀ j < N, f j = g j) → G f = G g) (x : List α) (n : Nat) :
    blockSeq d N G x (n + N) = G fun j => blockSeq d N G x (n + j) := by
  rw [blockSeq, if_neg (by omega)]
  apply hG
  intro j hj
  rw [dif_pos (by omega), show n + N - N + j = n + j by omega]

/-- The array during the refill of block `B + 1`: the first `j` elements are new. -/
structure Win (X : Nat → α) (N B j : Nat) (x : List α) : Prop where
  len : x.length = N
  get : ∀ i < N, x[i]? = some (if i < j then X ((B + 1) * N + i) else X (B * N + i))

theorem sweep_win {X : Nat → α} {N B : Nat} (f : Nat → List α → Option α) (n : Nat) : ∀ (a : Nat) (x : List α),
    a + n ≤ N → Win X N B a x →
    (∀ j x, a ≤ j → j < a + n → Win X N B j x → f j x = some (X ((B + 1) * N + j))) →
    ∃ x', sweep f n a x = some x' ∧ Win X N B (a + n) x' := by
  induction n with
  | zero => intro a x _ h _; exact ⟨x, rfl, h⟩
  | succ n ih =>
    intro a x hn h hf
    rw [sweep, hf a x le_rfl (by omega) h, Option.bind_some]
    have h' : Win X N B (a + 1) (x.set a (X ((B + 1) * N + a))) := by
      refine ⟨by simp [h.len], fun i hi => ?_⟩
      rw [List.getElem?_set]
      by_cases hia : a = i
      · subst hia
        rw [if_pos rfl, if_pos (by rw [h.len]; omega), if_pos (by omega)]
      · rw [if_neg hia, h.get i hi]
        by_cases h1 : i < a
        · rw [if_pos h1, if_pos (by omega)]
        · rw [if_neg h1, if_neg (by omega)]
    obtain ⟨x', e, w⟩ := ih (a + 1) _ (by omega) h' (fun j x h1 h2 => hf j x (by omega) (by omega))
    exact ⟨x', e, by rw [show a + (n + 1) = a + 1 + n by omega]; exact w⟩

theorem Win.next {X : Nat → α} {N B : Nat} {x : List α} (h : Win X N B N x) : Win X N (B + 1) 0 x :=
  ⟨h.len, fun i hi => by rw [h.get i hi, if_pos hi, if_neg (by omega)]⟩

/-- The engine is about to return element `t` of the sequence. -/
def BlockAt (X : Nat → α) (N t : Nat) (st : BlockEng α) : Prop :=
  st.i ≤ N ∧ ∃ B, t = B * N + st.i ∧ Win X N B 0 st.x

theorem BlockAt.init {X : Nat → α} {N : Nat} {st : BlockEng α} (hl : st.x.length = N) (hi : st.i ≤ N)
    (h : ∀ j < N, st.x[j]? = some (X j)) : BlockAt X N st.i st :=
  ⟨hi, 0, by simp, hl, fun j hj => by rw [h j hj, if_neg (by omega), Nat.zero_mul, Nat.zero_add]⟩

/-- One call of an engine that refills when it is at the end. -/
theorem block_next {X : Nat → α} {N t : Nat} (hN : 0 < N) {refill : List α → Option (List α)}
    (hr : ∀ B x, Win X N B 0 x → ∃ x', refill x = some x' ∧ Win X N (B + 1) 0 x') {st : BlockEng α}
    (h : BlockAt X N t st) :
    ∃ y, (if st.i ≥ N then (refill st.x).map fun x => (⟨x, 0⟩ : BlockEng α) else some st) = some y ∧
      y.x[y.i]? = some (X t) ∧ BlockAt X N (t + 1) ⟨y.x, y.i + 1⟩ := by
  obtain ⟨hi, B, rfl, hw⟩ := h
  by_cases h : st.i ≥ N
  · obtain ⟨x', e, w⟩ := hr B st.x hw
    have hiN : st.i = N := by omega
    refine ⟨⟨x', 0⟩, by rw [if_pos h, e]; rfl, ?_, ?_⟩
    · rw [w.get 0 hN, if_neg (by omega), hiN, Nat.add_zero, Nat.add_mul, Nat.one_mul]
    · exact ⟨by show 0 + 1 ≤ N; omega, B + 1, by rw [hiN, Nat.add_mul]; show _ = _ + (0 + 1); omega, w⟩
  · refine ⟨st, by rw [if_neg h], ?_, ?_⟩
    · rw [hw.get _ (by omega), if_neg (by omega)]
    · exact ⟨by show st.i + 1 ≤ N; omega, B, by show _ = B * N + (st.i + 1); omega, hw⟩

/-- All calls of such an engine. -/
theorem run_block {σ β : Type} {next : σ → Option (β × σ)} {P : Nat → σ → Prop} {V : Nat → β}
    (h : ∀ t s, P t s → ∃ s', next s = some (V t, s') ∧ P (t + 1) s') (n : Nat) : ∀ (t : Nat) (s : σ), P t s →
    ∃ s', run next n s = some ((List.range n).map fun k => V (t + k), s') ∧ P (t + n) s' := by
  induction n with
  | zero => intro t s hs; exact ⟨s, rfl, hs⟩
  | succ n ih =>
    intro t s hs
    obtain ⟨s1, e1, h1⟩ := h t s hs
    obtain ⟨s2, e2, h2⟩ := ih (t + 1) s1 h1
    refine ⟨s2, ?_, by rw [show t + (n + 1) = t + 1 + n by omega]; exact h2⟩
    rw [run_succ_of e1, e2, Option.map_some, List.range_succ_eq_map, List.map_cons, List.map_map]
    simp only [Option.some.injEq, Prod.mk.injEq, List.cons.injEq, Nat.add_zero, true_and, and_true]
    apply List.map_congr_left
    intro k _
    show V (t + 1 + k) = V (t + (k + 1))
    rw [show t + 1 + k = t + (k + 1) by omega]

end Boost.Random
