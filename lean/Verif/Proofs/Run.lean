import Verif.Spec.Run
import Mathlib.Tactic.Common

namespace Boost.Random
open Spec
variable {σ α : Type} {next : σ → Option (α × σ)}

theorem run_succ_of {s s' : σ} {v : α} (h : next s = some (v, s')) (n : Nat) :
    run next (n + 1) s = (run next n s').map fun p => (v :: p.1, p.2) := by
  simp only [run, h, Option.bind_eq_bind, Option.bind_some]
  cases run next n s' <;> rfl

theorem run_add (m n : Nat) (s : σ) :
    run next (m + n) s = (run next m s).bind fun p =>
      (run next n p.2).map fun q => (p.1 ++ q.1, q.2) := by
  induction m generalizing s with
  | zero => simp [run]
  | succ m ih =>
    rw [show m + 1 + n = m + n + 1 by omega]
    cases h : next s with
    | none => simp [run, h]
    | some p =>
      rw [run_succ_of h, run_succ_of h, ih]
      cases run next m p.2 with
      | none => rfl
      | some q => simp [Option.map_map]; rfl

theorem stateAfter_add (m n : Nat) (s : σ) :
    stateAfter next (m + n) s = (stateAfter next m s).bind (stateAfter next n) := by
  simp only [stateAfter, run_add]
  cases run next m s with
  | none => rfl
  | some p => simp [Option.map_map]; rfl

theorem stateAfter_zero (s : σ) : stateAfter next 0 s = some s := rfl

theorem stateAfter_one (s : σ) : stateAfter next 1 s = (next s).map Prod.snd := by
  simp only [stateAfter, run]
  cases next s <;> rfl

/-- With an invariant under which `next` is a total function, `run` follows its iterates. -/
theorem run_total {I : σ → Prop} (h : ∀ s, I s → ∃ v s', next s = some (v, s') ∧ I s') (s : σ) (hs : I s) :
    ∃ (S : Nat → σ) (V : Nat → α), S 0 = s ∧ (∀ n, I (S n)) ∧ (∀ n, next (S n) = some (V n, S (n + 1))) ∧
      ∀ n, run next n s = some ((List.range n).map V, S n) := by
  classical
  have hf : ∀ t : {s // I s}, ∃ p : α × {s // I s}, next t.1 = some (p.1, p.2.1) := fun t => by
    obtain ⟨v, s', e, i⟩ := h t.1 t.2
    exact ⟨(v, ⟨s', i⟩), e⟩
  choose f hf using hf
  let S : Nat → {s // I s} := fun n => n.rec ⟨s, hs⟩ fun _ t => (f t).2
  refine ⟨fun n => (S n).1, fun n => (f (S n)).1, rfl, fun n => (S n).2, fun n => hf (S n), fun n => ?_⟩
  induction n with
  | zero => rfl
  | succ n ih =>
    rw [run_add, ih, Option.bind_some, run_succ_of (hf (S n)), List.range_succ]
    simp [run, S]

/-- A simulation between two runs. -/
theorem sameFuture_of {R : σ → σ → Prop}
    (h : ∀ a b, R a b → ∃ v a' b', next a = some (v, a') ∧ next b = some (v, b') ∧ R a' b')
    {a b : σ} (hab : R a b) : SameFuture next a b := by
  intro n
  induction n generalizing a b with
  | zero => rfl
  | succ n ih =>
    obtain ⟨v, a', b', ha, hb, hr⟩ := h a b hab
    rw [run_succ_of ha, run_succ_of hb]
    have := ih hr
    revert this
    cases run next n a' <;> cases run next n b' <;> simp

end Boost.Random

namespace Boost.Random
open Spec
variable {σ α : Type} {next : σ → Option (α × σ)}

theorem SameFuture.refl (a : σ) : SameFuture next a a := fun _ => rfl
theorem SameFuture.symm {a b : σ} (h : SameFuture next a b) : SameFuture next b a := fun n => (h n).symm
theorem SameFuture.trans {a b c : σ} (h : SameFuture next a b) (h' : SameFuture next b c) :
    SameFuture next a c := fun n => (h n).trans (h' n)

theorem run_one (s : σ) : run next 1 s = (next s).map fun p => ([p.1], p.2) := by
  simp only [run]
  cases next s <;> rfl

/-- States with the same future step to states with the same future. -/
theorem SameFuture.step {a b : σ} (h : SameFuture next a b) :
    (next a = none ∧ next b = none) ∨
      ∃ v a' b', next a = some (v, a') ∧ next b = some (v, b') ∧ SameFuture next a' b' := by
  have h1 := h 1
  rw [run_one, run_one] at h1
  cases ha : next a with
  | none =>
    rw [ha] at h1
    cases hb : next b with
    | none => exact Or.inl ⟨rfl, rfl⟩
    | some q => rw [hb] at h1; simp at h1
  | some p =>
    rw [ha] at h1
    cases hb : next b with
    | none => rw [hb] at h1; simp at h1
    | some q =>
      rw [hb] at h1
      obtain ⟨v, a'⟩ := p
      obtain ⟨u, b'⟩ := q
      simp only [Option.map_some, Option.some.injEq, List.cons.injEq, and_true] at h1
      subst h1
      refine Or.inr ⟨v, a', b', rfl, rfl, fun n => ?_⟩
      have := h (n + 1)
      rw [run_succ_of ha, run_succ_of hb] at this
      revert this
      cases run next n a' <;> cases run next n b' <;> simp

/-- A simulation, allowing undefined behaviour on both sides at once. -/
theorem sameFuture_of' {R : σ → σ → Prop}
    (h : ∀ a b, R a b → (next a = none ∧ next b = none) ∨
      ∃ v a' b', next a = some (v, a') ∧ next b = some (v, b') ∧ R a' b')
    {a b : σ} (hab : R a b) : SameFuture next a b := by
  intro n
  induction n generalizing a b with
  | zero => rfl
  | succ n ih =>
    rcases h a b hab with ⟨ha, hb⟩ | ⟨v, a', b', ha, hb, hr⟩
    · simp [run, ha, hb]
    · rw [run_succ_of ha, run_succ_of hb]
      have := ih hr
      revert this
      cases run next n a' <;> cases run next n b' <;> simp

end Boost.Random
