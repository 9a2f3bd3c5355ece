import Verif.Proofs.Binomial
import Verif.Model.Poisson

/-!
# The Poisson distribution: inversion in exact arithmetic
-/

namespace Boost.Random
open Spec Finset

namespace Poisson

theorem poissonPmf_succ (μ : ℝ) (k : Nat) : μ * poissonPmf μ k / (k + 1 : Nat) = poissonPmf μ (k + 1) := by
  unfold poissonPmf
  rw [Nat.factorial_succ, pow_succ]
  have : ((k + 1 : Nat) : ℝ) ≠ 0 := by positivity
  have : (k.factorial : ℝ) ≠ 0 := by positivity
  push_cast at *
  field_simp

/-- The loop stops at the least value whose cumulative probability reaches `u`. -/
theorem invertLoop_exact {μ u : ℝ} (N : Nat) : ∀ (fuel x : Nat), x + fuel = N → (∀ k < x, cdf (poissonPmf μ) k < u) →
    (∃ y, invertLoop exactOps μ fuel x (u - (cdf (poissonPmf μ) x - poissonPmf μ x)) (poissonPmf μ x) = some y ∧
      y ≤ N ∧ IsLeast {k | u ≤ cdf (poissonPmf μ) k} y) ∨
    (invertLoop exactOps μ fuel x (u - (cdf (poissonPmf μ) x - poissonPmf μ x)) (poissonPmf μ x) = none ∧ ∀ k ≤ N, cdf (poissonPmf μ) k < u) := by
  have fin : ∀ x, u ≤ cdf (poissonPmf μ) x → (∀ k < x, cdf (poissonPmf μ) k < u) → IsLeast {k | u ≤ cdf (poissonPmf μ) k} x := by
    intro x hx hlt
    refine ⟨hx, fun k hk => ?_⟩
    by_contra hkx
    exact absurd hk (not_le.2 (hlt k (by omega)))
  intro fuel
  induction fuel with
  | zero =>
    intro x hN hlt
    rw [invertLoop]
    by_cases h : u - (cdf (poissonPmf μ) x - poissonPmf μ x) > poissonPmf μ x
    · rw [if_pos h]
      refine Or.inr ⟨rfl, fun k hk => ?_⟩
      rcases Nat.lt_or_ge k x with h' | h'
      · exact hlt k h'
      · obtain rfl : k = x := by omega
        linarith
    · rw [if_neg h]
      exact Or.inl ⟨x, rfl, by omega, fin x (by linarith) hlt⟩
  | succ n ih =>
    intro x hN hlt
    rw [invertLoop]
    by_cases h : u - (cdf (poissonPmf μ) x - poissonPmf μ x) > poissonPmf μ x
    · rw [if_pos h]
      have e1 : exactOps.fl (u - (cdf (poissonPmf μ) x - poissonPmf μ x) - poissonPmf μ x) =
          u - (cdf (poissonPmf μ) (x + 1) - poissonPmf μ (x + 1)) := by
        rw [cdf_succ]; simp only [exactOps, id]; ring
      have e2 : exactOps.fl (exactOps.fl (μ * poissonPmf μ x) / exactOps.fl (x + 1 : Nat)) = poissonPmf μ (x + 1) := by
        simp only [exactOps, id]; exact poissonPmf_succ μ x
      rw [e1, e2]
      refine ih (x + 1) (by omega) fun k hk => ?_
      rcases Nat.lt_or_ge k x with h' | h'
      · exact hlt k h'
      · obtain rfl : k = x := by omega
        linarith
    · rw [if_neg h]
      exact Or.inl ⟨x, rfl, by omega, fin x (by linarith) hlt⟩

theorem invert_exact {μ u : ℝ} {bits : Nat} :
    (∃ y, invert exactOps bits μ (Real.exp (-μ)) u = some y ∧ y < 2 ^ (bits - 1) ∧ IsLeast {k | u ≤ cdf (poissonPmf μ) k} y) ∨
    (invert exactOps bits μ (Real.exp (-μ)) u = none ∧ ∀ k < 2 ^ (bits - 1), cdf (poissonPmf μ) k < u) := by
  have h := invertLoop_exact (μ := μ) (u := u) (2 ^ (bits - 1) - 1) (2 ^ (bits - 1) - 1) 0 (by omega) (by omega)
  have e : poissonPmf μ 0 = Real.exp (-μ) := by simp [poissonPmf]
  have e' : cdf (poissonPmf μ) 0 = Real.exp (-μ) := by simp [cdf, e]
  have hb : 0 < 2 ^ (bits - 1) := by positivity
  rw [e, e', sub_self, sub_zero] at h
  rcases h with ⟨y, h1, h2, h3⟩ | ⟨h1, h2⟩
  · exact Or.inl ⟨y, h1, by omega, h3⟩
  · exact Or.inr ⟨h1, fun k hk => h2 k (by omega)⟩

end Poisson
end Boost.Random
