import Verif.Proofs.BinomialBtrd
import Verif.Model.Poisson

/-!
# The geometric distribution in exact arithmetic
-/

namespace Boost.Random
open Spec

namespace Geometric

theorem log1mp_neg {p : ℝ} (h0 : 0 < p) (h1 : p < 1) : log1mp exactOps p < 0 := Real.log_neg (by linarith : 0 < 1 - p) (by linarith : 1 - p < 1)

/-- The quotient of the logarithms counts the failures. -/
theorem floor_iff {p u : ℝ} (h0 : 0 < p) (h1 : p < 1) (hu : u < 1) (k : Nat) :
    ⌊Real.log (1 - u) / Real.log (1 - p)⌋ = (k : Int) ↔ (1 - p) ^ (k + 1) < 1 - u ∧ 1 - u ≤ (1 - p) ^ k := by
  have hl : Real.log (1 - p) < 0 := log1mp_neg h0 h1
  have hq : 0 < 1 - p := by linarith
  have hx : 0 < 1 - u := by linarith
  rw [Int.floor_eq_iff, Int.cast_natCast, le_div_iff_of_neg hl, div_lt_iff_of_neg hl]
  rw [← Real.log_le_log_iff hx (pow_pos hq k), ← Real.log_lt_log_iff (pow_pos hq (k + 1)) hx, Real.log_pow, Real.log_pow]
  push_cast
  tauto

theorem next_exact {bits : Nat} {p u : ℝ} (h0 : 0 < p) (h1 : p < 1) (hu0 : 0 ≤ u) (hu : u < 1) (vs : List ℝ) :
    (∃ k : Nat, k < 2 ^ (bits - 1) ∧ next exactOps bits p (u :: vs) = .done k vs ∧ (1 - p) ^ (k + 1) < 1 - u ∧ 1 - u ≤ (1 - p) ^ k) ∨
    (next exactOps bits p (u :: vs) = .ub ∧ 1 - u ≤ (1 - p) ^ 2 ^ (bits - 1)) := by
  have hl : Real.log (1 - p) < 0 := log1mp_neg h0 h1
  have hq : 0 < 1 - p := by linarith
  have hx : 0 < 1 - u := by linarith
  unfold next
  dsimp only
  rw [if_neg (log1mp_neg h0 h1).ne, castSigned_int]
  have e : exactOps.fl (exactOps.fl (exactOps.log (exactOps.fl (1 - u))) / log1mp exactOps p) = Real.log (1 - u) / Real.log (1 - p) := rfl
  rw [e]
  have hnn : 0 ≤ Real.log (1 - u) / Real.log (1 - p) := div_nonneg_of_nonpos (Real.log_nonpos hx.le (by linarith)) hl.le
  obtain ⟨k, hk⟩ := Int.eq_ofNat_of_zero_le (Int.floor_nonneg.2 hnn)
  have hf := (floor_iff h0 h1 hu k).1 hk
  rw [hk]
  have hp : (0 : Int) < 2 ^ (bits - 1) := by positivity
  by_cases hb : k < 2 ^ (bits - 1)
  · left
    rw [if_pos ⟨by omega, by exact_mod_cast hb⟩]
    exact ⟨k, hb, rfl, hf⟩
  · right
    rw [if_neg]
    · refine ⟨rfl, hf.2.trans ?_⟩
      exact pow_le_pow_of_le_one hq.le (by linarith) (by omega)
    · intro h
      have := h.2
      exact hb (by exact_mod_cast this)

end Geometric
end Boost.Random
