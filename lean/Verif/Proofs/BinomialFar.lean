import Verif.Proofs.StirlingTable
import Verif.Proofs.BinomialBtrd

/-!
# The tests with Stirling's formula, in exact arithmetic
-/

namespace Boost.Random
open Spec Stirling

namespace Binomial

/-- The function `fc` is the error of Stirling's formula for `k + 1`. -/
theorem fc_value (k : Nat) : |fc exactOps k - stirlingError (k + 1)| ≤ 31 / 10 ^ 12 := by
  unfold fc
  rcases Nat.lt_or_ge k (fcTable : List ℝ).length with h | h
  · rw [List.getElem?_eq_getElem h]
    exact (fcTable_values k h).trans (by norm_num)
  · rw [List.getElem?_eq_none h]
    have h10 : 10 ≤ k := h
    obtain ⟨h1, h2⟩ := stirlingError_bounds (n := k + 1) (by omega)
    have e : (exactOps.fl (exactOps.fl (exactOps.fl (1 / 12) - exactOps.fl (exactOps.fl (exactOps.fl (1 / 360) - exactOps.fl (exactOps.fl (1 / 1260) *
        exactOps.fl (exactOps.fl (1 / exactOps.fl ((k : ℝ) + 1)) * exactOps.fl (1 / exactOps.fl ((k : ℝ) + 1))))) *
        exactOps.fl (exactOps.fl (1 / exactOps.fl ((k : ℝ) + 1)) * exactOps.fl (1 / exactOps.fl ((k : ℝ) + 1))))) * exactOps.fl (1 / exactOps.fl ((k : ℝ) + 1)))) =
        stirlingSeries ((k + 1 : Nat) : ℝ) := by
      simp only [exactOps, id, stirlingSeries]
      have : (k : ℝ) + 1 ≠ 0 := by positivity
      push_cast
      field_simp
      ring
    dsimp only
    rw [e]
    have h3 : 1 / (1680 * ((k + 1 : Nat) : ℝ) ^ 7) ≤ 31 / 10 ^ 12 := by
      have : (11 : ℝ) ≤ ((k + 1 : Nat) : ℝ) := by exact_mod_cast (by omega : 11 ≤ k + 1)
      have : (11 : ℝ) ^ 7 ≤ ((k + 1 : Nat) : ℝ) ^ 7 := pow_le_pow_left₀ (by norm_num) this 7
      rw [div_le_div_iff₀ (by positivity) (by norm_num)]
      norm_num at *
      linarith
    rw [abs_le]
    constructor <;> linarith

/-- The logarithm of a factorial in the form used by the code. -/
theorem log_factorial (k : Nat) : Real.log k.factorial = (k + 1 / 2) * Real.log (k + 1 : Nat) - (k + 1 : Nat) + Real.log (2 * Real.pi) / 2 + stirlingError (k + 1) := by
  unfold stirlingError
  rw [log_fact_step]
  push_cast
  ring

theorem log_binPmf {t k : Nat} {p : ℝ} (h0 : 0 < p) (h1 : p < 1) (hk : k ≤ t) :
    Real.log (binPmf t p k) = Real.log t.factorial - Real.log k.factorial - Real.log (t - k).factorial + k * Real.log p + (t - k) * Real.log (1 - p) := by
  unfold binPmf
  have hq : 0 < 1 - p := by linarith
  have hc : (t.choose k : ℝ) = t.factorial / (k.factorial * (t - k).factorial) := by
    rw [Nat.cast_choose ℝ hk]
  rw [hc, Real.log_mul (by positivity) (by positivity), Real.log_mul (by positivity) (by positivity), Real.log_div (by positivity) (by positivity),
    Real.log_mul (by positivity) (by positivity), Real.log_pow, Real.log_pow, Nat.cast_sub hk]
  ring

/-- The last comparison is with the logarithm of the ratio of the probabilities. -/
theorem finalBound_value {t m k : Nat} {p : ℝ} (h0 : 0 < p) (h1 : p < 1) (hm : m ≤ t) (hk : k ≤ t) :
    |finalBound exactOps (btrd exactOps t p) t m k - Real.log (binPmf t p k / binPmf t p m)| ≤ 124 / 10 ^ 12 := by
  have f1 := fc_value m
  have f2 := fc_value (t - m)
  have f3 := fc_value k
  have f4 := fc_value (t - k)
  have hq : 0 < 1 - p := by linarith
  rw [Real.log_div (binPmf_pos h0 h1 hk).ne' (binPmf_pos h0 h1 hm).ne', log_binPmf h0 h1 hk, log_binPmf h0 h1 hm,
    log_factorial k, log_factorial m, log_factorial (t - k), log_factorial (t - m)]
  have e : finalBound exactOps (btrd exactOps t p) t m k = (m + 1 / 2) * (Real.log (m + 1 : Nat) - Real.log p + Real.log (1 - p) - Real.log (t - m + 1 : Nat))
      + fc exactOps m + fc exactOps (t - m) + (t + 1) * (Real.log (t - m + 1 : Nat) - Real.log (t - k + 1 : Nat))
      + (k + 1 / 2) * (Real.log (t - k + 1 : Nat) + Real.log p - Real.log (1 - p) - Real.log (k + 1 : Nat)) - fc exactOps k - fc exactOps (t - k) := by
    unfold finalBound
    generalize fc exactOps m = F1 at *
    generalize fc exactOps (t - m) = F2 at *
    generalize fc exactOps k = F3 at *
    generalize fc exactOps (t - k) = F4 at *
    simp only [exactOps, id, btrd]
    rw [Real.log_div (by positivity) (by positivity), Real.log_mul (by positivity) (by positivity), Real.log_div (by positivity) (by positivity),
      Real.log_div (by positivity) (by positivity), Real.log_div (by positivity) (by positivity), Real.log_mul (by positivity) (by positivity), Real.log_div (by positivity) (by positivity)]
    push_cast
    ring
  rw [e]
  rw [abs_le] at *
  have c1 : ((t - m + 1 : Nat) : ℝ) = t - m + 1 := by push_cast [Nat.cast_sub hm]; ring
  have c2 : ((t - k + 1 : Nat) : ℝ) = t - k + 1 := by push_cast [Nat.cast_sub hk]; ring
  have c3 : ((t - m : Nat) : ℝ) = t - m := by push_cast [Nat.cast_sub hm]; ring
  have c4 : ((t - k : Nat) : ℝ) = t - k := by push_cast [Nat.cast_sub hk]; ring
  generalize Real.log (t - m + 1 : Nat) = A at *
  generalize Real.log (t - k + 1 : Nat) = B at *
  rw [c1, c2, c3, c4]
  push_cast
  generalize stirlingError (m + 1) = S1 at *
  generalize stirlingError (t - m + 1) = S2 at *
  generalize stirlingError (k + 1) = S3 at *
  generalize stirlingError (t - k + 1) = S4 at *
  constructor
  · linarith [f1.1, f2.1, f3.2, f4.2]
  · linarith [f1.2, f2.2, f3.1, f4.1]

end Binomial

namespace Poisson

theorem poissonPmf_pos {μ : ℝ} (h : 0 < μ) (k : Nat) : 0 < poissonPmf μ k := by
  unfold poissonPmf; positivity

theorem log_poissonPmf {μ : ℝ} (h : 0 < μ) (k : Nat) : Real.log (poissonPmf μ k) = k * Real.log μ - μ - Real.log k.factorial := by
  unfold poissonPmf
  rw [Real.log_div (by positivity) (by positivity), Real.log_mul (by positivity) (by positivity), Real.log_exp, Real.log_pow]
  ring

/-- The constant of the code. -/
theorem log_sqrt_two_pi : |(91893853320467267 / 10 ^ 17 : ℝ) - Real.log (2 * Real.pi) / 2| ≤ 1 / 10 ^ 16 := by
  have h := stirlingError_value 20 (n := 1) (j := 149) (by decide) (by decide) 81061466795327330000000000000 (10 ^ 14) (by decide +kernel) (by decide +kernel)
  have e : stirlingError 1 = 1 - Real.log (2 * Real.pi) / 2 := by simp [stirlingError]; ring
  rw [e] at h
  norm_num at h
  rw [abs_le] at *
  constructor
  · linarith [h.2]
  · linarith [h.1]

theorem largeBound_value {μ : ℝ} (h : 0 < μ) {k : Nat} (hk : 10 ≤ k) :
    |largeBound exactOps μ k - Real.log (Real.sqrt μ) - Real.log (poissonPmf μ k)| ≤ 6 / 10 ^ 11 := by
  have hk0 : (0 : ℝ) < k := by exact_mod_cast (by omega : 0 < k)
  obtain ⟨h1, h2⟩ := stirlingError_bounds (n := k) (by omega)
  have h3 : 1 / (1680 * (k : ℝ) ^ 7) ≤ 598 / 10 ^ 13 := by
    have : (10 : ℝ) ≤ k := by exact_mod_cast hk
    have : (10 : ℝ) ^ 7 ≤ (k : ℝ) ^ 7 := pow_le_pow_left₀ (by norm_num) this 7
    rw [div_le_div_iff₀ (by positivity) (by norm_num)]
    norm_num at *
    linarith
  have hs := log_sqrt_two_pi
  have e : largeBound exactOps μ k = (k + 1 / 2) * (Real.log μ - Real.log k) - μ - 91893853320467267 / 10 ^ 17 + k - stirlingSeries k := by
    simp only [largeBound, exactOps, id, stirlingSeries]
    rw [Real.log_div h.ne' hk0.ne']
    congr 1
    field_simp
    ring
  rw [e, log_poissonPmf h, Real.log_sqrt h.le]
  have hf : Real.log k.factorial = (k + 1 / 2) * Real.log k - k + Real.log (2 * Real.pi) / 2 + stirlingError k := by unfold stirlingError; ring
  rw [hf]
  rw [abs_le] at *
  constructor <;> linarith [hs.1, hs.2]

theorem smallBound_value {μ : ℝ} (h : 0 < μ) {k : Nat} (hk : k < 10) : |smallBound exactOps μ k - Real.log (poissonPmf μ k)| ≤ 1 / 10 ^ 15 := by
  have := poissonTable_values k hk
  rw [log_poissonPmf h]
  have e : smallBound exactOps μ k = k * Real.log μ - μ - (table : List ℝ)[k]'hk := by
    simp only [smallBound, exactOps, id, logFactorial]
    rw [List.getD_eq_getElem?_getD, List.getElem?_eq_getElem hk, Option.getD_some]
  rw [e]
  rw [abs_le] at *
  constructor <;> linarith [this.1, this.2]

end Poisson
end Boost.Random
