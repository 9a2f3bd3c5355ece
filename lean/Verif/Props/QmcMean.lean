import Verif.Proofs.QmcMean
import Verif.Props.Discrepancy

/-!
# Property C165: means over the points of the quasi-random engines
-/

namespace Boost.Random
open Spec Qrng Nb Faure MeasureTheory

/-- C165 for `sobol`: the mean of `f` over an aligned block of `2^m` points (the point zero counted as the first) differs from the integral of `f`
over the unit cube by no more than `f` varies within cubes of side `2^-k`, where the dimension times `k` and `t` are together at most `m`. -/
theorem c165_sobol {dim : Nat} (h0 : 0 < dim) (hmax : dim ≤ 3667) :
    ∃ q vs q', make (sobol 64 64 defaultSobolTable) dim = .ok q ∧ qCalls (sobol 64 64 defaultSobolTable) ((2 ^ 64 - 1) * dim) q = .ok (vs, q') ∧
      ∀ (m c k : Nat) (f : (Fin dim → ℝ) → ℝ) (ω : ℝ), (c + 1) * 2 ^ m ≤ 2 ^ 64 → ∑ d ∈ Finset.range dim, (sobolDegree defaultSobolTable d - 1) + dim * k ≤ m →
        IntegrableOn f (Set.univ.pi fun _ => Set.Ico 0 1) →
        (∀ u v : Fin dim → ℝ, (∀ d, u d ∈ Set.Ico (0 : ℝ) 1) → (∀ d, v d ∈ Set.Ico (0 : ℝ) 1) → (∀ d, |u d - v d| < 1 / 2 ^ k) → |f u - f v| ≤ ω) →
        |(∑ i ∈ Finset.Ico (c * 2 ^ m) ((c + 1) * 2 ^ m), f fun d => (pointOf dim vs i d : ℝ) / 2 ^ 64) / 2 ^ m -
          ∫ u in Set.univ.pi fun _ => Set.Ico 0 1, f u| ≤ ω := by
  obtain ⟨q, vs, q', k1, k2, k3, k4⟩ := c143_sobol h0 hmax
  refine ⟨q, vs, q', k1, k2, fun m c k f ω hc hk hf hω => ?_⟩
  exact Nets.ts_mean (Nets.ts_of_digital (fun d hd => by
    unfold sobolDegree
    split
    · exact le_refl _
    · exact (Sobol.table_irreducible (by omega)).natDegree_pos) k4) (Intersections.digital_lt k4) hc hk hf hω

/-- C165 for `niederreiter_base2`. -/
theorem c165_niederreiter {dim : Nat} (h0 : 0 < dim) (hmax : dim ≤ 4720) :
    ∃ q vs q', make (niederreiter 64 64 defaultNbTable) dim = .ok q ∧ qCalls (niederreiter 64 64 defaultNbTable) ((2 ^ 64 - 1) * dim) q = .ok (vs, q') ∧
      ∀ (m c k : Nat) (f : (Fin dim → ℝ) → ℝ) (ω : ℝ), (c + 1) * 2 ^ m ≤ 2 ^ 64 →
        ∑ d ∈ Finset.range dim, ((ofNat (defaultNbTable.polynomial d)).natDegree - 1) + dim * k ≤ m → IntegrableOn f (Set.univ.pi fun _ => Set.Ico 0 1) →
        (∀ u v : Fin dim → ℝ, (∀ d, u d ∈ Set.Ico (0 : ℝ) 1) → (∀ d, v d ∈ Set.Ico (0 : ℝ) 1) → (∀ d, |u d - v d| < 1 / 2 ^ k) → |f u - f v| ≤ ω) →
        |(∑ i ∈ Finset.Ico (c * 2 ^ m) ((c + 1) * 2 ^ m), f fun d => (pointOf dim vs i d : ℝ) / 2 ^ 64) / 2 ^ m -
          ∫ u in Set.univ.pi fun _ => Set.Ico 0 1, f u| ≤ ω := by
  obtain ⟨q, vs, q', k1, k2, k3, k4⟩ := c66_niederreiter_base2 h0 hmax
  refine ⟨q, vs, q', k1, k2, fun m c k f ω hc hk hf hω => ?_⟩
  exact Nets.ts_mean (Nets.ts_of_digital (fun d hd => by
    have hirr : Irreducible (ofNat (defaultNbTable.polynomial d)) := (table_iff (table_lt d)).1 ⟨d, by omega, rfl⟩
    exact hirr.natDegree_pos) k4) (Intersections.digital_lt k4) hc hk hf hω

/-- C165 for `faure` in exact arithmetic. -/
theorem c165_faure {digits : Nat} (h1 : 1 ≤ digits) (h64 : digits ≤ 64) {dim : Nat} (h0 : 0 < dim) (hdim : dim ≤ 1117) :
    ∃ q b, make (faure id digits faurePrime) dim = .ok q ∧ IsLeastPrime dim b ∧
      ∀ (vs : List ℚ) (q' : Q Binom ℚ) (N m c k : Nat) (f : (Fin dim → ℝ) → ℝ) (ω : ℝ), N ≤ 2 ^ digits →
        qCalls (faure id digits faurePrime) (N * dim) q = .ok (vs, q') → (c + 1) * b ^ m ≤ N → dim * k ≤ m → IntegrableOn f (Set.univ.pi fun _ => Set.Ico 0 1) →
        (∀ u v : Fin dim → ℝ, (∀ d, u d ∈ Set.Ico (0 : ℝ) 1) → (∀ d, v d ∈ Set.Ico (0 : ℝ) 1) → (∀ d, |u d - v d| < 1 / (b : ℝ) ^ k) → |f u - f v| ≤ ω) →
        |(∑ i ∈ Finset.Ico (c * b ^ m) ((c + 1) * b ^ m), f fun d => ((vs.getD (i * dim + d) 0 : ℚ) : ℝ)) / (b : ℝ) ^ m -
          ∫ u in Set.univ.pi fun _ => Set.Ico 0 1, f u| ≤ ω := by
  obtain ⟨q, b, k1, k2, k3⟩ := c72_net h1 h64 h0 hdim
  refine ⟨q, b, k1, k2, fun vs q' N m c k f ω hN hq hc hk hf hω => ?_⟩
  have S := k3 vs q' N hN hq
  exact Nets.mean k2.1.two_le (Nets.faure_net k2.1.two_le h0 fun k a hk ha => S k a m c hk hc ha)
    (fun i hi d hd => Nets.faure_unit S (by rw [Finset.mem_Ico] at hi; omega) hd) (by omega) hf
    fun u hu v hv => hω u v (fun d => hu d (Set.mem_univ d)) fun d => hv d (Set.mem_univ d)

/-- The product of the coordinates over the first `2^20` points of `sobol` in two dimensions: the mean is the integral up to 1/512. -/
example : ∃ q vs q', make (sobol 64 64 defaultSobolTable) 2 = .ok q ∧ qCalls (sobol 64 64 defaultSobolTable) ((2 ^ 64 - 1) * 2) q = .ok (vs, q') ∧
    |(∑ i ∈ Finset.Ico (0 * 2 ^ 20) ((0 + 1) * 2 ^ 20), ∏ d : Fin 2, (pointOf 2 vs i d : ℝ) / 2 ^ 64) / 2 ^ 20 -
      ∫ u in Set.univ.pi fun _ : Fin 2 => Set.Ico (0 : ℝ) 1, ∏ d, u d| ≤ 1 / 512 := by
  obtain ⟨q, vs, q', k1, k2, k3⟩ := c165_sobol (dim := 2) (by decide) (by decide)
  refine ⟨q, vs, q', k1, k2, k3 20 0 10 (fun u => ∏ d, u d) (1 / 512) (by decide) (by rw [two_degrees]) ?_ ?_⟩
  · refine Measure.integrableOn_of_bounded (M := 1) ?_ (by fun_prop) ?_
    · rw [Real.volume_pi_Ico]
      exact (ENNReal.prod_lt_top fun d _ => ENNReal.ofReal_lt_top).ne
    · refine (ae_restrict_iff' (MeasurableSet.univ_pi fun _ => measurableSet_Ico)).2 (.of_forall fun u hu => ?_)
      rw [Real.norm_eq_abs, Fin.prod_univ_two]
      have h0 := hu 0 (Set.mem_univ _)
      have h1 := hu 1 (Set.mem_univ _)
      rw [abs_of_nonneg (mul_nonneg h0.1 h1.1)]
      nlinarith [h0.1, h0.2, h1.1, h1.2]
  · intro u v hu hv huv
    simp only [Fin.prod_univ_two]
    have a0 := abs_lt.1 (huv 0)
    have a1 := abs_lt.1 (huv 1)
    have u0 := hu 0
    have u1 := hu 1
    have v0 := hv 0
    have v1 := hv 1
    simp only [Set.mem_Ico] at u0 u1 v0 v1
    have e : u 0 * u 1 - v 0 * v 1 = (u 0 - v 0) * u 1 + v 0 * (u 1 - v 1) := by ring
    rw [e]
    refine (abs_add_le _ _).trans ?_
    rw [abs_mul, abs_mul, abs_of_nonneg u1.1, abs_of_nonneg v0.1]
    have b0 := huv 0
    have b1 := huv 1
    have c0 := abs_nonneg (u 0 - v 0)
    have c1 := abs_nonneg (u 1 - v 1)
    norm_num at b0 b1
    nlinarith

end Boost.Random
