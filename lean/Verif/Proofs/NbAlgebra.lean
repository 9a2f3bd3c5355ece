import Verif.Proofs.MtChar
import Mathlib.RingTheory.PrincipalIdealDomain
import Mathlib.RingTheory.Coprime.Lemmas
import Mathlib.Algebra.Polynomial.FieldDivision
import Mathlib.LinearAlgebra.Matrix.Rank
import Mathlib.Algebra.Group.Basic

/-!
# Sequences annihilated by powers of irreducible polynomials
-/

namespace Boost.Random
namespace Nb
open Polynomial Mt

/-- A sequence that a monic polynomial annihilates and that begins with enough zeros is zero. -/
theorem eq_zero_of_prefix {q : (ZMod 2)[X]} (hq : q.Monic) {b : ℕ → ZMod 2} (ha : aeval shiftSeq q b = 0) (h : ∀ t < q.natDegree, b t = 0) : b = 0 := by
  funext t
  induction t using Nat.strong_induction_on with
  | _ t ih =>
    by_cases ht : t < q.natDegree
    · exact h t ht
    · have h1 := congrFun ha (t - q.natDegree)
      rw [aeval_sum q (Nat.lt_succ_self _), Finset.sum_range_succ, hq.coeff_natDegree, one_mul, show t - q.natDegree + q.natDegree = t by omega,
        Finset.sum_eq_zero (fun i hi => ?_), zero_add] at h1
      · exact h1
      · rw [Finset.mem_range] at hi
        rw [ih _ (by omega), Pi.zero_apply, mul_zero]

/-- What two coprime polynomials annihilate is zero. -/
theorem eq_zero_of_coprime {p q : (ZMod 2)[X]} (h : IsCoprime p q) {b : ℕ → ZMod 2} (hp : aeval shiftSeq p b = 0) (hq : aeval shiftSeq q b = 0) : b = 0 := by
  obtain ⟨u, v, huv⟩ := h
  have : aeval shiftSeq (u * p + v * q) b = 0 := by
    rw [map_add, map_mul, map_mul, LinearMap.add_apply, Module.End.mul_apply, Module.End.mul_apply, hp, hq, map_zero, map_zero, add_zero]
  rwa [huv, map_one, Module.End.one_apply] at this

/-- Multiples annihilate too. -/
theorem aeval_zero_of_dvd {p q : (ZMod 2)[X]} (h : p ∣ q) {b : ℕ → ZMod 2} (hp : aeval shiftSeq p b = 0) : aeval shiftSeq q b = 0 := by
  obtain ⟨r, rfl⟩ := h
  rw [mul_comm, map_mul, Module.End.mul_apply, hp, map_zero]

theorem aeval_comm (p q : (ZMod 2)[X]) (b : ℕ → ZMod 2) : aeval shiftSeq p (aeval shiftSeq q b) = aeval shiftSeq q (aeval shiftSeq p b) := by
  rw [← Module.End.mul_apply, ← Module.End.mul_apply, ← map_mul, ← map_mul, mul_comm]

/-- One polynomial: the sequences `V 0, V 1, ...` with `p^(m+1)` but not `p^m` annihilating `V m` are independent over the polynomials of degree
below that of `p`. -/
theorem coeffs_zero {p : (ZMod 2)[X]} (hp : Irreducible p) {V : ℕ → ℕ → ZMod 2} (h1 : ∀ m, aeval shiftSeq (p ^ (m + 1)) (V m) = 0)
    (h2 : ∀ m, aeval shiftSeq (p ^ m) (V m) ≠ 0) (c : ℕ → (ZMod 2)[X]) (hc : ∀ m, (c m).degree < p.degree) :
    ∀ k, ∑ m ∈ Finset.range k, aeval shiftSeq (c m) (V m) = 0 → ∀ m < k, c m = 0 := by
  intro k
  induction k with
  | zero => intro _ m hm; omega
  | succ k ih =>
    intro hs
    have hk : c k = 0 := by
      by_contra hne
      have hcop : IsCoprime p (c k) := by
        rw [hp.coprime_iff_not_dvd]
        exact fun hd => absurd (degree_le_of_dvd hd hne) (not_le.2 (hc k))
      -- `p^k * c k` annihilates `V k`
      have e1 : aeval shiftSeq (p ^ k) (aeval shiftSeq (c k) (V k)) = 0 := by
        have := congrArg (aeval shiftSeq (p ^ k)) hs
        rw [Finset.sum_range_succ, map_add, map_sum, map_zero, Finset.sum_eq_zero (fun m hm => ?_), zero_add] at this
        · exact this
        · rw [Finset.mem_range] at hm
          rw [aeval_comm, aeval_zero_of_dvd (pow_dvd_pow p hm) (h1 m), map_zero]
      apply h2 k
      refine eq_zero_of_coprime hcop ?_ ?_
      · rw [← Module.End.mul_apply, ← map_mul, ← pow_succ']
        exact h1 k
      · rw [aeval_comm]; exact e1
    have := hs
    rw [Finset.sum_range_succ, hk, map_zero, LinearMap.zero_apply, add_zero] at this
    intro m hm
    by_cases he : m = k
    · rw [he, hk]
    · exact ih this m (by omega)

/-- Several polynomials, and only a beginning of the sequences. -/
theorem all_coeffs_zero {ι : Type} (s : Finset ι) {p : ι → (ZMod 2)[X]} (hp : ∀ d ∈ s, Irreducible (p d)) (hm : ∀ d ∈ s, (p d).Monic)
    (hd : ∀ d ∈ s, ∀ d' ∈ s, p d = p d' → d = d') {V : ι → ℕ → ℕ → ZMod 2}
    (h1 : ∀ d ∈ s, ∀ m, aeval shiftSeq (p d ^ (m + 1)) (V d m) = 0) (h2 : ∀ d ∈ s, ∀ m, aeval shiftSeq (p d ^ m) (V d m) ≠ 0)
    (c : ι → ℕ → (ZMod 2)[X]) (hc : ∀ d ∈ s, ∀ m, (c d m).degree < (p d).degree) (k : ι → ℕ) {M : ℕ} (hM : ∑ d ∈ s, k d * (p d).natDegree ≤ M)
    (hz : ∀ t < M, (∑ d ∈ s, ∑ m ∈ Finset.range (k d), aeval shiftSeq (c d m) (V d m)) t = 0) : ∀ d ∈ s, ∀ m < k d, c d m = 0 := by
  classical
  have hF : ∀ d ∈ s, aeval shiftSeq (p d ^ k d) (∑ m ∈ Finset.range (k d), aeval shiftSeq (c d m) (V d m)) = 0 := by
    intro d hds
    rw [map_sum, Finset.sum_eq_zero (fun m hm => ?_)]
    rw [Finset.mem_range] at hm
    rw [aeval_comm, aeval_zero_of_dvd (pow_dvd_pow _ hm) (h1 d hds m), map_zero]
  have hmon : (∏ d ∈ s, p d ^ k d).Monic := monic_prod_of_monic _ _ fun d hds => (hm d hds).pow _
  have hdeg : (∏ d ∈ s, p d ^ k d).natDegree = ∑ d ∈ s, k d * (p d).natDegree := by
    rw [natDegree_prod_of_monic _ _ fun d hds => (hm d hds).pow _]
    exact Finset.sum_congr rfl fun d hds => (hm d hds).natDegree_pow _
  have hzero : (∑ d ∈ s, ∑ m ∈ Finset.range (k d), aeval shiftSeq (c d m) (V d m)) = 0 := by
    refine eq_zero_of_prefix hmon ?_ (fun t ht => hz t (by omega))
    rw [map_sum]
    exact Finset.sum_eq_zero fun d hds => aeval_zero_of_dvd (Finset.dvd_prod_of_mem _ hds) (hF d hds)
  intro d hds
  refine coeffs_zero (hp d hds) (h1 d hds) (h2 d hds) (c d) (hc d hds) (k d) ?_
  have hcop : IsCoprime (p d ^ k d) (∏ d' ∈ s.erase d, p d' ^ k d') := by
    refine IsCoprime.prod_right fun d' hd' => IsCoprime.pow ?_
    rw [Finset.mem_erase] at hd'
    rw [(hp d hds).coprime_iff_not_dvd]
    intro hdvd
    have hassoc := (hp d hds).associated_of_dvd (hp d' hd'.2) hdvd
    exact hd'.1 (hd d hds d' hd'.2 (eq_of_monic_of_associated (hm d hds) (hm d' hd'.2) hassoc)).symm
  refine eq_zero_of_coprime hcop (hF d hds) ?_
  have h0 : aeval shiftSeq (∏ d' ∈ s.erase d, p d' ^ k d') (∑ d' ∈ s.erase d, ∑ m ∈ Finset.range (k d'), aeval shiftSeq (c d' m) (V d' m)) = 0 := by
    rw [map_sum]
    exact Finset.sum_eq_zero fun d' hd' => aeval_zero_of_dvd (Finset.dvd_prod_of_mem _ hd') (hF d' (Finset.mem_of_mem_erase hd'))
  have := congrArg (aeval shiftSeq (∏ d' ∈ s.erase d, p d' ^ k d')) hzero
  rwa [← Finset.add_sum_erase _ _ hds, map_add, map_zero, h0, add_zero] at this

end Nb
end Boost.Random
