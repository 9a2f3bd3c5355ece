import Verif.Proofs.MtJump
import Mathlib.Algebra.CharP.Lemmas

/-!
# The second term of the characteristic polynomial
-/

namespace Boost.Random
namespace Mt
open Spec Polynomial

variable {P : Params}

/-- The product of the factors. -/
noncomputable def prodPoly (P : Params) : Nat → (ZMod 2)[X]
  | 0 => 1
  | i + 1 => mtFactor P i * prodPoly P i

/-- The rest of the characteristic polynomial. -/
noncomputable def restPoly (P : Params) : Nat → (ZMod 2)[X]
  | 0 => 0
  | i + 1 => mtFactor P i * restPoly P i + if P.a.testBit i then 1 else 0

theorem mtPoly_split : ∀ i, mtPoly P i = prodPoly P i + restPoly P i
  | 0 => by rw [mtPoly, prodPoly, restPoly, add_zero]
  | i + 1 => by rw [mtPoly, prodPoly, restPoly, mtPoly_split i]; ring

theorem factor_eq (hv : MtValid P) (i : Nat) : mtFactor P i = X ^ (if i < P.r then P.m - 1 else P.m) * (X ^ (P.n - P.m) + 1) := by
  have h1 := hv.m_lt; have h2 := hv.m_two
  unfold mtFactor
  split
  · rw [mul_add, mul_one, ← pow_add, show P.m - 1 + (P.n - P.m) = P.n - 1 by omega]
  · rw [mul_add, mul_one, ← pow_add, show P.m + (P.n - P.m) = P.n by omega]

theorem prodPoly_eq (hv : MtValid P) : ∀ i, prodPoly P i = X ^ (i * P.m - min i P.r) * (X ^ (P.n - P.m) + 1) ^ i
  | 0 => by rw [prodPoly, Nat.zero_mul, Nat.zero_sub, pow_zero, pow_zero, mul_one]
  | i + 1 => by
    have h2 := hv.m_two
    have : i ≤ i * P.m := Nat.le_mul_of_pos_right _ (by omega)
    rw [prodPoly, prodPoly_eq hv i, factor_eq hv, show (i + 1) * P.m - min (i + 1) P.r = (if i < P.r then P.m - 1 else P.m) + (i * P.m - min i P.r) by
      rw [Nat.add_mul]; split <;> omega, pow_add, pow_succ]
    ring

theorem restPoly_spec (hv : MtValid P) (ha : P.a.testBit 0 = true) : ∀ i, (restPoly P (i + 1)).Monic ∧ (restPoly P (i + 1)).natDegree + (P.n - 1) = (i + 1) * P.n - min (i + 1) P.r
  | 0 => by
    have h1 := hv.m_lt; have h2 := hv.m_two; have h3 := hv.r_pos
    rw [restPoly, restPoly, mul_zero, zero_add, if_pos ha]
    refine ⟨monic_one, ?_⟩
    rw [natDegree_one]; omega
  | i + 1 => by
    have h1 := hv.m_lt; have h2 := hv.m_two; have h3 := hv.r_pos
    obtain ⟨m1, d1, -⟩ := factor_spec hv (i + 1)
    obtain ⟨m2, d2⟩ := restPoly_spec hv ha i
    have hm := m1.mul m2
    have hd := m1.natDegree_mul m2
    have hge : 2 ≤ (mtFactor P (i + 1) * restPoly P (i + 1)).natDegree := by rw [hd, d1]; split <;> omega
    obtain ⟨q, hq⟩ : ∃ q : (ZMod 2)[X], q = if P.a.testBit (i + 1) then 1 else 0 := ⟨_, rfl⟩
    have hqd : q.natDegree = 0 := by rw [hq]; split <;> simp
    have hlt : q.natDegree < (mtFactor P (i + 1) * restPoly P (i + 1)).natDegree := by omega
    rw [restPoly, ← hq]
    refine ⟨hm.add_of_left (degree_lt_degree hlt), ?_⟩
    rw [natDegree_add_eq_left_of_natDegree_lt hlt, hd, d1]
    have : i + 1 ≤ (i + 1) * P.n := Nat.le_mul_of_pos_right _ (by omega)
    rw [Nat.add_mul (i + 1) 1]
    split <;> omega

/-- With `w` a power of two and `a` odd the second term is `n - 1` below the first. -/
theorem char_gap (hv : MtValid P) {e : Nat} (hw : P.w = 2 ^ e) (ha : P.a.testBit 0 = true) (hg : P.n - 1 < P.w * (P.n - P.m)) : IsGap (mtChar P) (mtBits P) (P.n - 1) := by
  have h1 := hv.m_lt; have h2 := hv.m_two; have h3 := hv.r_pos; have h4 := hv.r_lt
  have hk := n_le_mtBits hv
  obtain ⟨w', hw'⟩ : ∃ w', P.w = w' + 1 := ⟨P.w - 1, by omega⟩
  obtain ⟨m2, d2⟩ := restPoly_spec hv ha w'
  rw [← hw'] at m2 d2
  have hmr : P.w ≤ P.w * P.m := Nat.le_mul_of_pos_right _ (by omega)
  have hnm : P.w * P.n = P.w * P.m + P.w * (P.n - P.m) := by rw [← Nat.mul_add]; congr 1; omega
  have hd2 : (restPoly P P.w).natDegree = mtBits P - (P.n - 1) := by
    rw [mtBits]; omega
  have hprod : prodPoly P P.w = X ^ mtBits P + X ^ (P.w * P.m - P.r) := by
    rw [prodPoly_eq hv, Nat.min_eq_right h4.le]
    conv_lhs => rw [hw]
    rw [add_pow_char_pow, one_pow, ← pow_mul, mul_add, mul_one, ← pow_add, ← hw]
    congr 2
    rw [mtBits, Nat.mul_comm (P.n - P.m)]
    omega
  have hlow : P.w * P.m - P.r < mtBits P - (P.n - 1) := by rw [mtBits]; omega
  have hc : ∀ i, i < mtBits P → mtBits P - (P.n - 1) ≤ i → (mtChar P).coeff i = (restPoly P P.w).coeff i := by
    intro i i1 i2
    rw [mtChar, mtPoly_split, hprod, coeff_add, coeff_add, coeff_X_pow, coeff_X_pow, if_neg (by omega), if_neg (by omega), zero_add, zero_add]
  refine ⟨by omega, fun i i1 i2 => ?_, Or.inr ⟨by omega, ?_⟩⟩
  · rw [hc i i1 (by omega), coeff_eq_zero_of_natDegree_lt (by omega)]
  · rw [hc _ (by omega) le_rfl, ← hd2]
    exact m2

end Mt
end Boost.Random
