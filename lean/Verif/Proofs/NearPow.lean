import Verif.Proofs.BinomialRange

/-!
# Rounding to a power of two
-/

namespace Boost.Random
open Spec RealDist

/-- The smallest number above one. -/
theorem Representable.ge_succ_one {P : Nat} (hP : 1 ≤ P) {x : ℚ} (hx : Representable P x) (h : 1 < x) : 1 + 2 / 2 ^ P ≤ x := by
  obtain ⟨m, e, hm, rfl⟩ := hx
  have hm' : m < 2 ^ P := lt_of_le_of_lt (le_abs_self m) hm
  obtain ⟨Q, rfl⟩ : ∃ Q, P = Q + 1 := ⟨P - 1, by omega⟩
  have hQ : (0 : ℚ) < 2 ^ Q := by positivity
  have hmq : (m : ℚ) < 2 ^ (Q + 1) := by exact_mod_cast hm'
  rcases le_or_gt 0 (e + Q) with h' | h'
  · obtain ⟨d, hd⟩ := Int.eq_ofNat_of_zero_le h'
    have he : e = d - Q := by omega
    rw [he, zpow_sub₀ (by norm_num), zpow_natCast, zpow_natCast] at h ⊢
    rw [mul_div_assoc', lt_div_iff₀ hQ, one_mul] at h
    have h2 : (2 ^ Q : Int) < m * 2 ^ d := by exact_mod_cast h
    have h3 : ((2 ^ Q : Int) + 1 : Int) ≤ m * 2 ^ d := h2
    have h4 : (2 : ℚ) ^ Q + 1 ≤ m * 2 ^ d := by exact_mod_cast h3
    rw [mul_div_assoc', le_div_iff₀ hQ, add_mul, pow_succ]
    have : 2 / (2 ^ Q * 2) * (2 : ℚ) ^ Q = 1 := by field_simp
    linarith
  · exfalso
    have hle : (2 : ℚ) ^ e ≤ 2 ^ (-((Q + 1 : Nat) : ℤ)) := zpow_le_zpow_right₀ (by norm_num) (by push_cast; omega)
    rw [zpow_neg, zpow_natCast] at hle
    have hpe : (0 : ℚ) < 2 ^ e := by positivity
    have hpp : (0 : ℚ) < 2 ^ (Q + 1) := by positivity
    have : (m : ℚ) * 2 ^ e < 2 ^ (Q + 1) * (2 ^ (Q + 1))⁻¹ := lt_of_lt_of_le (mul_lt_mul_of_pos_right hmq hpe) (mul_le_mul_of_nonneg_left hle hpp.le)
    rw [mul_inv_cancel₀ hpp.ne'] at this
    linarith

theorem fl_near_pow {P : Nat} (hP : 1 ≤ P) {fl : ℚ → ℚ} (H : Nearest P fl) {x : ℚ} (k : Nat) (h1 : 2 ^ k * (1 - 1 / 2 ^ (P + 1)) < x) (h2 : x < 2 ^ k * (1 + 1 / 2 ^ P)) : fl x = 2 ^ k := by
  have R := Boost.Random.Nearest.rounding H
  have hr : Representable P (2 ^ k) := Representable.two_pow hP k
  have hk : (0 : ℚ) < 2 ^ k := by positivity
  have hy : Representable P (fl x / 2 ^ k) := by
    obtain ⟨m, e, hm, he⟩ := R.repr x
    refine ⟨m, e - k, hm, ?_⟩
    rw [he, zpow_sub₀ (by norm_num), zpow_natCast]
    ring
  have hn := H.nearest x _ hr
  have hp : (0 : ℚ) < 2 ^ P := by positivity
  have e1 : (2 : ℚ) ^ k * (1 - 1 / 2 ^ (P + 1)) = 2 ^ k - 2 ^ k / 2 ^ P / 2 := by rw [pow_succ]; field_simp
  have e2 : (2 : ℚ) ^ k * (1 + 1 / 2 ^ P) = 2 ^ k + 2 ^ k / 2 ^ P := by field_simp
  rw [e1] at h1
  rw [e2] at h2
  rcases lt_trichotomy (fl x) (2 ^ k) with h | h | h
  · exfalso
    have hx : x < 2 ^ k := by
      by_contra hc
      have := R.mono _ _ (not_lt.1 hc)
      rw [R.exact _ hr] at this
      linarith
    have := Representable.le_pred_one hP hy (by rw [div_lt_one hk]; exact h)
    rw [div_le_iff₀ hk] at this
    have e3 : (1 - 1 / 2 ^ P) * 2 ^ k = (2 : ℚ) ^ k - 2 ^ k / 2 ^ P := by field_simp
    rw [abs_of_neg (show x - 2 ^ k < 0 by linarith)] at hn
    have := le_trans (le_abs_self _) hn
    linarith
  · exact h
  · exfalso
    have hx : 2 ^ k < x := by
      by_contra hc
      have := R.mono _ _ (not_lt.1 hc)
      rw [R.exact _ hr] at this
      linarith
    have := Representable.ge_succ_one hP hy (by rw [one_lt_div hk]; exact h)
    rw [le_div_iff₀ hk] at this
    have e3 : (1 + 2 / 2 ^ P) * 2 ^ k = (2 : ℚ) ^ k + 2 * (2 ^ k / 2 ^ P) := by field_simp
    rw [abs_of_pos (show 0 < x - 2 ^ k by linarith)] at hn
    have := le_trans (neg_le_abs _) hn
    linarith

end Boost.Random
