import Verif.Proofs.FaurePrime
import Verif.Proofs.Canonical

/-!
# Faure engine: how large the rounded coordinates are
-/

namespace Boost.Random
namespace Faure
open Qrng Spec RealDist

/-- The relative error of rounding to nearest. -/
theorem nearest_rel {p : Nat} (hp : 1 ≤ p) {fl : ℚ → ℚ} (H : Nearest p fl) (x : ℚ) : |x - fl x| ≤ |x| / 2 ^ p := by
  refine le_trans (H.nearest x (rn p x) ((rn_nearest hp).repr x)) ?_
  unfold rn
  by_cases h : x = 0
  · rw [if_pos h, h]; simp
  · rw [if_neg h]
    obtain ⟨h1, h2⟩ := Boost.Random.log_bounds h
    have hu := ulp_pos p x
    have e : x - (round (x / ulp p x) : ℚ) * ulp p x = (x / ulp p x - round (x / ulp p x)) * ulp p x := by
      rw [sub_mul, div_mul_cancel₀ _ hu.ne']
    rw [e, abs_mul, abs_of_pos hu]
    have h3 := abs_sub_round (x / ulp p x)
    have h4 : ulp p x * 2 ^ p = 2 * 2 ^ Int.log 2 |x| := by
      unfold ulp
      rw [← zpow_natCast, ← zpow_add₀ (by norm_num), ← zpow_one_add₀ (by norm_num)]
      congr 1
      ring
    rw [le_div_iff₀ (by positivity)]
    calc |x / ulp p x - round (x / ulp p x)| * ulp p x * 2 ^ p = |x / ulp p x - round (x / ulp p x)| * (ulp p x * 2 ^ p) := by ring
      _ ≤ 1 / 2 * (2 * 2 ^ Int.log 2 |x|) := by rw [h4]; exact mul_le_mul_of_nonneg_right h3 (by positivity)
      _ = 2 ^ Int.log 2 |x| := by ring
      _ ≤ |x| := h1

section
variable {fl : ℚ → ℚ} {p b : Nat} (R : Rounding p fl) (hb : 2 ≤ b) (hbp : b < 2 ^ p)
include R hb hbp

omit hb hbp in
theorem fl_nonneg {x : ℚ} (h : 0 ≤ x) : 0 ≤ fl x := by
  have := R.mono 0 x h
  rwa [R.exact 0 (Representable.zero p)] at this

theorem faureFirst_bounds (n : Nat) : 0 ≤ faureFirst fl b n ∧ faureFirst fl b n ≤ 1 := by
  have hb0 : (0 : ℚ) < b := by exact_mod_cast (by omega : 0 < b)
  have hp : 1 ≤ p := by
    by_contra hc
    have : p = 0 := by omega
    subst this
    simp at hbp
    omega
  unfold faureFirst
  induction List.range (Nat.log b n + 1) with
  | nil => simp
  | cons j l ih =>
    rw [List.foldr_cons]
    generalize List.foldr (fun j r => fl (fl (r + (n / b ^ j % b : Nat)) / b)) 0 l = r at ih
    have hd : ((n / b ^ j % b : Nat) : ℚ) + 1 ≤ b := by exact_mod_cast Nat.mod_lt (n / b ^ j) (by omega : 0 < b)
    have hd0 : (0 : ℚ) ≤ ((n / b ^ j % b : Nat) : ℚ) := Nat.cast_nonneg _
    have h1 : fl (r + (n / b ^ j % b : Nat)) ≤ b := by
      have := R.mono (r + (n / b ^ j % b : Nat)) b (by linarith [ih.2])
      rwa [R.exact b (Representable.natCast hbp)] at this
    have h2 := fl_nonneg R (x := r + (n / b ^ j % b : Nat)) (by linarith [ih.1])
    refine ⟨fl_nonneg R (div_nonneg h2 hb0.le), ?_⟩
    have := R.mono (fl (r + (n / b ^ j % b : Nat)) / b) 1 (by rw [div_le_one hb0]; exact h1)
    rwa [R.exact 1 (Representable.one hp)] at this

omit hb hbp in
theorem rr_nonneg (k : Nat) : 0 ≤ rr fl b k := by
  induction k with
  | zero => simp [rr]
  | succ k ih => exact fl_nonneg R (mul_nonneg ih (Nat.cast_nonneg b))

omit hb hbp in
theorem accum_nonneg (Z : Nat → Nat) (k : Nat) : 0 ≤ accum fl b Z k := by
  induction k with
  | zero => simp [accum]
  | succ k ih => exact fl_nonneg R (add_nonneg ih (fl_nonneg R (div_nonneg (Nat.cast_nonneg _) (rr_nonneg R _))))

end

/-! ## The error of the sums -/

section
variable {fl : ℚ → ℚ} {p b : Nat} (hp : 1 ≤ p) (H : Nearest p fl) (hb : 2 ≤ b)
include hp H

theorem fl_bounds {x : ℚ} (h : 0 ≤ x) : x * (1 - 1 / 2 ^ p) ≤ fl x ∧ fl x * (1 - 1 / 2 ^ p) ≤ x := by
  have h1 := nearest_rel hp H x
  rw [abs_of_nonneg h, abs_le] at h1
  have h2 : x / 2 ^ p = x * (1 / 2 ^ p) := by ring
  rw [h2] at h1
  have hu : (0 : ℚ) < 1 / 2 ^ p := by positivity
  have hu1 : (1 : ℚ) / 2 ^ p ≤ 1 := by
    rw [div_le_one (by positivity)]
    exact one_le_pow₀ (by norm_num)
  refine ⟨by linarith [h1.2], ?_⟩
  have h3 : fl x ≤ x * (1 + 1 / 2 ^ p) := by linarith [h1.1]
  calc fl x * (1 - 1 / 2 ^ p) ≤ x * (1 + 1 / 2 ^ p) * (1 - 1 / 2 ^ p) := mul_le_mul_of_nonneg_right h3 (by linarith)
    _ = x - x * (1 / 2 ^ p * (1 / 2 ^ p)) := by ring
    _ ≤ x := by linarith [mul_nonneg h (mul_pos hu hu).le]

theorem factor_bounds : (0 : ℚ) < 1 - 1 / 2 ^ p ∧ (1 : ℚ) - 1 / 2 ^ p ≤ 1 := by
  have hu : (0 : ℚ) < 1 / 2 ^ p := by positivity
  have hu1 : (1 : ℚ) / 2 ^ p < 1 := by
    rw [div_lt_one (by positivity)]
    exact one_lt_pow₀ (by norm_num) (by omega)
  exact ⟨by linarith, by linarith⟩

include hb

theorem rr_lower (k : Nat) : (b : ℚ) ^ k * (1 - 1 / 2 ^ p) ^ k ≤ rr fl b k := by
  obtain ⟨hw, _⟩ := factor_bounds hp H
  have hb0 : (0 : ℚ) < b := by exact_mod_cast (by omega : 0 < b)
  induction k with
  | zero => simp [rr]
  | succ k ih =>
    have h1 := (fl_bounds hp H (x := rr fl b k * b) (mul_nonneg (rr_nonneg (Boost.Random.Nearest.rounding H) k) hb0.le)).1
    rw [rr]
    calc (b : ℚ) ^ (k + 1) * (1 - 1 / 2 ^ p) ^ (k + 1) = ((b : ℚ) ^ k * (1 - 1 / 2 ^ p) ^ k) * b * (1 - 1 / 2 ^ p) := by ring
      _ ≤ rr fl b k * b * (1 - 1 / 2 ^ p) := mul_le_mul_of_nonneg_right (mul_le_mul_of_nonneg_right ih hb0.le) hw.le
      _ ≤ _ := h1

/-- The sum is larger than the sum of the digits by the rounding errors of its operations at most. -/
theorem accum_upper (Z : Nat → Nat) (k : Nat) : accum fl b Z k * (1 - 1 / 2 ^ p) ^ (2 * k + 1) ≤ ∑ i ∈ Finset.range k, (Z i : ℚ) / (b : ℚ) ^ (i + 1) := by
  obtain ⟨hw, hw1⟩ := factor_bounds hp H
  have hb0 : (0 : ℚ) < b := by exact_mod_cast (by omega : 0 < b)
  induction k with
  | zero => simp [accum]
  | succ k ih =>
    have hr := rr_lower hp H hb (k + 1)
    have hpos : (0 : ℚ) < (b : ℚ) ^ (k + 1) * (1 - 1 / 2 ^ p) ^ (k + 1) := by positivity
    have hrp : 0 < rr fl b (k + 1) := lt_of_lt_of_le hpos hr
    have hx : 0 ≤ (Z k : ℚ) / rr fl b (k + 1) := div_nonneg (Nat.cast_nonneg _) hrp.le
    have ha := accum_nonneg (b := b) (Boost.Random.Nearest.rounding H) Z k
    have hf := fl_nonneg (Boost.Random.Nearest.rounding H) hx
    have h1 := (fl_bounds hp H hx).2
    have h2 := (fl_bounds hp H (add_nonneg ha hf)).2
    have h3 : (Z k : ℚ) / rr fl b (k + 1) * (1 - 1 / 2 ^ p) ^ (k + 1) ≤ (Z k : ℚ) / (b : ℚ) ^ (k + 1) := by
      rw [div_mul_eq_mul_div, div_le_div_iff₀ hrp (by positivity)]
      calc (Z k : ℚ) * (1 - 1 / 2 ^ p) ^ (k + 1) * (b : ℚ) ^ (k + 1) = (Z k : ℚ) * ((b : ℚ) ^ (k + 1) * (1 - 1 / 2 ^ p) ^ (k + 1)) := by ring
        _ ≤ (Z k : ℚ) * rr fl b (k + 1) := mul_le_mul_of_nonneg_left hr (Nat.cast_nonneg _)
    have hwk : ∀ m : Nat, (1 - 1 / 2 ^ p : ℚ) ^ m ≤ 1 := fun m => pow_le_one₀ hw.le hw1
    rw [accum, Finset.sum_range_succ]
    generalize hwd : (1 - 1 / 2 ^ p : ℚ) = w at *
    generalize fl ((Z k : ℚ) / rr fl b (k + 1)) = y at *
    calc fl (accum fl b Z k + y) * w ^ (2 * (k + 1) + 1) = fl (accum fl b Z k + y) * w * w ^ (2 * k + 2) := by ring
      _ ≤ (accum fl b Z k + y) * w ^ (2 * k + 2) := mul_le_mul_of_nonneg_right h2 (by positivity)
      _ = accum fl b Z k * w ^ (2 * k + 1) * w + y * w * w ^ (k + 1) * w ^ k := by ring
      _ ≤ accum fl b Z k * w ^ (2 * k + 1) * 1 + (Z k : ℚ) / rr fl b (k + 1) * w ^ (k + 1) * 1 := by
          apply add_le_add
          · exact mul_le_mul_of_nonneg_left hw1 (by positivity)
          · exact mul_le_mul (mul_le_mul_of_nonneg_right h1 (by positivity)) (hwk k) (by positivity) (by positivity)
      _ ≤ _ := by linarith

end

/-! ## Base 2 -/

theorem rr_two {fl : ℚ → ℚ} {p : Nat} (hp : 1 ≤ p) (R : Rounding p fl) (k : Nat) : rr fl 2 k = 2 ^ k := by
  induction k with
  | zero => simp [rr]
  | succ k ih =>
    rw [rr, ih, Nat.cast_two, ← pow_succ, R.exact _ (Representable.two_pow hp _)]

/-- In base 2 no coordinate is above one. -/
theorem accum_two {fl : ℚ → ℚ} {p : Nat} (hp : 1 ≤ p) (H : Nearest p fl) {Z : Nat → Nat} (hZ : ∀ i, Z i < 2) (k : Nat) : accum fl 2 Z k ≤ 1 := by
  have R := (Boost.Random.Nearest.rounding H)
  have hterm : ∀ k, fl ((Z k : ℚ) / rr fl 2 (k + 1)) = (Z k : ℚ) / 2 ^ (k + 1) := by
    intro k
    rw [rr_two hp R]
    have := Representable.scaled (digits := p) (N := Z k) (lt_of_lt_of_le (hZ k) (by
      calc 2 = 2 ^ 1 := rfl
        _ ≤ 2 ^ p := Nat.pow_le_pow_right (by norm_num) hp)) (k + 1)
    exact R.exact _ this
  have hlow : ∀ k, k ≤ p → accum fl 2 Z k = (lead 2 Z k : ℚ) / 2 ^ k := by
    intro k
    induction k with
    | zero => intro _; simp [accum, lead]
    | succ k ih =>
      intro hk
      rw [accum, hterm, ih (by omega)]
      have e : (lead 2 Z k : ℚ) / 2 ^ k + (Z k : ℚ) / 2 ^ (k + 1) = (lead 2 Z (k + 1) : ℚ) / 2 ^ (k + 1) := by
        rw [lead, pow_succ]
        push_cast
        field_simp
      rw [e]
      exact R.exact _ (Representable.scaled (lt_of_lt_of_le (lead_lt hZ (k + 1)) (Nat.pow_le_pow_right (by norm_num) hk)) _)
  by_cases hk : k ≤ p
  · rw [hlow k hk, div_le_one (by positivity)]
    exact_mod_cast (lead_lt hZ k).le
  · obtain ⟨t, rfl⟩ : ∃ t, k = p + t := ⟨k - p, by omega⟩
    clear hk
    induction t with
    | zero =>
      rw [Nat.add_zero, hlow p (le_refl _), div_le_one (by positivity)]
      exact_mod_cast (lead_lt hZ p).le
    | succ t ih =>
      rw [← Nat.add_assoc, accum, hterm]
      have hz : (Z (p + t) : ℚ) ≤ 1 := by exact_mod_cast Nat.le_of_lt_succ (hZ (p + t))
      have hle : accum fl 2 Z (p + t) + (Z (p + t) : ℚ) / 2 ^ (p + t + 1) ≤ 1 + 1 / 2 ^ (p + 1) := by
        have h1 : (Z (p + t) : ℚ) / 2 ^ (p + t + 1) ≤ 1 / 2 ^ (p + 1) := by
          apply div_le_div₀ (by norm_num) hz (by positivity)
          exact pow_le_pow_right₀ (by norm_num) (by omega)
        linarith
      refine le_trans (R.mono _ _ hle) ?_
      by_contra hc
      push Not at hc
      obtain ⟨m, e, hm, he⟩ := H.repr (1 + 1 / 2 ^ (p + 1))
      have hn := H.nearest (1 + 1 / 2 ^ (p + 1)) 1 (Representable.one hp)
      generalize fl (1 + 1 / 2 ^ (p + 1)) = y at *
      have hpp : (0 : ℚ) < 1 / 2 ^ (p + 1) := by positivity
      rw [show (1 : ℚ) + 1 / 2 ^ (p + 1) - 1 = 1 / 2 ^ (p + 1) by ring, abs_of_pos hpp, abs_le] at hn
      have hup : y ≤ 1 + 2 / 2 ^ (p + 1) := by
        have : (2 : ℚ) / 2 ^ (p + 1) = 1 / 2 ^ (p + 1) + 1 / 2 ^ (p + 1) := by ring
        linarith [hn.1]
      have h2p : (2 : ℚ) / 2 ^ (p + 1) = 1 / 2 ^ p := by rw [pow_succ]; field_simp
      rw [h2p] at hup
      -- a representable number above one is at least `1 + 2^(1-p)`
      have he1 : 1 - (p : ℤ) ≤ e := by
        by_contra hlt
        push Not at hlt
        have h4 : (m : ℚ) < 2 ^ p := by exact_mod_cast lt_of_le_of_lt (le_abs_self _) hm
        have h5 : (2 : ℚ) ^ e ≤ 2 ^ (-(p : ℤ)) := zpow_le_zpow_right₀ (by norm_num) (by omega)
        have h6 : y < 1 := by
          rw [he]
          calc (m : ℚ) * 2 ^ e < 2 ^ p * 2 ^ e := mul_lt_mul_of_pos_right h4 (by positivity)
            _ ≤ 2 ^ p * 2 ^ (-(p : ℤ)) := mul_le_mul_of_nonneg_left h5 (by positivity)
            _ = 1 := by rw [zpow_neg, zpow_natCast]; exact mul_inv_cancel₀ (by positivity)
        linarith
      obtain ⟨j, hj⟩ := Int.eq_ofNat_of_zero_le (show 0 ≤ e + p - 1 by omega)
      have h7 : y * 2 ^ p = ((m * 2 ^ (j + 1) : ℤ) : ℚ) := by
        rw [he]
        push_cast
        rw [mul_assoc, ← zpow_natCast, ← zpow_natCast, ← zpow_add₀ (by norm_num)]
        congr 2
        push_cast
        omega
      have h8 : (2 : ℚ) ^ p < y * 2 ^ p := by
        have : (0 : ℚ) < 2 ^ p := by positivity
        nlinarith
      have h9 : y * 2 ^ p ≤ 2 ^ p + 1 := by
        have : (0 : ℚ) < 2 ^ p := by positivity
        calc y * 2 ^ p ≤ (1 + 1 / 2 ^ p) * 2 ^ p := mul_le_mul_of_nonneg_right hup this.le
          _ = 2 ^ p + 1 := by rw [add_mul, one_div, inv_mul_cancel₀ this.ne']; ring
      rw [h7] at h8 h9
      have h10 : (2 : ℤ) ^ p < m * 2 ^ (j + 1) := by exact_mod_cast h8
      have h11 : m * 2 ^ (j + 1) ≤ (2 : ℤ) ^ p + 1 := by exact_mod_cast h9
      obtain ⟨p', rfl⟩ : ∃ p', p = p' + 1 := ⟨p - 1, by omega⟩
      have e1 : (2 : ℤ) ^ (p' + 1) = 2 * 2 ^ p' := by ring
      have e2 : m * 2 ^ (j + 1) = 2 * (m * 2 ^ j) := by ring
      rw [e1, e2] at h10 h11
      omega

end Faure
end Boost.Random
