import Verif.Proofs.RealDist

/-!
# `generate_canonical`
-/

namespace Boost.Random
open Spec Finset
namespace RealDist

section
variable {digits : Nat} {fl : ℚ → ℚ} (H : Rounding digits fl) (h1 : 1 ≤ digits)
include H h1

theorem fixup {v : ℚ} (h0 : 0 ≤ v) (hv : v ≤ 1) :
    0 ≤ (if v = 1 then fl (v - 1 / 2 ^ (digits - 1) / 2) else v) ∧ (if v = 1 then fl (v - 1 / 2 ^ (digits - 1) / 2) else v) < 1 := by
  split
  · rename_i h
    subst h
    have hp := Nat.two_pow_pos digits
    have e : (1 - 1 / 2 ^ (digits - 1) / 2 : ℚ) = ((2 ^ digits - 1 : Nat) : ℚ) / 2 ^ digits := by
      rw [div_div, ← pow_succ, show digits - 1 + 1 = digits by omega, Nat.cast_sub (by omega), sub_div]
      push_cast
      rw [div_self (by positivity)]
    rw [e, fl_scaled H (by omega)]
    refine ⟨by positivity, ?_⟩
    rw [div_lt_one (by positivity)]
    have : 2 ^ digits - 1 < 2 ^ digits := by omega
    exact_mod_cast this
  · rename_i h
    exact ⟨h0, lt_of_le_of_ne hv h⟩

theorem quotient_range {S mult : ℚ} (hS : 0 ≤ S) (hle : S ≤ mult) : 0 ≤ fl (S / mult) ∧ fl (S / mult) ≤ 1 := by
  refine ⟨fl_nonneg H (div_nonneg hS (le_trans hS hle)), ?_⟩
  have : S / mult ≤ 1 := div_le_one_of_le₀ hle (le_trans hS hle)
  have := H.mono _ _ this
  rwa [fl_one H h1] at this

variable {E : EngInfo} (hE : EngOK E)
include hE

theorem canonicalLoop_pow {m : Nat} (hm : m ≤ digits) (hb : E.b = 2 ^ m) (limit : ℚ) : ∀ (xs : List Int) (S : ℚ) (k : Nat), Outputs E xs →
    0 ≤ S → S ≤ 2 ^ k → canonicalLoop fl E (2 ^ m) limit xs S (2 ^ k) ≠ .ub ∧
      ∀ v rest, canonicalLoop fl E (2 ^ m) limit xs S (2 ^ k) = .done v rest → 0 ≤ v ∧ v ≤ 1 ∧ rest <:+ xs := by
  intro xs
  induction xs with
  | nil =>
    intro S k _ h0 hS
    unfold canonicalLoop
    split
    · exact ⟨by rintro ⟨⟩, by rintro _ _ ⟨⟩⟩
    · refine ⟨by rintro ⟨⟩, ?_⟩
      rintro _ _ ⟨⟩
      obtain ⟨a, b⟩ := quotient_range H h1 h0 hS
      exact ⟨a, b, List.suffix_refl _⟩
  | cons x xs ih =>
    intro S k hO h0 hS
    have hx := hO x (by simp)
    unfold canonicalLoop
    split
    · rw [EngInfo.diff_eq hE hx]
      simp only
      have hd := dig_lt hx
      rw [hb] at hd
      have hd2 : dig E x < 2 ^ digits := lt_of_lt_of_le hd (Nat.pow_le_pow_right (by omega) hm)
      rw [fl_nat H hd2, H.exact _ (Representable.scaledUp hd2 k), ← pow_add, fl_two_pow H h1]
      have hup : S + (dig E x : ℚ) * 2 ^ k ≤ 2 ^ (k + m) := by
        have h3 : (dig E x : ℚ) + 1 ≤ 2 ^ m := by exact_mod_cast hd
        have h4 : ((dig E x : ℚ) + 1) * 2 ^ k ≤ 2 ^ m * 2 ^ k := mul_le_mul_of_nonneg_right h3 (by positivity)
        rw [pow_add, mul_comm ((2 : ℚ) ^ k)]
        linarith
      have hle := H.mono _ _ hup
      rw [fl_two_pow H h1] at hle
      obtain ⟨i1, i2⟩ := ih (fl (S + (dig E x : ℚ) * 2 ^ k)) (k + m) (fun z hz => hO z (by simp [hz]))
        (fl_nonneg H (add_nonneg h0 (by positivity))) hle
      refine ⟨i1, fun v rest h => ?_⟩
      obtain ⟨a, b, c⟩ := i2 v rest h
      exact ⟨a, b, c.trans (List.suffix_cons _ _)⟩
    · refine ⟨by rintro ⟨⟩, ?_⟩
      rintro _ _ ⟨⟩
      obtain ⟨a, b⟩ := quotient_range H h1 h0 hS
      exact ⟨a, b, List.suffix_refl _⟩

theorem canonicalImpl_range (h0 : E.min = 0) (bits : Nat) (hcase : (∃ m, E.b = 2 ^ m) ∨ (2 : Int) ^ Nat.min bits digits ≤ E.max) :
    ∀ xs, Outputs E xs → canonicalImpl fl E digits bits xs ≠ .ub ∧
      ∀ v rest, canonicalImpl fl E digits bits xs = .done v rest → 0 ≤ v ∧ v ≤ 1 ∧ rest <:+ xs := by
  intro xs hO
  cases xs with
  | nil => exact ⟨by rintro ⟨⟩, by rintro _ _ ⟨⟩⟩
  | cons x xs =>
    have hx := hO x (by simp)
    have hO' : Outputs E xs := fun z hz => hO z (by simp [hz])
    have hlt := hE.lt
    unfold canonicalImpl
    simp only
    rw [EngInfo.diff_eq hE hx]
    simp only
    obtain ⟨M, hM⟩ : ∃ M : Nat, (M : Int) = E.max := ⟨E.max.toNat, by omega⟩
    have hbM : E.b = M + 1 := by unfold EngInfo.b; omega
    have hdM : dig E x ≤ M := by have := dig_lt hx; omega
    have hR : fl (fl (fl (E.max : ℚ) - fl (E.min : ℚ)) + 1) = fl (fl (M : ℚ) + 1) := by
      rw [h0, ← hM, Int.cast_zero, fl_zero H, sub_zero, fl_fl H]
      norm_cast
    rw [hR]
    have hSle : fl (dig E x : ℚ) ≤ fl (fl (M : ℚ) + 1) := by
      have a1 : fl (dig E x : ℚ) ≤ fl (M : ℚ) := H.mono _ _ (by exact_mod_cast hdM)
      have a2 : fl (fl (M : ℚ)) ≤ fl (fl (M : ℚ) + 1) := H.mono _ _ (by linarith)
      rw [fl_fl H] at a2
      exact le_trans a1 a2
    have hS0 : 0 ≤ fl (dig E x : ℚ) := fl_nonneg H (by positivity)
    -- one value is enough
    have big : ¬ fl (fl (M : ℚ) + 1) < 2 ^ Nat.min bits digits →
        canonicalLoop fl E (fl (fl (M : ℚ) + 1)) (2 ^ Nat.min bits digits) xs (fl (dig E x : ℚ)) (fl (fl (M : ℚ) + 1)) =
          .done (fl (fl (dig E x : ℚ) / fl (fl (M : ℚ) + 1))) xs := by
      intro h
      cases xs with
      | nil => unfold canonicalLoop; rw [if_neg h]
      | cons y ys => unfold canonicalLoop; rw [if_neg h]
    have done : ¬ fl (fl (M : ℚ) + 1) < 2 ^ Nat.min bits digits →
        canonicalLoop fl E (fl (fl (M : ℚ) + 1)) (2 ^ Nat.min bits digits) xs (fl (dig E x : ℚ)) (fl (fl (M : ℚ) + 1)) ≠ .ub ∧
        ∀ v rest, canonicalLoop fl E (fl (fl (M : ℚ) + 1)) (2 ^ Nat.min bits digits) xs (fl (dig E x : ℚ)) (fl (fl (M : ℚ) + 1)) = .done v rest →
          0 ≤ v ∧ v ≤ 1 ∧ rest <:+ x :: xs := by
      intro h
      rw [big h]
      refine ⟨by rintro ⟨⟩, ?_⟩
      rintro _ _ ⟨⟩
      obtain ⟨a, b⟩ := quotient_range H h1 hS0 hSle
      exact ⟨a, b, List.suffix_cons _ _⟩
    have hmin : (2 : ℚ) ^ Nat.min bits digits ≤ fl (fl (M : ℚ) + 1) ∨ (∃ m, E.b = 2 ^ m ∧ m ≤ digits) := by
      have key : ∀ k, 2 ^ k ≤ M → (2 : ℚ) ^ k ≤ fl (fl (M : ℚ) + 1) := by
        intro k hk
        have a1 : fl ((2 : ℚ) ^ k) ≤ fl (M : ℚ) := H.mono _ _ (by exact_mod_cast hk)
        rw [fl_two_pow H h1] at a1
        have a2 : fl (fl (M : ℚ)) ≤ fl (fl (M : ℚ) + 1) := H.mono _ _ (by linarith)
        rw [fl_fl H] at a2
        exact le_trans a1 a2
      rcases hcase with ⟨m, hm⟩ | hc
      · by_cases hmd : m ≤ digits
        · exact Or.inr ⟨m, hm, hmd⟩
        · left
          apply key
          have h3 : 2 ^ Nat.min bits digits ≤ 2 ^ (m - 1) := Nat.pow_le_pow_right (by omega) (le_trans (Nat.min_le_right _ _) (by omega))
          have h4 : 2 ^ m = 2 * 2 ^ (m - 1) := by rw [← pow_succ']; congr 1; omega
          have h5 := Nat.two_pow_pos (m - 1)
          omega
      · left
        apply key
        rw [← hM] at hc
        exact_mod_cast hc
    rcases hmin with h | ⟨m, hm, hmd⟩
    · exact done (not_lt.2 h)
    · have hRe : fl (fl (M : ℚ) + 1) = 2 ^ m := by
        have hMlt : M < 2 ^ digits := by
          have : 2 ^ m ≤ 2 ^ digits := Nat.pow_le_pow_right (by omega) hmd
          omega
        rw [fl_nat H hMlt]
        have : (M : ℚ) + 1 = 2 ^ m := by
          rw [hbM] at hm
          exact_mod_cast hm
        rw [this, fl_two_pow H h1]
      rw [hRe] at hSle ⊢
      obtain ⟨i1, i2⟩ := canonicalLoop_pow H h1 hE hmd hm (2 ^ Nat.min bits digits) xs _ m hO' hS0 hSle
      refine ⟨i1, fun v rest h => ?_⟩
      obtain ⟨a, b, c⟩ := i2 v rest h
      exact ⟨a, b, c.trans (List.suffix_cons _ _)⟩

end

/-! ## Exact arithmetic -/

theorem canonicalLoop_exact {E : EngInfo} (hE : EngOK E) (limit : ℚ) : ∀ (xs : List Int) (S mult : ℚ), Outputs E xs → 0 ≤ S → S + 1 ≤ mult →
    canonicalLoop id E E.b limit xs S mult ≠ .ub ∧
      ∀ v rest, canonicalLoop id E E.b limit xs S mult = .done v rest → 0 ≤ v ∧ v < 1 ∧ rest <:+ xs := by
  intro xs
  have quo : ∀ S mult : ℚ, 0 ≤ S → S + 1 ≤ mult → 0 ≤ S / mult ∧ S / mult < 1 := by
    intro S mult h0 hS
    exact ⟨div_nonneg h0 (by linarith), (div_lt_one (by linarith)).2 (by linarith)⟩
  induction xs with
  | nil =>
    intro S mult _ h0 hS
    unfold canonicalLoop
    split
    · exact ⟨by rintro ⟨⟩, by rintro _ _ ⟨⟩⟩
    · refine ⟨by rintro ⟨⟩, ?_⟩
      rintro _ _ ⟨⟩
      exact ⟨(quo S mult h0 hS).1, (quo S mult h0 hS).2, List.suffix_refl _⟩
  | cons x xs ih =>
    intro S mult hO h0 hS
    have hx := hO x (by simp)
    unfold canonicalLoop
    split
    · rw [EngInfo.diff_eq hE hx]
      simp only [id]
      have hd := dig_lt hx
      have hd' : (dig E x : ℚ) + 1 ≤ E.b := by exact_mod_cast hd
      obtain ⟨i1, i2⟩ := ih (S + (dig E x : ℚ) * mult) (mult * E.b) (fun z hz => hO z (by simp [hz]))
        (add_nonneg h0 (mul_nonneg (by positivity) (by linarith))) (by nlinarith)
      refine ⟨i1, fun v rest h => ?_⟩
      obtain ⟨a, b, c⟩ := i2 v rest h
      exact ⟨a, b, c.trans (List.suffix_cons _ _)⟩
    · refine ⟨by rintro ⟨⟩, ?_⟩
      rintro _ _ ⟨⟩
      exact ⟨(quo S mult h0 hS).1, (quo S mult h0 hS).2, List.suffix_refl _⟩

/-! ## Rounding to nearest -/

/-- Distinct floating-point numbers are at least one unit in the last place apart. -/
theorem representable_close {digits : Nat} {y : ℚ} (hy : Representable digits y) (m : Nat) (e : ℤ) (hlo : 2 ^ (digits - 1) < m) (hz : |y - (m : ℚ) * 2 ^ e| < 2 ^ e) :
    y = (m : ℚ) * 2 ^ e := by
  obtain ⟨m', e', hm', he'⟩ := hy
  have hpe : (0 : ℚ) < 2 ^ e := by positivity
  have hz' := abs_lt.1 hz
  have hgt : ((2 : ℚ) ^ (digits - 1)) * 2 ^ e < y := by
    have h3 : (2 : ℚ) ^ (digits - 1) + 1 ≤ m := by exact_mod_cast hlo
    nlinarith [hz'.1]
  have hee : e ≤ e' := by
    by_contra hlt
    push Not at hlt
    have h4 : (m' : ℚ) < 2 ^ digits := by exact_mod_cast lt_of_le_of_lt (le_abs_self _) hm'
    have h5 : (2 : ℚ) ^ e' ≤ 2 ^ (e - 1) := zpow_le_zpow_right₀ (by norm_num) (by omega)
    have hpe' : (0 : ℚ) < 2 ^ e' := by positivity
    have h6 : y ≤ 2 ^ digits * 2 ^ (e - 1) := by
      rw [he']
      calc (m' : ℚ) * 2 ^ e' ≤ 2 ^ digits * 2 ^ e' := mul_le_mul_of_nonneg_right h4.le hpe'.le
        _ ≤ 2 ^ digits * 2 ^ (e - 1) := mul_le_mul_of_nonneg_left h5 (by positivity)
    have h7 : (2 : ℚ) ^ digits * 2 ^ (e - 1) ≤ 2 ^ (digits - 1) * 2 ^ e := by
      rw [← zpow_natCast, ← zpow_natCast, ← zpow_add₀ (by norm_num), ← zpow_add₀ (by norm_num)]
      exact zpow_le_zpow_right₀ (by norm_num) (by omega)
    linarith
  obtain ⟨k, hk⟩ := Int.eq_ofNat_of_zero_le (show 0 ≤ e' - e by omega)
  have hfl : y = ((m' * 2 ^ k : ℤ) : ℚ) * 2 ^ e := by
    rw [he']
    push_cast
    rw [mul_assoc, ← zpow_natCast, ← zpow_add₀ (by norm_num), ← hk]
    congr 2
    ring
  rw [hfl] at hz ⊢
  rw [← sub_mul, abs_mul, abs_of_pos hpe] at hz
  have hz2 : |((m' * 2 ^ k : ℤ) : ℚ) - m| < 1 := by
    by_contra hge
    push Not at hge
    nlinarith
  have : |m' * 2 ^ k - (m : ℤ)| < 1 := by exact_mod_cast hz2
  have := Int.abs_lt_one_iff.1 this
  have : m' * 2 ^ k = (m : ℤ) := by omega
  rw [this]
  push_cast
  rfl

/-- A number nearer to one floating-point number than half the distance to the next is rounded to it. -/
theorem nearest_eq {digits : Nat} {fl : ℚ → ℚ} (H : Nearest digits fl) {x : ℚ} (m : Nat) (e : ℤ) (hlo : 2 ^ (digits - 1) < m) (hhi : m < 2 ^ digits)
    (hx : |x - (m : ℚ) * 2 ^ e| < 2 ^ e / 2) : fl x = (m : ℚ) * 2 ^ e := by
  have hy : Representable digits ((m : ℚ) * 2 ^ e) := ⟨m, e, by rw [abs_of_nonneg (by omega)]; exact_mod_cast hhi, by push_cast; rfl⟩
  have hn := lt_of_le_of_lt (H.nearest x _ hy) hx
  refine representable_close (H.repr x) m e hlo ?_
  have : fl x - (m : ℚ) * 2 ^ e = -(x - fl x) + (x - (m : ℚ) * 2 ^ e) := by ring
  rw [this]
  refine lt_of_le_of_lt (abs_add_le _ _) ?_
  rw [abs_neg]
  linarith

end RealDist
end Boost.Random
