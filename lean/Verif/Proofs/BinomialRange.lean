import Verif.Model.Binomial
import Verif.Proofs.FaureBounds

/-!
# The binomial distribution: inversion with rounding
-/

namespace Boost.Random
open Spec

/-- The difference of two numbers of which each is at most twice the other is exact (Sterbenz). -/
theorem Representable.sub_close {P : Nat} {x y : ℚ} (hx : Representable P x) (hy : Representable P y) (h1 : y ≤ 2 * x) (h2 : x ≤ 2 * y) : Representable P (x - y) := by
  have hx0 : 0 ≤ x := by linarith
  have hy0 : 0 ≤ y := by linarith
  obtain ⟨m, e, hm, rfl⟩ := hx
  obtain ⟨n, f, hn, rfl⟩ := hy
  have hp : ∀ e : ℤ, (0 : ℚ) < 2 ^ e := fun e => by positivity
  rcases le_total e f with h | h
  · obtain ⟨d, hd⟩ := Int.eq_ofNat_of_zero_le (show 0 ≤ f - e by omega)
    obtain rfl : f = e + d := by omega
    refine ⟨m - n * 2 ^ d, e, ?_, ?_⟩
    · have hkey : |((m - n * 2 ^ d : ℤ) : ℚ)| * 2 ^ e ≤ |(m : ℚ)| * 2 ^ e := by
        have e1 : ((m - n * 2 ^ d : ℤ) : ℚ) * 2 ^ e = (m : ℚ) * 2 ^ e - n * 2 ^ (e + (d : ℤ)) := by
          rw [zpow_add₀ (by norm_num), zpow_natCast]; push_cast; ring
        have e2 : |((m - n * 2 ^ d : ℤ) : ℚ)| * 2 ^ e = |((m - n * 2 ^ d : ℤ) : ℚ) * 2 ^ e| := by rw [abs_mul, abs_of_pos (hp e)]
        have e3 : |(m : ℚ)| * 2 ^ e = |(m : ℚ) * 2 ^ e| := by rw [abs_mul, abs_of_pos (hp e)]
        rw [e2, e3, e1, abs_of_nonneg hx0, abs_le]
        constructor <;> linarith
      have := le_of_mul_le_mul_right hkey (hp e)
      have h3 : |m - n * 2 ^ d| ≤ |m| := by exact_mod_cast this
      exact lt_of_le_of_lt h3 hm
    · rw [zpow_add₀ (by norm_num), zpow_natCast]; push_cast; ring
  · obtain ⟨d, hd⟩ := Int.eq_ofNat_of_zero_le (show 0 ≤ e - f by omega)
    obtain rfl : e = f + d := by omega
    refine ⟨m * 2 ^ d - n, f, ?_, ?_⟩
    · have hkey : |((m * 2 ^ d - n : ℤ) : ℚ)| * 2 ^ f ≤ |(n : ℚ)| * 2 ^ f := by
        have e1 : ((m * 2 ^ d - n : ℤ) : ℚ) * 2 ^ f = (m : ℚ) * 2 ^ (f + (d : ℤ)) - n * 2 ^ f := by
          rw [zpow_add₀ (by norm_num), zpow_natCast]; push_cast; ring
        have e2 : |((m * 2 ^ d - n : ℤ) : ℚ)| * 2 ^ f = |((m * 2 ^ d - n : ℤ) : ℚ) * 2 ^ f| := by rw [abs_mul, abs_of_pos (hp f)]
        have e3 : |(n : ℚ)| * 2 ^ f = |(n : ℚ) * 2 ^ f| := by rw [abs_mul, abs_of_pos (hp f)]
        rw [e2, e3, e1, abs_of_nonneg hy0, abs_le]
        constructor <;> linarith
      have := le_of_mul_le_mul_right hkey (hp f)
      have h3 : |m * 2 ^ d - n| ≤ |n| := by exact_mod_cast this
      exact lt_of_le_of_lt h3 hn
    · rw [zpow_add₀ (by norm_num), zpow_natCast]; push_cast; ring

/-- The largest number below one. -/
theorem Representable.le_pred_one {P : Nat} (hP : 1 ≤ P) {x : ℚ} (hx : Representable P x) (h : x < 1) : x ≤ 1 - 1 / 2 ^ P := by
  obtain ⟨m, e, hm, rfl⟩ := hx
  have hm' : m < 2 ^ P := lt_of_le_of_lt (le_abs_self m) hm
  by_contra hlt
  push Not at hlt
  have hpos : (0 : ℚ) < 2 ^ P := by positivity
  have h2 : (1 : ℚ) / 2 ^ P ≤ 1 / 2 := by
    rw [div_le_div_iff₀ hpos (by norm_num)]
    have : (2 : ℚ) ^ 1 ≤ 2 ^ P := pow_le_pow_right₀ (by norm_num) hP
    linarith
  have hm0 : 0 < m := by
    have : (0 : ℚ) < (m : ℚ) * 2 ^ e := by linarith
    have := pos_of_mul_pos_left this (by positivity)
    exact_mod_cast this
  -- `m 2^e` lies strictly between `1 - 2^-P` and `1`
  have h1 : (m : ℚ) * 2 ^ (e + P) < 2 ^ P := by
    rw [zpow_add₀ (by norm_num), zpow_natCast, ← mul_assoc]
    nlinarith
  have h3 : (2 : ℚ) ^ P - 1 < (m : ℚ) * 2 ^ (e + P) := by
    rw [zpow_add₀ (by norm_num), zpow_natCast, ← mul_assoc]
    have : (1 - 1 / 2 ^ P : ℚ) * 2 ^ P = 2 ^ P - 1 := by field_simp
    nlinarith
  rcases le_or_gt 0 (e + P) with h | h
  · obtain ⟨d, hd⟩ := Int.eq_ofNat_of_zero_le h
    rw [hd] at h1 h3
    have a1 : m * 2 ^ d < 2 ^ P := by
      have : (m : ℚ) * 2 ^ d < 2 ^ P := by simpa using h1
      exact_mod_cast this
    have a2 : 2 ^ P - 1 < m * 2 ^ d := by
      have : (2 : ℚ) ^ P - 1 < (m : ℚ) * 2 ^ d := by simpa using h3
      exact_mod_cast this
    omega
  · have h4 : (2 : ℚ) ^ (e + P) ≤ 1 / 2 := by
      have : (2 : ℚ) ^ (e + P) ≤ 2 ^ (-1 : ℤ) := zpow_le_zpow_right₀ (by norm_num) (by omega)
      norm_num at this ⊢
      exact this
    have h5 : (m : ℚ) ≤ 2 ^ P - 1 := by
      have : m ≤ 2 ^ P - 1 := by omega
      exact_mod_cast this
    have h6 : (0 : ℚ) < 2 ^ (e + P) := by positivity
    have h7 : (2 : ℚ) ≤ 2 ^ P := by
      have : (2 : ℚ) ^ 1 ≤ 2 ^ P := pow_le_pow_right₀ (by norm_num) hP
      linarith
    have h8 : (m : ℚ) * 2 ^ (e + P) ≤ (2 ^ P - 1) * (1 / 2) := mul_le_mul h5 h4 h6.le (by linarith)
    linarith

namespace Binomial

section
variable {P : Nat} (hP : 2 ≤ P) {fl : ℚ → ℚ} (H : Nearest P fl)
include hP H

theorem fl_one : fl 1 = 1 := (Nearest.rounding H).exact _ (Representable.one (by omega))

theorem fl_pos {x : ℚ} (h : 0 < x) : 0 < fl x := by
  have hr := Faure.nearest_rel (by omega) H x
  rw [abs_of_pos h, abs_le] at hr
  have : x / 2 ^ P < x := by
    apply div_lt_self h
    exact one_lt_pow₀ (by norm_num) (by omega)
  linarith

/-- The parameter `s` of `invert`. -/
theorem s_facts {p : ℚ} (hp : Representable P p) (h0 : 0 ≤ p) (h1 : p ≤ 1 / 2) :
    Representable P (fl (p / fl (1 - p))) ∧ 0 ≤ fl (p / fl (1 - p)) ∧ ((p = 1 / 2 ∧ fl (p / fl (1 - p)) = 1) ∨ fl (p / fl (1 - p)) ≤ 1 - 1 / 2 ^ P) := by
  have R := Nearest.rounding H
  have hhalf : Representable P (1 / 2) := by simpa using Representable.inv_two_pow (digits := P) (by omega) 1
  have hq : 1 / 2 ≤ fl (1 - p) := by
    have := R.mono (1 / 2) (1 - p) (by linarith)
    rwa [R.exact _ hhalf] at this
  refine ⟨R.repr _, ?_, ?_⟩
  · have := R.mono 0 (p / fl (1 - p)) (div_nonneg h0 (by linarith))
    rwa [R.exact _ (Representable.zero P)] at this
  · rcases eq_or_lt_of_le h1 with h | h
    · left
      refine ⟨h, ?_⟩
      rw [h, show (1 : ℚ) - 1 / 2 = 1 / 2 by norm_num, R.exact _ hhalf, div_self (by norm_num), fl_one hP H]
    · right
      have h2p : Representable P (2 * p) := by
        obtain ⟨m, e, hm, rfl⟩ := hp
        exact ⟨m, e + 1, hm, by rw [zpow_add₀ (by norm_num)]; ring⟩
      have hle := Representable.le_pred_one (by omega) h2p (by linarith)
      have hd : p / fl (1 - p) ≤ 2 * p := by
        rw [div_le_iff₀ (by linarith)]
        nlinarith
      have := R.mono _ _ (hd.trans hle)
      have hrep : Representable P (1 - 1 / 2 ^ P : ℚ) := by
        refine ⟨2 ^ P - 1, -P, ?_, ?_⟩
        · rw [abs_of_nonneg (by have : (0:ℤ) < 2 ^ P := by positivity
                                omega)]
          omega
        · rw [zpow_neg, zpow_natCast]
          push_cast
          field_simp
      rwa [R.exact _ hrep] at this

/-- The step from `x = t` to `t + 1` leaves the loop. -/
theorem last_step {s N r : ℚ} (hs : Representable P s) (hs0 : 0 ≤ s) (hs1 : s = 1 ∨ s ≤ 1 - 1 / 2 ^ P) (hNr : Representable P N) (hN : 0 < N)
    (hr : Representable P r) (hr0 : 0 < r) (hr1 : r < 1) :
    fl (fl (fl (fl (N * s) / N) - s) * r) < 2 / 2 ^ P ∧ fl (fl (fl (fl (N * s) / N) - s) * r) < r := by
  have R := Nearest.rounding H
  have hz := R.exact 0 (Representable.zero P)
  have hε0 : (0 : ℚ) < 1 / 2 ^ P := by positivity
  have hε4 : (1 : ℚ) / 2 ^ P ≤ 1 / 4 := by
    rw [div_le_div_iff₀ (by positivity) (by norm_num)]
    have : (2 : ℚ) ^ 2 ≤ 2 ^ P := pow_le_pow_right₀ (by norm_num) hP
    linarith
  rcases hs1 with h | hs1
  · subst h
    rw [mul_one, R.exact N hNr, div_self hN.ne', fl_one hP H, sub_self, hz, zero_mul, hz]
    exact ⟨by positivity, hr0⟩
  have hrle := Representable.le_pred_one (by omega) hr hr1
  rw [show (2 : ℚ) / 2 ^ P = 2 * (1 / 2 ^ P) by ring]
  have rel : ∀ x, |x - fl x| ≤ |x| * (1 / 2 ^ P) := fun x => by
    have := Faure.nearest_rel (by omega) H x
    rwa [div_eq_mul_one_div] at this
  generalize (1 : ℚ) / 2 ^ P = ε at *
  -- the error of the quotient
  have e1 := rel (N * s)
  rw [abs_of_nonneg (mul_nonneg hN.le hs0), abs_le] at e1
  generalize fl (N * s) = A at *
  have q1 : s * (1 - ε) ≤ A / N := by rw [le_div_iff₀ hN]; nlinarith [e1.2]
  have q2 : A / N ≤ s * (1 + ε) := by rw [div_le_iff₀ hN]; nlinarith [e1.1]
  have q0 : 0 ≤ A / N := le_trans (by apply mul_nonneg hs0; linarith) q1
  have e2 := rel (A / N)
  rw [abs_of_nonneg q0, abs_le] at e2
  have hD := R.repr (A / N)
  generalize fl (A / N) = D at *
  generalize A / N = Q at *
  have d1 : D - s ≤ s * (2 * ε + ε * ε) := by
    have : D ≤ Q * (1 + ε) := by linarith
    have : Q * (1 + ε) ≤ s * (1 + ε) * (1 + ε) := mul_le_mul_of_nonneg_right q2 (by linarith)
    nlinarith
  have d2 : -(s * (2 * ε)) ≤ D - s := by
    have : Q * (1 - ε) ≤ D := by linarith
    have : s * (1 - ε) * (1 - ε) ≤ Q * (1 - ε) := mul_le_mul_of_nonneg_right q1 (by linarith)
    nlinarith [mul_nonneg hs0 (mul_nonneg hε0.le hε0.le)]
  have hds : fl (D - s) = D - s := by
    apply R.exact
    apply Representable.sub_close hD hs
    · nlinarith
    · nlinarith [mul_nonneg hs0 hε0.le]
  rw [hds]
  rcases le_or_gt (D - s) 0 with hneg | hpos
  · have := R.mono _ _ (mul_nonpos_of_nonpos_of_nonneg hneg hr0.le)
    rw [hz] at this
    exact ⟨by linarith, by linarith⟩
  · have e3 := rel ((D - s) * r)
    rw [abs_of_nonneg (mul_nonneg hpos.le hr0.le), abs_le] at e3
    have hup : fl ((D - s) * r) ≤ s * (2 * ε + ε * ε) * (1 + ε) * r := by
      have h1 : fl ((D - s) * r) ≤ (D - s) * r * (1 + ε) := by linarith
      have h2 : (D - s) * r * (1 + ε) ≤ s * (2 * ε + ε * ε) * r * (1 + ε) :=
        mul_le_mul_of_nonneg_right (mul_le_mul_of_nonneg_right d1 hr0.le) (by linarith)
      nlinarith
    have hss : s * (2 * ε + ε * ε) * (1 + ε) ≤ (1 - ε) * (2 * ε + ε * ε) * (1 + ε) := by
      have : 0 ≤ (2 * ε + ε * ε) * (1 + ε) := by positivity
      nlinarith
    have hb : (1 - ε) * (2 * ε + ε * ε) * (1 + ε) * (1 - ε) < 2 * ε := by
      have : 0 < ε * ε := by positivity
      nlinarith [mul_pos hε0 this, mul_pos this this, mul_pos (mul_pos this this) hε0]
    have hc : (1 - ε) * (2 * ε + ε * ε) * (1 + ε) < 1 := by nlinarith
    constructor
    · have : s * (2 * ε + ε * ε) * (1 + ε) * r ≤ (1 - ε) * (2 * ε + ε * ε) * (1 + ε) * (1 - ε) := by
        apply mul_le_mul hss hrle hr0.le
        have : 0 ≤ 1 - ε := by linarith
        positivity
      linarith
    · have : s * (2 * ε + ε * ε) * (1 + ε) * r < 1 * r := mul_lt_mul_of_pos_right (by linarith) hr0
      linarith

/-- The loop does not get beyond `t + 1`. -/
theorem invertLoop_range (o : RealOps ℚ) (ho : o.fl = fl) {t : Nat} {s : ℚ} (hs : Representable P s) (hs0 : 0 ≤ s) (hs1 : s = 1 ∨ s ≤ 1 - 1 / 2 ^ P) :
    ∀ (fuel x : Nat) (u r : ℚ), x ≤ t → t < x + fuel → u ≤ 1 → Representable P r → 0 < r →
      ∃ y, invertLoop o (2 / 2 ^ P) (fl (fl (t + 1 : Nat) * s)) s fuel x u r = some y ∧ y ≤ t + 1 := by
  have R := Nearest.rounding H
  have hz := R.exact 0 (Representable.zero P)
  subst ho
  intro fuel
  induction fuel with
  | zero => intro x u r h1 h2; omega
  | succ n ih =>
    intro x u r hx hf hu hr hr0
    rw [invertLoop]
    by_cases hgt : u > r
    · rw [if_pos hgt]
      dsimp only
      by_cases hcut : o.fl (o.fl (o.fl (o.fl (o.fl (t + 1 : Nat) * s) / o.fl (x + 1 : Nat)) - s) * r) < 2 / 2 ^ P ∧ o.fl (o.fl (o.fl (o.fl (o.fl (t + 1 : Nat) * s) / o.fl (x + 1 : Nat)) - s) * r) < r
      · rw [if_pos hcut]
        exact ⟨x + 1, rfl, by omega⟩
      · rw [if_neg hcut]
        have hxt : x < t := by
          by_contra h
          have : x = t := by omega
          subst this
          exact hcut (last_step hP H hs hs0 hs1 (R.repr _) (fl_pos hP H (by positivity)) hr hr0 (by linarith))
        apply ih (x + 1) _ _ (by omega) (by omega) _ (R.repr _)
        · by_contra hneg
          push Not at hneg
          exact hcut ⟨lt_of_le_of_lt hneg (by positivity), lt_of_le_of_lt hneg hr0⟩
        · have := R.mono (u - r) 1 (by linarith)
          rwa [fl_one hP H] at this
    · rw [if_neg hgt]
      exact ⟨x, rfl, by omega⟩

theorem invert_range (o : RealOps ℚ) (ho : o.fl = fl) {bits t : Nat} (ht : t + 1 < 2 ^ (bits - 1)) {p qn u : ℚ} (hp : Representable P p) (h0 : 0 ≤ p) (h1 : p ≤ 1 / 2)
    (hq : Representable P qn) (hq0 : 0 < qn) (hu : u ≤ 1) : ∃ y, invert o bits (2 / 2 ^ P) t p qn u = some y ∧ y ≤ t + 1 := by
  obtain ⟨s1, s2, s3⟩ := s_facts hP H hp h0 h1
  have := invertLoop_range hP H o ho (t := t) s1 s2 (s3.imp (fun h => h.2) id) (2 ^ (bits - 1) - 1) 0 u qn (by omega) (by omega) hu hq hq0
  obtain ⟨y, hy, hy'⟩ := this
  refine ⟨y, ?_, hy'⟩
  rw [← hy, invert, ho]
  push_cast
  rfl

end

end Binomial
end Boost.Random
