import Verif.Model.Variates
import Verif.Spec.DiscreteReal
import Verif.Proofs.BinomialWitness
import Verif.Proofs.FaureBounds

/-!
# The triangle distribution in floating-point arithmetic
-/

namespace Boost.Random.Triangle
open Spec RealDist

/-- The square root of a number that is not negative is not negative, and zero for zero. -/
structure SqrtOK (o : RealOps ℚ) : Prop where
  nonneg : ∀ x, 0 ≤ x → 0 ≤ o.sqrt x
  zero : o.sqrt 0 = 0

section
variable {o : RealOps ℚ} {P : Nat} (R : Rounding P o.fl) (hs : SqrtOK o)
include R

theorem fl0 : o.fl 0 = 0 := R.exact _ (Representable.zero P)

theorem fl_nn {x : ℚ} (h : 0 ≤ x) : 0 ≤ o.fl x := by
  have := R.mono _ _ h
  rwa [fl0 R] at this

theorem fl_ge {x y : ℚ} (hy : Representable P y) (h : y ≤ x) : y ≤ o.fl x := by
  have := R.mono _ _ h
  rwa [R.exact _ hy] at this

theorem fl_le {x y : ℚ} (hy : Representable P y) (h : x ≤ y) : o.fl x ≤ y := by
  have := R.mono _ _ h
  rwa [R.exact _ hy] at this

omit R in
/-- The first half. -/
theorem value_low_float {a b c u : ℚ} (h : Ieee.le (.fin u) (init o a b c).q1 = true) (hu : 0 ≤ u) :
    value o (init o a b c) u = .fin (o.fl (a + o.fl ((init o a b c).p1 * o.sqrt u))) := by
  unfold value
  rw [if_pos h]
  have e : Ieee.sqrt o (.fin u) = .fin (o.sqrt u) := by unfold Ieee.sqrt; simp only [if_neg (not_lt.2 hu)]
  rw [e]
  rfl

/-- The argument of the square root in the second half is not negative. -/
theorem arg_nonneg {a b c u : ℚ} (hab : a ≤ b) (hbc : b ≤ c) (hu : Representable P u) (h : ¬ Ieee.le (.fin u) (init o a b c).q1 = true) :
    0 ≤ o.fl (o.fl (o.fl (c - a) * u) - o.fl (b - a)) := by
  have h1 : 0 ≤ o.fl (b - a) := fl_nn R (by linarith)
  have h2 : o.fl (b - a) ≤ o.fl (c - a) := R.mono _ _ (by linarith)
  have hq : (init o a b c).q1 = Ieee.div o (.fin (o.fl (b - a))) (.fin (o.fl (c - a))) := rfl
  rw [hq] at h
  unfold Ieee.div at h
  by_cases h0 : o.fl (c - a) = 0
  · have h3 : o.fl (b - a) = 0 := le_antisymm (h0 ▸ h2) h1
    rw [h0, h3, zero_mul, fl0 R, sub_zero, fl0 R]
  · simp only [if_neg h0] at h
    have hlt : o.fl (o.fl (b - a) / o.fl (c - a)) < u := by
      by_contra hc
      exact h (decide_eq_true (not_lt.1 hc))
    have hpos : 0 < o.fl (c - a) := lt_of_le_of_ne (h1.trans h2) (Ne.symm h0)
    have hq' : o.fl (b - a) / o.fl (c - a) < u := by
      by_contra hc
      exact absurd hlt (not_lt.2 (fl_ge R hu (not_lt.1 hc)))
    rw [div_lt_iff₀ hpos, mul_comm] at hq'
    exact fl_nn R (sub_nonneg.2 (fl_ge R (R.repr _) hq'.le))

/-- The second half. -/
theorem value_high_float {a b c u : ℚ} (hab : a ≤ b) (hbc : b ≤ c) (hu : Representable P u) (h : ¬ Ieee.le (.fin u) (init o a b c).q1 = true) :
    value o (init o a b c) u = .fin (o.fl (c - o.fl (o.sqrt (o.fl (c - b)) * o.sqrt (o.fl (o.fl (o.fl (c - a) * u) - o.fl (b - a)))))) := by
  unfold value
  rw [if_neg h]
  have e : Ieee.sqrt o (.fin (o.fl (o.fl (o.fl (c - a) * u) - o.fl (b - a)))) = .fin (o.sqrt (o.fl (o.fl (o.fl (c - a) * u) - o.fl (b - a)))) := by
    unfold Ieee.sqrt; simp only [if_neg (not_lt.2 (arg_nonneg R hab hbc hu h))]
  change Ieee.sub o (.fin c) (Ieee.mul o (.fin (o.sqrt (o.fl (c - b)))) (Ieee.sqrt o (.fin (o.fl (o.fl (o.fl (c - a) * u) - o.fl (b - a)))))) = _
  rw [e]
  change Ieee.fin (o.fl (c + -o.fl (o.sqrt (o.fl (c - b)) * o.sqrt (o.fl (o.fl (o.fl (c - a) * u) - o.fl (b - a)))))) = _
  rw [← sub_eq_add_neg]

include hs

/-- The value is a number; one bound is kept in each half. -/
theorem value_float {a b c u : ℚ} (ha : Representable P a) (hc : Representable P c) (hab : a ≤ b) (hbc : b ≤ c) (hu : Representable P u) (h0 : 0 ≤ u) :
    ∃ v, value o (init o a b c) u = .fin v ∧ (Ieee.le (.fin u) (init o a b c).q1 = true → a ≤ v) ∧ (¬ Ieee.le (.fin u) (init o a b c).q1 = true → v ≤ c) := by
  by_cases h : Ieee.le (.fin u) (init o a b c).q1 = true
  · refine ⟨_, value_low_float h h0, fun _ => ?_, fun h' => absurd h h'⟩
    refine fl_ge R ha (le_add_of_nonneg_right (fl_nn R (mul_nonneg ?_ (hs.nonneg _ h0))))
    exact hs.nonneg _ (fl_nn R (mul_nonneg (fl_nn R (by linarith)) (fl_nn R (by linarith))))
  · refine ⟨_, value_high_float R hab hbc hu h, fun h' => absurd h' h, fun _ => ?_⟩
    refine fl_le R hc (sub_le_self _ (fl_nn R (mul_nonneg ?_ (hs.nonneg _ (arg_nonneg R hab hbc hu h)))))
    exact hs.nonneg _ (fl_nn R (by linarith))

/-- When all three parameters are equal the value is the parameter. -/
theorem value_degenerate {a u : ℚ} (ha : Representable P a) (hu : Representable P u) :
    value o (init o a a a) u = .fin a := by
  have hq : (init o a a a).q1 = .nan := by
    change Ieee.div o (.fin (o.fl (a - a))) (.fin (o.fl (a - a))) = _
    rw [sub_self, fl0 R]
    unfold Ieee.div Ieee.infOf
    simp
  have h : ¬ Ieee.le (.fin u) (init o a a a).q1 = true := by rw [hq]; simp [Ieee.le]
  rw [value_high_float R le_rfl le_rfl hu h, sub_self, fl0 R, hs.zero, zero_mul, fl0 R, sub_zero, R.exact _ ha]

end

/-! ## The size of the error -/

section
variable {o : RealOps ℚ} (H : Nearest 53 o.fl)
include H

theorem up {x : ℚ} (h : 0 ≤ x) : o.fl x ≤ x * (1 + 1 / 2 ^ 53) := by
  have := Faure.nearest_rel (by decide) H x
  rw [abs_of_nonneg h, abs_le] at this
  linarith [this.1]

theorem down {x : ℚ} (h : 0 ≤ x) : x * (1 - 1 / 2 ^ 53) ≤ o.fl x := by
  have := Faure.nearest_rel (by decide) H x
  rw [abs_of_nonneg h, abs_le] at this
  linarith [this.2]

/-- The square root has a relative error of at most `2 ^ (-53)`. -/
def SqrtAcc (o : RealOps ℚ) : Prop := ∀ x : ℚ, 0 ≤ x → |(o.sqrt x : ℝ) - Real.sqrt x| ≤ Real.sqrt x / 2 ^ 53

omit H in
theorem SqrtAcc.ok (h : SqrtAcc o) : SqrtOK o := by
  constructor
  · intro x hx
    have := h x hx
    rw [abs_le] at this
    have h1 : 0 ≤ Real.sqrt x := Real.sqrt_nonneg _
    have h2 : (0 : ℝ) ≤ o.sqrt x := by
      have : Real.sqrt x / 2 ^ 53 ≤ Real.sqrt x := div_le_self h1 (by norm_num)
      linarith
    exact_mod_cast h2
  · have := h 0 le_rfl
    simp only [Rat.cast_zero, Real.sqrt_zero, zero_div, sub_zero, abs_nonpos_iff] at this
    exact_mod_cast this

omit H in
theorem SqrtAcc.up (h : SqrtAcc o) {x : ℚ} (hx : 0 ≤ x) : (o.sqrt x : ℝ) ≤ Real.sqrt x * (1 + 1 / 2 ^ 53) := by
  have := h x hx
  rw [abs_le] at this
  linarith [this.2]

/-- The term of the first half. -/
theorem low_term (hs : SqrtAcc o) {a b c u : ℚ} (hab : a ≤ b) (hac : a < c) (h0 : 0 ≤ u) (hu : u ≤ o.fl (o.fl (b - a) / o.fl (c - a))) (hpos : 0 < o.fl (c - a)) :
    o.fl (o.sqrt (o.fl (o.fl (b - a) * o.fl (c - a))) * o.sqrt u) ≤ b - a + (c - a) / 2 ^ 50 ∨ c < b := by
  by_cases hbc : c < b
  · exact .inr hbc
  left
  have R := Boost.Random.Nearest.rounding H
  have e1 : 0 ≤ o.fl (b - a) := fl_nn R (by linarith)
  have u1 := up H (x := b - a) (by linarith)
  have u2 := up H (x := o.fl (b - a) * o.fl (c - a)) (mul_nonneg e1 hpos.le)
  have u3 := up H (x := o.fl (b - a) / o.fl (c - a)) (div_nonneg e1 hpos.le)
  have n1 : 0 ≤ o.fl (o.fl (b - a) * o.fl (c - a)) := fl_nn R (mul_nonneg e1 hpos.le)
  have s1 := hs.up n1
  have s2 := hs.up h0
  have n2 : (0 : ℝ) ≤ o.sqrt u := by exact_mod_cast hs.ok.nonneg _ h0
  have n3 : (0 : ℝ) ≤ o.sqrt (o.fl (o.fl (b - a) * o.fl (c - a))) := by exact_mod_cast hs.ok.nonneg _ n1
  set d1 := o.fl (b - a) with hd1
  set d2 := o.fl (c - a) with hd2
  set m := o.fl (d1 * d2) with hm
  have key : (o.sqrt m : ℝ) * o.sqrt u ≤ d1 * (1 + 1 / 2 ^ 53) ^ 3 := by
    have hprod : (m : ℝ) * u ≤ (d1 * (1 + 1 / 2 ^ 53)) ^ 2 := by
      have hq : m * u ≤ (d1 * (1 + 1 / 2 ^ 53)) ^ 2 := by
        calc m * u ≤ (d1 * d2 * (1 + 1 / 2 ^ 53)) * (d1 / d2 * (1 + 1 / 2 ^ 53)) :=
              mul_le_mul u2 (hu.trans u3) h0 (by positivity)
          _ = (d1 * (1 + 1 / 2 ^ 53)) ^ 2 := by field_simp
      have hq' := (Rat.cast_le (K := ℝ)).2 hq
      push_cast at hq'
      exact hq'
    have hd : (0 : ℝ) ≤ d1 := by exact_mod_cast e1
    calc (o.sqrt m : ℝ) * o.sqrt u ≤ (Real.sqrt m * (1 + 1 / 2 ^ 53)) * (Real.sqrt u * (1 + 1 / 2 ^ 53)) :=
          mul_le_mul s1 s2 n2 (by positivity)
      _ = Real.sqrt (m * u) * (1 + 1 / 2 ^ 53) ^ 2 := by
          rw [Real.sqrt_mul (by exact_mod_cast n1)]; ring
      _ ≤ Real.sqrt ((d1 * (1 + 1 / 2 ^ 53)) ^ 2) * (1 + 1 / 2 ^ 53) ^ 2 :=
          mul_le_mul_of_nonneg_right (Real.sqrt_le_sqrt hprod) (by positivity)
      _ = d1 * (1 + 1 / 2 ^ 53) ^ 3 := by rw [Real.sqrt_sq (by positivity)]; ring
  have key' : o.sqrt m * o.sqrt u ≤ d1 * (1 + 1 / 2 ^ 53) ^ 3 := (Rat.cast_le (K := ℝ)).1 (by push_cast; exact key)
  have n4 : 0 ≤ o.sqrt m * o.sqrt u := mul_nonneg (hs.ok.nonneg _ n1) (hs.ok.nonneg _ h0)
  have u4 := up H n4
  generalize o.fl (o.sqrt m * o.sqrt u) = z at u4 ⊢
  generalize o.sqrt m * o.sqrt u = y at *
  have h5 : z ≤ (b - a) * (1 + 1 / 2 ^ 53) ^ 5 := by
    calc z ≤ y * (1 + 1 / 2 ^ 53) := u4
      _ ≤ d1 * (1 + 1 / 2 ^ 53) ^ 3 * (1 + 1 / 2 ^ 53) := mul_le_mul_of_nonneg_right key' (by norm_num)
      _ ≤ (b - a) * (1 + 1 / 2 ^ 53) * (1 + 1 / 2 ^ 53) ^ 3 * (1 + 1 / 2 ^ 53) := by
          refine mul_le_mul_of_nonneg_right (mul_le_mul_of_nonneg_right u1 (by norm_num)) (by norm_num)
      _ = _ := by ring
  have h6 : (b - a) * (1 + 1 / 2 ^ 53) ^ 5 ≤ b - a + (b - a) / 2 ^ 50 := by
    have : ((1 : ℚ) + 1 / 2 ^ 53) ^ 5 ≤ 1 + 1 / 2 ^ 50 := by norm_num
    calc (b - a) * (1 + 1 / 2 ^ 53) ^ 5 ≤ (b - a) * (1 + 1 / 2 ^ 50) := mul_le_mul_of_nonneg_left this (by linarith)
      _ = _ := by ring
  have h7 : (b - a) / 2 ^ 50 ≤ (c - a) / 2 ^ 50 := div_le_div_of_nonneg_right (by linarith [not_lt.1 hbc]) (by norm_num)
  linarith

/-- The term of the second half. -/
theorem high_term (hs : SqrtAcc o) {a b c u : ℚ} (hab : a ≤ b) (hbc : b ≤ c) (hu1 : u ≤ 1)
    (hn : 0 ≤ o.fl (o.fl (o.fl (c - a) * u) - o.fl (b - a))) :
    o.fl (o.sqrt (o.fl (c - b)) * o.sqrt (o.fl (o.fl (o.fl (c - a) * u) - o.fl (b - a)))) ≤ c - b + (c - a) / 2 ^ 50 := by
  have R := Boost.Random.Nearest.rounding H
  have e1 : 0 ≤ o.fl (b - a) := fl_nn R (by linarith)
  have e2 : 0 ≤ o.fl (c - a) := fl_nn R (by linarith)
  have e3 : 0 ≤ o.fl (c - b) := fl_nn R (by linarith)
  have hw : o.fl (o.fl (o.fl (c - a) * u) - o.fl (b - a)) ≤ o.fl (o.fl (c - a) - o.fl (b - a)) := by
    refine R.mono _ _ (sub_le_sub_right (fl_le R (R.repr _) ?_) _)
    exact mul_le_of_le_one_right e2 hu1
  have hd : 0 ≤ o.fl (c - a) - o.fl (b - a) := sub_nonneg.2 (R.mono _ _ (by linarith))
  have u1 := up H hd
  have u2 := up H (x := c - a) (by linarith)
  have u3 := down H (x := b - a) (by linarith)
  have u4 := up H (x := c - b) (by linarith)
  have hw2 : o.fl (o.fl (o.fl (c - a) * u) - o.fl (b - a)) ≤ ((c - b) + 2 * ((c - a) / 2 ^ 53)) * (1 + 1 / 2 ^ 53) := by
    refine (hw.trans u1).trans (mul_le_mul_of_nonneg_right ?_ (by norm_num))
    linarith
  generalize o.fl (o.fl (o.fl (c - a) * u) - o.fl (b - a)) = w at *
  generalize o.fl (c - b) = g at *
  have s1 := hs.up e3
  have s2 := hs.up hn
  have n2 : (0 : ℝ) ≤ o.sqrt w := by exact_mod_cast hs.ok.nonneg _ hn
  have key : (o.sqrt g : ℝ) * o.sqrt w ≤ ((c - b) + (c - a) / 2 ^ 53) * (1 + 1 / 2 ^ 53) ^ 3 := by
    have hprod : (g : ℝ) * w ≤ (((c - b) + (c - a) / 2 ^ 53) * (1 + 1 / 2 ^ 53)) ^ 2 := by
      have hq : g * w ≤ (((c - b) + (c - a) / 2 ^ 53) * (1 + 1 / 2 ^ 53)) ^ 2 := by
        calc g * w ≤ ((c - b) * (1 + 1 / 2 ^ 53)) * (((c - b) + 2 * ((c - a) / 2 ^ 53)) * (1 + 1 / 2 ^ 53)) :=
              mul_le_mul u4 hw2 hn (mul_nonneg (by linarith) (by norm_num))
          _ ≤ (((c - b) + (c - a) / 2 ^ 53) * (1 + 1 / 2 ^ 53)) ^ 2 := by
              have : (((c - b) + (c - a) / 2 ^ 53) * (1 + 1 / 2 ^ 53)) ^ 2 - ((c - b) * (1 + 1 / 2 ^ 53)) * (((c - b) + 2 * ((c - a) / 2 ^ 53)) * (1 + 1 / 2 ^ 53)) =
                ((c - a) / 2 ^ 53 * (1 + 1 / 2 ^ 53)) ^ 2 := by ring
              linarith [sq_nonneg ((c - a) / 2 ^ 53 * (1 + 1 / 2 ^ 53))]
      have hq' := (Rat.cast_le (K := ℝ)).2 hq
      push_cast at hq'
      exact hq'
    have hcb : (0 : ℝ) ≤ (c - b) + (c - a) / 2 ^ 53 := by
      have : (0 : ℚ) ≤ (c - b) + (c - a) / 2 ^ 53 := add_nonneg (by linarith) (div_nonneg (by linarith) (by norm_num))
      exact_mod_cast this
    calc (o.sqrt g : ℝ) * o.sqrt w ≤ (Real.sqrt g * (1 + 1 / 2 ^ 53)) * (Real.sqrt w * (1 + 1 / 2 ^ 53)) :=
          mul_le_mul s1 s2 n2 (by positivity)
      _ = Real.sqrt (g * w) * (1 + 1 / 2 ^ 53) ^ 2 := by
          rw [Real.sqrt_mul (by exact_mod_cast e3)]; ring
      _ ≤ Real.sqrt ((((c - b) + (c - a) / 2 ^ 53) * (1 + 1 / 2 ^ 53)) ^ 2) * (1 + 1 / 2 ^ 53) ^ 2 :=
          mul_le_mul_of_nonneg_right (Real.sqrt_le_sqrt hprod) (by positivity)
      _ = _ := by rw [Real.sqrt_sq (by positivity)]; ring
  have key' : o.sqrt g * o.sqrt w ≤ ((c - b) + (c - a) / 2 ^ 53) * (1 + 1 / 2 ^ 53) ^ 3 := (Rat.cast_le (K := ℝ)).1 (by push_cast; exact key)
  have n4 : 0 ≤ o.sqrt g * o.sqrt w := mul_nonneg (hs.ok.nonneg _ e3) (hs.ok.nonneg _ hn)
  have u5 := up H n4
  generalize o.fl (o.sqrt g * o.sqrt w) = z at u5 ⊢
  generalize o.sqrt g * o.sqrt w = y at *
  have h5 : z ≤ ((c - b) + (c - a) / 2 ^ 53) * (1 + 1 / 2 ^ 53) ^ 4 := by
    calc z ≤ y * (1 + 1 / 2 ^ 53) := u5
      _ ≤ ((c - b) + (c - a) / 2 ^ 53) * (1 + 1 / 2 ^ 53) ^ 3 * (1 + 1 / 2 ^ 53) := mul_le_mul_of_nonneg_right key' (by norm_num)
      _ = _ := by ring
  have h6 : ((1 : ℚ) + 1 / 2 ^ 53) ^ 4 ≤ 1 + 5 / 2 ^ 53 := by norm_num
  have h7 : ((c - b) + (c - a) / 2 ^ 53) * (1 + 1 / 2 ^ 53) ^ 4 ≤ ((c - b) + (c - a) / 2 ^ 53) * (1 + 5 / 2 ^ 53) :=
    mul_le_mul_of_nonneg_left h6 (add_nonneg (by linarith) (div_nonneg (by linarith) (by norm_num)))
  have h8 : (c - b) * (5 / 2 ^ 53) ≤ (c - a) * (5 / 2 ^ 53) := mul_le_mul_of_nonneg_right (by linarith) (by norm_num)
  have h9 : (c - a) / 2 ^ 53 * (5 / 2 ^ 53) ≤ (c - a) / 2 ^ 53 := mul_le_of_le_one_right (div_nonneg (by linarith) (by norm_num)) (by norm_num)
  have h10 : (c - a) * (5 / 2 ^ 53) + (c - a) / 2 ^ 53 + (c - a) / 2 ^ 53 ≤ (c - a) / 2 ^ 50 := by
    have : (c - a) * (5 / 2 ^ 53) + (c - a) / 2 ^ 53 + (c - a) / 2 ^ 53 = (c - a) * (7 / 2 ^ 53) := by ring
    rw [this, show (c - a) / 2 ^ 50 = (c - a) * (1 / 2 ^ 50) by ring]
    exact mul_le_mul_of_nonneg_left (by norm_num) (by linarith)
  linarith [mul_add (c - b) 1 (5 / 2 ^ 53), show ((c - b) + (c - a) / 2 ^ 53) * (1 + 5 / 2 ^ 53) = (c - b) + (c - b) * (5 / 2 ^ 53) + (c - a) / 2 ^ 53 + (c - a) / 2 ^ 53 * (5 / 2 ^ 53) by ring]

/-- Rounding to nearest is never more than a few units wrong. -/
theorem value_near (hs : SqrtAcc o) {a b c u : ℚ} (hab : a ≤ b) (hbc : b ≤ c) (hac : a < c) (hu : Representable 53 u) (h0 : 0 ≤ u) (h1 : u ≤ 1) {v : ℚ}
    (hv : value o (init o a b c) u = .fin v) : o.fl (a - (c - a) / 2 ^ 50) ≤ v ∧ v ≤ o.fl (c + (c - a) / 2 ^ 50) := by
  have R := Boost.Random.Nearest.rounding H
  have hE : 0 ≤ (c - a) / 2 ^ 50 := div_nonneg (by linarith) (by norm_num)
  have hpos : 0 < o.fl (c - a) := lt_of_lt_of_le (mul_pos (by linarith) (by norm_num)) (down H (x := c - a) (by linarith))
  by_cases h : Ieee.le (.fin u) (init o a b c).q1 = true
  · rw [value_low_float h h0] at hv
    cases hv
    have hq : u ≤ o.fl (o.fl (b - a) / o.fl (c - a)) := by
      have e : (init o a b c).q1 = Ieee.div o (.fin (o.fl (b - a))) (.fin (o.fl (c - a))) := rfl
      rw [e] at h
      unfold Ieee.div at h
      simp only [if_neg hpos.ne'] at h
      exact of_decide_eq_true h
    have hl := (low_term H hs hab hac h0 hq hpos).resolve_right (not_lt.2 hbc)
    have hz : 0 ≤ o.fl (o.sqrt (o.fl (o.fl (b - a) * o.fl (c - a))) * o.sqrt u) :=
      fl_nn R (mul_nonneg (hs.ok.nonneg _ (fl_nn R (mul_nonneg (fl_nn R (by linarith)) hpos.le))) (hs.ok.nonneg _ h0))
    change _ ≤ o.fl (a + o.fl (o.sqrt (o.fl (o.fl (b - a) * o.fl (c - a))) * o.sqrt u)) ∧ o.fl (a + o.fl (o.sqrt (o.fl (o.fl (b - a) * o.fl (c - a))) * o.sqrt u)) ≤ _
    exact ⟨R.mono _ _ (by linarith), R.mono _ _ (by linarith)⟩
  · have hn := arg_nonneg R hab hbc hu h
    rw [value_high_float R hab hbc hu h] at hv
    cases hv
    have hl := high_term H hs hab hbc h1 hn
    have hz : 0 ≤ o.fl (o.sqrt (o.fl (c - b)) * o.sqrt (o.fl (o.fl (o.fl (c - a) * u) - o.fl (b - a)))) :=
      fl_nn R (mul_nonneg (hs.ok.nonneg _ (fl_nn R (by linarith))) (hs.ok.nonneg _ hn))
    exact ⟨R.mono _ _ (by linarith), R.mono _ _ (by linarith)⟩

end

/-! ## A value below the minimum -/

theorem correctlyRounded_eq {P : Nat} {x : ℝ} {y : ℚ} (h : CorrectlyRounded P x y) (m : Nat) (e : ℤ) (hlo : 2 ^ (P - 1) < m) (hhi : m < 2 ^ P)
    (hx : |(m : ℝ) * 2 ^ e - x| < 2 ^ e / 2) : y = (m : ℚ) * 2 ^ e := by
  have hy : Representable P ((m : ℚ) * 2 ^ e) := ⟨m, e, by rw [abs_of_nonneg (by omega)]; exact_mod_cast hhi, by push_cast; rfl⟩
  refine representable_close h.1 m e hlo ?_
  have h2 := h.2 _ hy
  push_cast at h2
  rw [abs_sub_comm x ((m : ℝ) * 2 ^ e)] at h2
  have h3 : |(y : ℝ) - (m : ℝ) * 2 ^ e| < 2 ^ e := by
    have : (y : ℝ) - (m : ℝ) * 2 ^ e = -(x - y) + -((m : ℝ) * 2 ^ e - x) := by ring
    rw [this]
    refine lt_of_le_of_lt (abs_add_le _ _) ?_
    rw [abs_neg, abs_neg]
    linarith
  have : ((|y - (m : ℚ) * 2 ^ e| : ℚ) : ℝ) < ((2 ^ e : ℚ) : ℝ) := by push_cast; exact h3
  exact_mod_cast this

/-- A number near enough to a floating-point number is rounded to it. -/
theorem correctlyRounded_of {P : Nat} {x : ℝ} (m : Nat) (e : ℤ) (hlo : 2 ^ (P - 1) < m) (hhi : m < 2 ^ P)
    (hx : |(m : ℝ) * 2 ^ e - x| < 2 ^ e / 2) : CorrectlyRounded P x ((m : ℚ) * 2 ^ e) := by
  refine ⟨⟨m, e, by rw [abs_of_nonneg (by omega)]; exact_mod_cast hhi, by push_cast; rfl⟩, fun z hz => ?_⟩
  by_contra hlt
  push Not at hlt
  push_cast at hlt
  rw [abs_sub_comm _ ((m : ℝ) * 2 ^ e)] at hlt
  have hc : |(z : ℝ) - m * 2 ^ e| < 2 ^ e := by
    have : (z : ℝ) - m * 2 ^ e = -(x - z) + -(m * 2 ^ e - x) := by ring
    rw [this]
    refine lt_of_le_of_lt (abs_add_le _ _) ?_
    rw [abs_neg, abs_neg]
    linarith
  have h2 := representable_close hz m e hlo (by
    have : ((|z - (m : ℚ) * 2 ^ e| : ℚ) : ℝ) < ((2 ^ e : ℚ) : ℝ) := by push_cast; exact hc
    exact_mod_cast this)
  rw [h2] at hlt
  push_cast at hlt
  rw [abs_sub_comm ((m : ℝ) * 2 ^ e)] at hlt
  exact lt_irrefl _ hlt

/-- The square root of a rational number between two squares. -/
theorem sqrt_near {x m h : ℝ} (hh : 0 < h) (hm : h ≤ m) (h1 : (m - h) ^ 2 < x) (h2 : x < (m + h) ^ 2) : |m - Real.sqrt x| < h := by
  rw [abs_lt]
  have a1 : m - h < Real.sqrt x := (Real.lt_sqrt (by linarith)).2 h1
  have a2 : Real.sqrt x < m + h := (Real.sqrt_lt' (by linarith)).2 h2
  constructor <;> linarith

theorem fl_round_neg {P : Nat} {fl : ℚ → ℚ} (H : Nearest P fl) {x y : ℚ} (m : Nat) (e : ℤ) (hy : y = -((m : ℚ) * 2 ^ e)) (hlo : 2 ^ (P - 1) < m) (hhi : m < 2 ^ P)
    (hx : |x - y| < 2 ^ e / 2) : fl x = y := by
  have H' : Nearest P fun x => -fl (-x) := by
    constructor
    · intro x
      obtain ⟨m, e, hm, he⟩ := H.repr (-x)
      exact ⟨-m, e, by rwa [abs_neg], by rw [he]; push_cast; ring⟩
    · intro x z ⟨m, e, hm, he⟩
      have := H.nearest (-x) (-z) ⟨-m, e, by rwa [abs_neg], by rw [he]; push_cast; ring⟩
      rw [← abs_neg, ← abs_neg (x - z)]
      convert! this using 2 <;> ring
  have h1 := fl_round H' (x := -x) (y := -y) m e (by rw [hy, neg_neg]) hlo hhi (by rw [← abs_neg]; convert! hx using 2; ring)
  simp only [neg_neg] at h1
  exact neg_inj.1 h1

end Boost.Random.Triangle
