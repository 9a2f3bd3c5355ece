import Verif.Proofs.SphereRun
import Verif.Proofs.TriangleFloat
import Verif.Proofs.FaureBounds
import Verif.Proofs.NearPow
import Verif.Proofs.Canonical
import Verif.Proofs.GammaFloat

/-!
# `uniform_on_sphere` in floating-point arithmetic
-/

namespace Boost.Random.Sphere
open Spec RealDist

/-! ## Rounding -/

/-- The relative error is less than half a unit in the last place of 1. -/
theorem nearest_rel_lt {p : Nat} (hp : 1 ≤ p) {fl : ℚ → ℚ} (H : Nearest p fl) {x : ℚ} (h : x ≠ 0) : |x - fl x| < |x| / 2 ^ p := by
  have hpos : 0 < |x| / 2 ^ p := by positivity
  by_cases hr : Representable p x
  · rw [(Boost.Random.Nearest.rounding H).exact x hr, sub_self, abs_zero]
    exact hpos
  refine lt_of_le_of_lt (H.nearest x (rn p x) ((rn_nearest hp).repr x)) ?_
  unfold rn
  rw [if_neg h]
  obtain ⟨h1, h2⟩ := Boost.Random.log_bounds h
  have hu := ulp_pos p x
  have e : x - (round (x / ulp p x) : ℚ) * ulp p x = (x / ulp p x - round (x / ulp p x)) * ulp p x := by
    rw [sub_mul, div_mul_cancel₀ _ hu.ne']
  have hlt : (2 : ℚ) ^ Int.log 2 |x| < |x| := by
    refine lt_of_le_of_ne h1 fun he => hr ?_
    have h1p : ((1 : ℤ) : ℤ) < 2 ^ p := by exact_mod_cast one_lt_pow₀ (by norm_num : (1 : ℤ) < 2) (by omega)
    rcases abs_choice x with hx | hx
    · exact ⟨1, Int.log 2 |x|, by simpa using h1p, by rw [Int.cast_one, one_mul, he, hx]⟩
    · exact ⟨-1, Int.log 2 |x|, by simpa using h1p, by rw [Int.cast_neg, Int.cast_one, neg_one_mul, he, hx, neg_neg]⟩
  rw [e, abs_mul, abs_of_pos hu]
  have h3 : |x / ulp p x - round (x / ulp p x)| ≤ 1 / 2 := abs_sub_round _
  have h4 : ulp p x = 2 * (2 : ℚ) ^ Int.log 2 |x| / 2 ^ p := by
    unfold ulp
    rw [zpow_sub₀ two_ne_zero, zpow_add₀ two_ne_zero, zpow_one, zpow_natCast]
    ring
  calc |x / ulp p x - round (x / ulp p x)| * ulp p x ≤ 1 / 2 * ulp p x := mul_le_mul_of_nonneg_right h3 hu.le
    _ = (2 : ℚ) ^ Int.log 2 |x| / 2 ^ p := by rw [h4]; ring
    _ < |x| / 2 ^ p := by gcongr

/-- Nearly 1 is rounded to at most 1. -/
theorem fl_near_one {fl : ℚ → ℚ} (H : Nearest 53 fl) {x : ℚ} (h : |x| < 1 + 1 / 2 ^ 53) : |fl x| ≤ 1 := by
  by_contra hc
  rw [not_le] at hc
  have hrep : Representable 53 |fl x| := by
    obtain ⟨m, e, hm, he⟩ := H.repr x
    refine ⟨|m|, e, by rwa [abs_abs], ?_⟩
    rw [he, abs_mul, abs_of_pos (by positivity : (0 : ℚ) < 2 ^ e), Int.cast_abs]
  have h1 := Representable.ge_succ_one (by norm_num) hrep hc
  have h2 : |x - (if 0 ≤ x then 1 else -1)| = abs (1 - abs x) := by
    split
    · next hx => rw [abs_of_nonneg hx, abs_sub_comm]
    · next hx => rw [abs_of_neg (not_le.1 hx)]; congr 1; ring
  have h3 := H.nearest x (if 0 ≤ x then 1 else -1) (by split; exacts [Representable.one (by norm_num), ⟨-1, 0, by norm_num, by norm_num⟩])
  rw [h2] at h3
  have h4 : |fl x| - |x| ≤ |x - fl x| := by rw [abs_sub_comm]; exact abs_sub_abs_le_abs_sub _ _
  have h5 : abs (1 - abs x) < 1 + 2 / 2 ^ 53 - |x| := by
    rw [abs_lt]
    constructor <;> linarith [abs_nonneg x]
  linarith

/-- A number with 53 bits has a normal form. -/
theorem normal_form {v : ℚ} (hv : Representable 53 v) (h : 0 < v) : ∃ (m : Nat) (e : ℤ), 2 ^ 52 ≤ m ∧ m < 2 ^ 53 ∧ v = (m : ℚ) * 2 ^ e := by
  obtain ⟨m, e, hm, he⟩ := hv
  have hm0 : 0 < m := by
    by_contra hc
    have : (m : ℚ) ≤ 0 := by exact_mod_cast not_lt.1 hc
    have : v ≤ 0 := by rw [he]; exact mul_nonpos_of_nonpos_of_nonneg this (by positivity)
    linarith
  obtain ⟨k, rfl⟩ : ∃ k : Nat, m = k := ⟨m.toNat, by omega⟩
  have hk : k < 2 ^ 53 := by
    rw [abs_of_pos hm0] at hm
    exact_mod_cast hm
  have hk0 : 0 < k := by exact_mod_cast hm0
  refine ⟨k * 2 ^ (52 - Nat.log 2 k), e - (52 - Nat.log 2 k : Nat), ?_, ?_, ?_⟩
  · have h1 := Nat.pow_log_le_self 2 hk0.ne'
    have h2 : Nat.log 2 k ≤ 52 := by
      have : Nat.log 2 k < 53 := Nat.log_lt_of_lt_pow hk0.ne' hk
      omega
    calc 2 ^ 52 = 2 ^ Nat.log 2 k * 2 ^ (52 - Nat.log 2 k) := by rw [← pow_add]; congr 1; omega
      _ ≤ k * 2 ^ (52 - Nat.log 2 k) := Nat.mul_le_mul_right _ h1
  · have h1 := Nat.lt_pow_succ_log_self (b := 2) (by norm_num) k
    have h2 : Nat.log 2 k ≤ 52 := by
      have : Nat.log 2 k < 53 := Nat.log_lt_of_lt_pow hk0.ne' hk
      omega
    calc k * 2 ^ (52 - Nat.log 2 k) < 2 ^ (Nat.log 2 k + 1) * 2 ^ (52 - Nat.log 2 k) := Nat.mul_lt_mul_of_pos_right h1 (by positivity)
      _ = 2 ^ 53 := by rw [← pow_add]; congr 1; omega
  · rw [he, zpow_sub₀ two_ne_zero, zpow_natCast]
    push_cast
    field_simp

/-- The correctly rounded square root of a number not below the rounded square of `v` is not below `v`. -/
theorem sqrt_square_ge {fl : ℚ → ℚ} (H : Nearest 53 fl) {v s r : ℚ} (hv : Representable 53 v) (hs : fl (v * v) ≤ s) (hs0 : 0 ≤ s)
    (hr : CorrectlyRounded 53 (Real.sqrt s) r) : |v| ≤ r := by
  have hvabs : Representable 53 |v| := by
    obtain ⟨m, e, hm, he⟩ := hv
    refine ⟨|m|, e, by rwa [abs_abs], ?_⟩
    rw [he, abs_mul, abs_of_pos (by positivity : (0 : ℚ) < 2 ^ e), Int.cast_abs]
  by_contra hc
  rw [not_le] at hc
  have hsq : v * v = |v| * |v| := (abs_mul_abs_self v).symm
  rw [hsq] at hs
  generalize |v| = w at *
  have h1 := hr.2 w hvabs
  have hrw : (r : ℝ) < w := by exact_mod_cast hc
  have hmid : Real.sqrt s ≤ ((r : ℝ) + w) / 2 := by
    by_contra h
    rw [not_le] at h
    have h2 : |Real.sqrt s - w| < |Real.sqrt s - r| := by
      rw [abs_of_pos (by linarith : 0 < Real.sqrt s - r), abs_lt]
      constructor <;> linarith
    linarith
  have hsle : s ≤ ((r + w) / 2) ^ 2 := by
    have h0 := Real.sqrt_nonneg (s : ℝ)
    have h2 : (s : ℝ) ≤ (((r : ℝ) + w) / 2) ^ 2 := by
      calc (s : ℝ) = Real.sqrt s ^ 2 := (Real.sq_sqrt (by exact_mod_cast hs0)).symm
        _ ≤ _ := pow_le_pow_left₀ h0 hmid 2
    exact_mod_cast h2
  have hmid0 : 0 ≤ (r + w) / 2 := by
    have : (0 : ℝ) ≤ ((r : ℝ) + w) / 2 := (Real.sqrt_nonneg _).trans hmid
    exact_mod_cast this
  have hw : 0 < w := by linarith
  obtain ⟨m, e, hm1, hm2, hme⟩ := normal_form hvabs hw
  have he : (0 : ℚ) < 2 ^ e := by positivity
  rcases hm1.lt_or_eq with hm | hm
  · have hgap : r + 2 ^ e ≤ w := by
      by_contra h
      rw [not_le] at h
      have := representable_close hr.1 m e hm (by rw [← hme, abs_lt]; constructor <;> linarith)
      rw [← hme] at this
      linarith
    have hfl := (Faure.fl_bounds (by norm_num) H (x := w * w) (by positivity)).1
    have h3 : s ≤ (w - 2 ^ e / 2) ^ 2 := hsle.trans (pow_le_pow_left₀ hmid0 (by linarith) 2)
    have h4 : w * w * (1 - 1 / 2 ^ 53) ≤ (w - 2 ^ e / 2) ^ 2 := (hfl.trans hs).trans h3
    have hm' : (m : ℚ) ≤ 2 ^ 53 - 1 := by
      have : m + 1 ≤ 2 ^ 53 := hm2
      have : ((m + 1 : Nat) : ℚ) ≤ ((2 ^ 53 : Nat) : ℚ) := by exact_mod_cast this
      push_cast at this
      linarith
    have hm'' : (2 : ℚ) ^ 52 ≤ m := by exact_mod_cast hm1
    have h5 : (m : ℚ) * m * (1 - 1 / 2 ^ 53) ≤ (m - 1 / 2) ^ 2 := by
      rw [hme] at h4
      have e1 : (m : ℚ) * 2 ^ e * (m * 2 ^ e) * (1 - 1 / 2 ^ 53) = m * m * (1 - 1 / 2 ^ 53) * (2 ^ e * 2 ^ e) := by ring
      have e2 : ((m : ℚ) * 2 ^ e - 2 ^ e / 2) ^ 2 = (m - 1 / 2) ^ 2 * (2 ^ e * 2 ^ e) := by ring
      rw [e1, e2] at h4
      exact le_of_mul_le_mul_right h4 (by positivity)
    generalize (m : ℚ) = k at *
    norm_num at hm' hm'' h5
    nlinarith
  · have hrep : Representable 53 (w * w) := by
      refine ⟨1, 104 + 2 * e, by norm_num, ?_⟩
      rw [hme, ← hm, zpow_add₀ two_ne_zero, two_mul, zpow_add₀ two_ne_zero]
      norm_num
      ring
    rw [(Boost.Random.Nearest.rounding H).exact _ hrep] at hs
    nlinarith

/-! ## The length -/

section
variable {o : RealOps ℚ} (H : Nearest 53 o.fl) (hs : Triangle.SqrtAcc o)

/-- One minus the unit roundoff. -/
abbrev aa : ℚ := 1 - 1 / 2 ^ 53

theorem aa_pos : 0 < aa := by norm_num [aa]
theorem aa_le : aa ≤ 1 := by norm_num [aa]

/-- `y` is `x` up to `k` relative errors. -/
def Near (k : Nat) (x y : ℚ) : Prop := aa ^ k * x ≤ y ∧ aa ^ k * y ≤ x

theorem Near.refl (x : ℚ) : Near 0 x x := by simp [Near]

theorem Near.trans {j k : Nat} {x y z : ℚ} (h1 : Near j x y) (h2 : Near k y z) : Near (j + k) x z := by
  have ha := aa_pos
  constructor
  · calc aa ^ (j + k) * x = aa ^ k * (aa ^ j * x) := by ring
      _ ≤ aa ^ k * y := mul_le_mul_of_nonneg_left h1.1 (by positivity)
      _ ≤ z := h2.1
  · calc aa ^ (j + k) * z = aa ^ j * (aa ^ k * z) := by ring
      _ ≤ aa ^ j * y := mul_le_mul_of_nonneg_left h2.2 (by positivity)
      _ ≤ x := h1.2

theorem Near.mono {j k : Nat} {x y : ℚ} (h : Near j x y) (hx : 0 ≤ x) (hy : 0 ≤ y) (hjk : j ≤ k) : Near k x y := by
  have := pow_le_pow_of_le_one aa_pos.le aa_le hjk
  exact ⟨(mul_le_mul_of_nonneg_right this hx).trans h.1, (mul_le_mul_of_nonneg_right this hy).trans h.2⟩

theorem Near.add {k : Nat} {x y x' y' : ℚ} (h1 : Near k x y) (h2 : Near k x' y') : Near k (x + x') (y + y') :=
  ⟨by rw [mul_add]; exact add_le_add h1.1 h2.1, by rw [mul_add]; exact add_le_add h1.2 h2.2⟩

theorem Near.mul_left {k : Nat} {x y : ℚ} (h : Near k x y) {c : ℚ} (hc : 0 ≤ c) : Near k (c * x) (c * y) :=
  ⟨by rw [mul_left_comm]; exact mul_le_mul_of_nonneg_left h.1 hc, by rw [mul_left_comm]; exact mul_le_mul_of_nonneg_left h.2 hc⟩

theorem Near.inv {k : Nat} {x y : ℚ} (h : Near k x y) (hx : 0 < x) (hy : 0 < y) : Near k (1 / x) (1 / y) := by
  constructor
  · rw [mul_one_div, div_le_div_iff₀ hx hy, one_mul]
    exact h.2
  · rw [mul_one_div, div_le_div_iff₀ hy hx, one_mul]
    exact h.1

theorem Near.symm {k : Nat} {x y : ℚ} (h : Near k x y) : Near k y x := ⟨h.2, h.1⟩

theorem Near.one {m : Nat} {y : ℚ} (h : Near m 1 y) (hm : m ≤ 2 ^ 52) : |y - 1| ≤ m / 2 ^ 52 := by
  have hb := one_add_mul_le_pow (a := (-(1 / 2 ^ 53) : ℚ)) (by norm_num) m
  have hm' : (m : ℚ) ≤ 2 ^ 52 := by exact_mod_cast hm
  have e : aa = 1 + -(1 / 2 ^ 53) := by norm_num [aa]
  rw [← e] at hb
  obtain ⟨h1, h2⟩ := h
  generalize aa ^ m = c at *
  have hm0 : (0 : ℚ) ≤ m := Nat.cast_nonneg m
  generalize (m : ℚ) = t at *
  have hc : 1 - t / 2 ^ 53 ≤ c := by linarith
  have hc' : (1 : ℚ) / 2 ≤ 1 - t / 2 ^ 53 := by
    have : t / 2 ^ 53 ≤ 2 ^ 52 / 2 ^ 53 := by gcongr
    norm_num at this ⊢
    linarith
  rw [abs_le]
  constructor
  · have : t / 2 ^ 53 ≤ t / 2 ^ 52 := by gcongr <;> norm_num
    linarith
  · have hy : y ≤ 1 / (1 - t / 2 ^ 53) := by
      rw [le_div_iff₀ (by linarith)]
      by_cases hy0 : 0 ≤ y
      · nlinarith
      · nlinarith
    refine (sub_le_iff_le_add.2 (hy.trans ?_))
    rw [div_le_iff₀ (by linarith)]
    have e2 : t / 2 ^ 52 = 2 * (t / 2 ^ 53) := by ring
    rw [e2]
    have h0 : 0 ≤ t / 2 ^ 53 := by positivity
    nlinarith

include H

theorem near_fl {x : ℚ} (h : 0 ≤ x) : Near 1 x (o.fl x) := by
  have := Faure.fl_bounds (by norm_num) H h
  exact ⟨by rw [pow_one, mul_comm]; exact this.1, by rw [pow_one, mul_comm]; exact this.2⟩

theorem near_fl_sq (x : ℚ) : Near 2 (x ^ 2) (o.fl x ^ 2) := by
  have h := Faure.nearest_rel (by norm_num) H x
  have h1 : |x| * aa ≤ |o.fl x| := by
    have := abs_sub_abs_le_abs_sub x (o.fl x)
    have e : |x| * aa = |x| - |x| / 2 ^ 53 := by rw [aa]; ring
    rw [e]
    linarith only [this, h]
  have h2 : |o.fl x| * aa ≤ |x| := by
    have := abs_sub_abs_le_abs_sub (o.fl x) x
    rw [abs_sub_comm] at this
    have h3 : |o.fl x| ≤ |x| * (1 + 1 / 2 ^ 53) := by
      have e : |x| * (1 + 1 / 2 ^ 53) = |x| + |x| / 2 ^ 53 := by ring
      linarith
    calc |o.fl x| * aa ≤ |x| * (1 + 1 / 2 ^ 53) * aa := mul_le_mul_of_nonneg_right h3 aa_pos.le
      _ = |x| * ((1 + 1 / 2 ^ 53) * aa) := by ring
      _ ≤ |x| * 1 := mul_le_mul_of_nonneg_left (by norm_num [aa]) (abs_nonneg x)
      _ = |x| := mul_one _
  have ha := aa_pos
  constructor
  · have := pow_le_pow_left₀ (by positivity) h1 2
    rw [mul_pow, sq_abs, sq_abs] at this
    linarith
  · have := pow_le_pow_left₀ (by positivity) h2 2
    rw [mul_pow, sq_abs, sq_abs] at this
    linarith

include hs

omit H in
theorem near_sqrt {x : ℚ} (h : 0 ≤ x) : Near 2 x (o.sqrt x ^ 2) := by
  have h1 := hs x h
  have h0 := Real.sqrt_nonneg (x : ℝ)
  rw [abs_le] at h1
  have ha : ((aa : ℚ) : ℝ) = 1 - 1 / 2 ^ 53 := by norm_num [aa]
  have ha0 : (0 : ℝ) < ((aa : ℚ) : ℝ) := by exact_mod_cast aa_pos
  have hsq : Real.sqrt (x : ℝ) ^ 2 = x := Real.sq_sqrt (by exact_mod_cast h)
  have l1 : Real.sqrt x * (aa : ℚ) ≤ o.sqrt x := by rw [ha]; linarith [h1.1]
  have l0 : (0 : ℝ) ≤ o.sqrt x := (mul_nonneg h0 ha0.le).trans l1
  have l2 : (o.sqrt x : ℝ) * (aa : ℚ) ≤ Real.sqrt x := by
    have : (o.sqrt x : ℝ) ≤ Real.sqrt x * (1 + 1 / 2 ^ 53) := by linarith [h1.2]
    calc (o.sqrt x : ℝ) * (aa : ℚ) ≤ Real.sqrt x * (1 + 1 / 2 ^ 53) * (aa : ℚ) := mul_le_mul_of_nonneg_right this ha0.le
      _ = Real.sqrt x * ((1 + 1 / 2 ^ 53) * (aa : ℚ)) := by ring
      _ ≤ Real.sqrt x * 1 := mul_le_mul_of_nonneg_left (by rw [ha]; norm_num) h0
      _ = _ := mul_one _
  have e1 := pow_le_pow_left₀ (mul_nonneg h0 ha0.le) l1 2
  have e2 := pow_le_pow_left₀ (mul_nonneg l0 ha0.le) l2 2
  rw [mul_pow, hsq] at e1 e2
  constructor
  · have : ((aa ^ 2 * x : ℚ) : ℝ) ≤ ((o.sqrt x ^ 2 : ℚ) : ℝ) := by push_cast; push_cast at e1; linarith
    exact_mod_cast this
  · have : ((aa ^ 2 * o.sqrt x ^ 2 : ℚ) : ℝ) ≤ ((x : ℚ) : ℝ) := by push_cast; push_cast at e2; linarith
    exact_mod_cast this

omit hs in
theorem near_squares : ∀ (vs : List ℚ) (q p : ℚ) (k : Nat), 0 ≤ q → 0 ≤ p → 1 ≤ k → Near k q p → Near (k + vs.length) (q + (vs.map (· ^ 2)).sum) (squares o p vs) ∧ 0 ≤ squares o p vs
  | [], q, p, k, _, hp, _, h => by simpa [squares] using ⟨h, hp⟩
  | v :: vs, q, p, k, hq, hp, hk, h => by
    have R := Boost.Random.Nearest.rounding H
    have h1 : Near k (v ^ 2) (o.fl (v * v)) := by
      rw [sq]
      exact (near_fl H (mul_self_nonneg v)).mono (mul_self_nonneg v) (Boost.Random.fl_nonneg R (mul_self_nonneg v)) hk
    have hf : 0 ≤ o.fl (v * v) := Boost.Random.fl_nonneg R (mul_self_nonneg v)
    have h2 := (h.add h1).trans (near_fl H (add_nonneg hp hf))
    obtain ⟨h3, h4⟩ := near_squares vs (q + v ^ 2) (o.fl (p + o.fl (v * v))) (k + 1) (by positivity) (Boost.Random.fl_nonneg R (add_nonneg hp hf)) (by omega) h2
    refine ⟨?_, h4⟩
    rw [List.map_cons, List.sum_cons, List.length_cons, ← add_assoc q, show k + (vs.length + 1) = k + 1 + vs.length by ring]
    exact h3

/-- The sum of the squares of the quotients. -/
theorem near_scaled {s : ℚ} (hs0 : 0 < s) (vs : List ℚ) :
    Near 6 ((vs.map (· ^ 2)).sum * (1 / s)) (((scaled o s vs).map (· ^ 2)).sum) := by
  have hr := near_sqrt hs hs0.le
  have hr0 : 0 < o.sqrt s ^ 2 := lt_of_lt_of_le (mul_pos (pow_pos aa_pos 2) hs0) hr.1
  have h1 := hr.inv hs0 hr0
  have h2 := near_fl_sq H (1 / o.sqrt s)
  rw [div_pow, one_pow] at h2
  have h3 := h1.trans h2
  simp only [scaled, List.map_map]
  generalize o.fl (1 / o.sqrt s) = i at *
  clear h1 h2
  induction vs with
  | nil => simp [Near]
  | cons v vs ih =>
    simp only [List.map_cons, List.sum_cons, Function.comp_apply, add_mul] at ih ⊢
    refine Near.add ?_ ih
    have h4 := near_fl_sq H (v * i)
    rw [mul_pow] at h4
    exact (h3.mul_left (sq_nonneg v)).trans h4

variable {σ : Type} {N : Numbers ℚ σ}

theorem Point.near {d : Nat} {l : List ℚ} (h : Point o N d l) (hd : d ≠ 0) : Near (d + 7) 1 ((l.map (· ^ 2)).sum) := by
  have R := Boost.Random.Nearest.rounding H
  have hone : ∀ {s q : ℚ} {k : Nat}, 0 < s → Near k q s → 0 < q → Near k 1 (q * (1 / s)) := by
    intro s q k hs0 h hq
    have h1 := (h.inv hq hs0).mul_left hq.le
    rwa [mul_one_div_cancel hq.ne'] at h1
  have hqpos : ∀ {s q : ℚ} {k : Nat}, 0 < s → Near k q s → 0 < q := fun hs0 h => lt_of_lt_of_le (mul_pos (pow_pos aa_pos _) hs0) h.2
  have hsq : ∀ l : List ℚ, 0 ≤ (l.map (· ^ 2)).sum := fun l => List.sum_nonneg fun x hx => by obtain ⟨v, _, rfl⟩ := List.mem_map.1 hx; positivity
  cases h with
  | zero => exact absurd rfl hd
  | low => exact Near.mono (by simpa using Near.refl 1) zero_le_one (hsq _) (Nat.zero_le _)
  | high => exact Near.mono (by simpa using Near.refl 1) zero_le_one (hsq _) (Nat.zero_le _)
  | circle u v h0 h1 =>
    generalize side o u = x at *
    generalize side o v = y at *
    have hx := Boost.Random.fl_nonneg R (mul_self_nonneg x)
    have hy := Boost.Random.fl_nonneg R (mul_self_nonneg y)
    have hn : Near 2 (x * x + y * y) (square o x y) :=
      ((near_fl H (mul_self_nonneg x)).add (near_fl H (mul_self_nonneg y))).trans (near_fl H (add_nonneg hx hy))
    have hp : 0 < square o x y := lt_of_le_of_ne (Boost.Random.fl_nonneg R (add_nonneg hx hy)) (Ne.symm h0)
    have h2 := near_scaled H hs hp [x, y]
    have e : (List.map (fun x : ℚ => x ^ 2) [x, y]).sum = x * x + y * y := by simp; ring
    rw [e] at h2
    exact ((hone hp hn (hqpos hp hn)).trans h2).mono zero_le_one (hsq _) (by norm_num)
  | globe u v h1 =>
    generalize side o u = x at *
    generalize side o v = y at *
    have hx := Boost.Random.fl_nonneg R (mul_self_nonneg x)
    have hy := Boost.Random.fl_nonneg R (mul_self_nonneg y)
    have hn : Near 2 (x * x + y * y) (square o x y) :=
      ((near_fl H (mul_self_nonneg x)).add (near_fl H (mul_self_nonneg y))).trans (near_fl H (add_nonneg hx hy))
    have hp : 0 ≤ square o x y := Boost.Random.fl_nonneg R (add_nonneg hx hy)
    have hrep : Representable 53 (square o x y) := H.repr _
    simp only [Sphere.globe, List.map_cons, List.map_nil, List.sum_cons, List.sum_nil, add_zero]
    generalize square o x y = s at *
    have e2 : o.fl (2 * s) = 2 * s := by
      refine R.exact _ ?_
      obtain ⟨m, e, hm, he⟩ := hrep
      exact ⟨m, e + 1, hm, by rw [he, zpow_add₀ two_ne_zero, zpow_one]; ring⟩
    rw [e2]
    have ht0 : 0 ≤ 1 - s := by linarith
    have ht := near_fl H ht0
    have hft := Boost.Random.fl_nonneg R ht0
    have hr := ht.trans (near_sqrt hs hft)
    have hm := near_fl_sq H (2 * o.sqrt (o.fl (1 - s)))
    rw [mul_pow, show (2 : ℚ) ^ 2 = 4 by norm_num] at hm
    have hm' := (hr.mul_left (by norm_num : (0 : ℚ) ≤ 4)).trans hm
    generalize o.fl (2 * o.sqrt (o.fl (1 - s))) = M at *
    have hX := near_fl_sq H (x * M)
    have hY := near_fl_sq H (y * M)
    rw [mul_pow] at hX hY
    have hX' := (hm'.mul_left (sq_nonneg x)).trans hX
    have hY' := (hm'.mul_left (sq_nonneg y)).trans hY
    have hZ := near_fl_sq H (2 * s - 1)
    have h3 : Near 9 (4 * s * (1 - s)) (o.fl (x * M) ^ 2 + o.fl (y * M) ^ 2) := by
      have h4 := (hn.symm.mul_left (show (0 : ℚ) ≤ 4 * (1 - s) by linarith))
      have h5 := hX'.add hY'
      have e3 : x ^ 2 * (4 * (1 - s)) + y ^ 2 * (4 * (1 - s)) = 4 * (1 - s) * (x * x + y * y) := by ring
      rw [e3] at h5
      have := h4.trans h5
      rwa [show 4 * (1 - s) * s = 4 * s * (1 - s) by ring] at this
    have h6 := h3.add (hZ.mono (sq_nonneg _) (sq_nonneg _) (by norm_num : 2 ≤ 9))
    rw [show 4 * s * (1 - s) + (2 * s - 1) ^ 2 = 1 by ring, add_assoc] at h6
    exact h6.mono zero_le_one (by positivity) (by norm_num)
  | many vs h4 h0 hN =>
    obtain ⟨hn, hp⟩ := near_squares H vs 0 0 1 le_rfl le_rfl le_rfl (by simp [Near])
    have hp' : 0 < squares o 0 vs := lt_of_le_of_ne hp (Ne.symm h0)
    rw [zero_add] at hn
    have h2 := (hone hp' hn (hqpos hp' hn)).trans (near_scaled H hs hp' vs)
    exact h2.mono zero_le_one (hsq _) (by omega)

end

/-! ## The coordinates -/

section
variable {o : RealOps ℚ} (H : Nearest 53 o.fl) (hs : ∀ x : ℚ, 0 ≤ x → CorrectlyRounded 53 (Real.sqrt x) (o.sqrt x))
include H hs

theorem quotient_le {v s : ℚ} (hv : Representable 53 v) (hle : o.fl (v * v) ≤ s) (hs0 : 0 < s) : |o.fl (v * o.fl (1 / o.sqrt s))| ≤ 1 := by
  have R := Boost.Random.Nearest.rounding H
  by_cases h0 : v = 0
  · rw [h0, zero_mul, R.exact 0 (Representable.zero _)]
    norm_num
  have hge := sqrt_square_ge H hv hle hs0.le (hs s hs0.le)
  have hpos : 0 < |v| := abs_pos.2 h0
  apply fl_near_one H
  have h1 : o.fl (1 / o.sqrt s) ≤ o.fl (1 / |v|) := R.mono _ _ (one_div_le_one_div_of_le hpos hge)
  have h2 : 0 ≤ o.fl (1 / o.sqrt s) := Boost.Random.fl_nonneg R (by have := hpos.le.trans hge; positivity)
  have h3 := nearest_rel_lt (by norm_num) H (x := 1 / |v|) (by positivity)
  rw [abs_of_pos (by positivity : 0 < 1 / |v|), abs_lt] at h3
  rw [abs_mul, abs_of_nonneg h2]
  calc |v| * o.fl (1 / o.sqrt s) ≤ |v| * o.fl (1 / |v|) := mul_le_mul_of_nonneg_left h1 hpos.le
    _ < |v| * (1 / |v| + 1 / |v| / 2 ^ 53) := mul_lt_mul_of_pos_left (by linarith [h3.1]) hpos
    _ = 1 + 1 / 2 ^ 53 := by field_simp

omit hs in
theorem squares_ge : ∀ (vs : List ℚ) (q : ℚ), 0 ≤ q → Representable 53 q → q ≤ squares o q vs ∧ ∀ v ∈ vs, o.fl (v * v) ≤ squares o q vs
  | [], q, _, _ => ⟨le_rfl, by simp⟩
  | v :: vs, q, hq, hr => by
    have R := Boost.Random.Nearest.rounding H
    have hf : 0 ≤ o.fl (v * v) := Boost.Random.fl_nonneg R (mul_self_nonneg v)
    obtain ⟨h1, h2⟩ := squares_ge vs (o.fl (q + o.fl (v * v))) (Boost.Random.fl_nonneg R (add_nonneg hq hf)) (R.repr _)
    have e1 : q ≤ o.fl (q + o.fl (v * v)) := by
      have := R.mono q (q + o.fl (v * v)) (by linarith)
      rwa [R.exact q hr] at this
    have e2 : o.fl (v * v) ≤ o.fl (q + o.fl (v * v)) := by
      have := R.mono (o.fl (v * v)) (q + o.fl (v * v)) (by linarith)
      rwa [R.exact _ (R.repr _)] at this
    refine ⟨e1.trans h1, fun w hw => ?_⟩
    rcases List.mem_cons.1 hw with rfl | hw
    · exact e2.trans h1
    · exact h2 w hw

variable {σ : Type} {N : Numbers ℚ σ}

theorem Point.coordinates {d : Nat} {l : List ℚ} (hN : ∀ s v s', N.norm s = .done v s' → Representable 53 v) (h : Point o N d l) (hd : d ≠ 3) : ∀ a ∈ l, |a| ≤ 1 := by
  have R := Boost.Random.Nearest.rounding H
  cases h with
  | zero => simp
  | low => simp
  | high => simp
  | circle u v h0 h1 =>
    have hu : Representable 53 (side o u) := H.repr _
    have hv : Representable 53 (side o v) := H.repr _
    generalize side o u = x at *
    generalize side o v = y at *
    have hx := Boost.Random.fl_nonneg R (mul_self_nonneg x)
    have hy := Boost.Random.fl_nonneg R (mul_self_nonneg y)
    have hp : 0 < square o x y := lt_of_le_of_ne (Boost.Random.fl_nonneg R (add_nonneg hx hy)) (Ne.symm h0)
    have e1 : o.fl (x * x) ≤ square o x y := by
      have := R.mono (o.fl (x * x)) (o.fl (x * x) + o.fl (y * y)) (by linarith)
      rwa [R.exact _ (R.repr _)] at this
    have e2 : o.fl (y * y) ≤ square o x y := by
      have := R.mono (o.fl (y * y)) (o.fl (x * x) + o.fl (y * y)) (by linarith)
      rwa [R.exact _ (R.repr _)] at this
    intro a ha
    simp only [Sphere.circle, List.mem_cons, List.not_mem_nil, or_false] at ha
    rcases ha with rfl | rfl
    · exact quotient_le H hs hu e1 hp
    · exact quotient_le H hs hv e2 hp
  | globe u v h1 => exact absurd rfl hd
  | many vs h4 h0 hm =>
    obtain ⟨h1, h2⟩ := squares_ge H vs 0 le_rfl (Representable.zero _)
    have hp : 0 < squares o 0 vs := lt_of_le_of_ne h1 (Ne.symm h0)
    intro a ha
    obtain ⟨v, hv, rfl⟩ := List.mem_map.1 ha
    obtain ⟨t, t', ht⟩ := hm v hv
    exact quotient_le H hs (hN _ _ _ ht) (h2 v hv) hp

end

/-! ## The source -/

theorem norm_repr {o : RealOps ℚ} (H : Rounding 53 o.fl) {σ : Type} (S : Source ℚ σ) : ∀ (n : Nat) (s : σ) (v : ℚ) (s' : σ),
    Normal.unit o S n s = .done v s' → Representable 53 v
  | 0, _, _, _, h => by cases h
  | n + 1, s, v, s', h => by
    rw [Normal.unit] at h
    obtain ⟨r, t, hr, h⟩ := bind_done h
    cases r with
    | none => exact norm_repr H S n t v s' h
    | some w =>
      cases h
      rw [Normal.iter] at hr
      obtain ⟨⟨u, b⟩, t, hp, hr⟩ := bind_done hr
      simp only at hr
      split at hr
      · split at hr
        · cases hr
          exact H.repr _
        · split at hr
          · obtain ⟨w', t', hw, hr⟩ := bind_done hr
            cases hr
            exact H.repr _
          · split at hr
            · obtain ⟨w', t', hw, hr⟩ := bind_done hr
              split at hr
              · cases hr
                exact H.repr _
              · cases hr
            · cases hr
      · cases hr

/-- Every number has a correctly rounded square root. -/
theorem exists_rounded (x : ℚ) : ∃ r : ℚ, CorrectlyRounded 53 (Real.sqrt x) r := by
  have h0 := Real.sqrt_nonneg (x : ℝ)
  rcases h0.lt_or_eq with hpos | he
  · generalize Real.sqrt (x : ℝ) = t at *
    have l1 := Int.zpow_log_le_self (b := 2) (by norm_num) hpos
    have l2 := Int.lt_zpow_succ_log_self (b := 2) (by norm_num) t
    set k := Int.log 2 t with hk
    have hu : (0 : ℝ) < 2 ^ (k - 52) := by positivity
    have hu' : (0 : ℚ) < 2 ^ (k - 52) := by positivity
    have cu : ((2 ^ (k - 52) : ℚ) : ℝ) = (2 : ℝ) ^ (k - 52) := by push_cast; rfl
    have f1 := Nat.floor_le (div_nonneg hpos.le hu.le)
    have f2 := Nat.lt_floor_add_one (t / 2 ^ (k - 52))
    have b1 : 2 ^ 52 ≤ ⌊t / (2 : ℝ) ^ (k - 52)⌋₊ := by
      refine Nat.le_floor ?_
      rw [le_div_iff₀ hu]
      calc (((2 ^ 52 : Nat) : ℝ)) * 2 ^ (k - 52) = (2 : ℝ) ^ (52 : ℤ) * 2 ^ (k - 52) := by norm_num
        _ = 2 ^ k := by rw [← zpow_add₀ two_ne_zero]; congr 1; ring
        _ ≤ t := by exact_mod_cast l1
    have b2 : ⌊t / (2 : ℝ) ^ (k - 52)⌋₊ < 2 ^ 53 := by
      rw [Nat.floor_lt (div_nonneg hpos.le hu.le), div_lt_iff₀ hu]
      calc t < (2 : ℝ) ^ (k + 1) := by exact_mod_cast l2
        _ = (2 : ℝ) ^ (53 : ℤ) * 2 ^ (k - 52) := by rw [← zpow_add₀ two_ne_zero]; congr 1; ring
        _ = _ := by norm_num
    rw [le_div_iff₀ hu] at f1
    rw [div_lt_iff₀ hu] at f2
    generalize ⌊t / (2 : ℝ) ^ (k - 52)⌋₊ = m at *
    have r1 : Representable 53 ((m : ℚ) * 2 ^ (k - 52)) := ⟨m, k - 52, by rw [abs_of_nonneg (by positivity)]; exact_mod_cast b2, by push_cast; rfl⟩
    have r2 : Representable 53 (((m + 1 : Nat) : ℚ) * 2 ^ (k - 52)) := by
      rcases (show m + 1 ≤ 2 ^ 53 from b2).lt_or_eq with h | h
      · exact ⟨(m + 1 : Nat), k - 52, by rw [abs_of_nonneg (by positivity)]; exact_mod_cast h, by push_cast; rfl⟩
      · refine ⟨1, 53 + (k - 52), by norm_num, ?_⟩
        rw [h, zpow_add₀ two_ne_zero]
        norm_num
    have gap : ∀ z, Representable 53 z → (z : ℝ) ≤ m * 2 ^ (k - 52) ∨ ((m : ℝ) + 1) * 2 ^ (k - 52) ≤ z := by
      intro z hz
      by_contra hc
      push Not at hc
      have h1 : (m : ℚ) * 2 ^ (k - 52) < z := by
        have : (((m : ℚ) * 2 ^ (k - 52) : ℚ) : ℝ) < (z : ℝ) := by push_cast; exact hc.1
        exact_mod_cast this
      have h2 : z < ((m : ℚ) + 1) * 2 ^ (k - 52) := by
        have : (z : ℝ) < ((((m : ℚ) + 1) * 2 ^ (k - 52) : ℚ) : ℝ) := by push_cast; exact hc.2
        exact_mod_cast this
      have := representable_close hz (m + 1) (k - 52) (by norm_num at b1 ⊢; omega) (by
        push_cast
        rw [abs_lt]
        constructor <;> linarith)
      rw [this] at h2
      push_cast at h2
      exact lt_irrefl _ h2
    by_cases hnear : t - m * 2 ^ (k - 52) ≤ ((m : ℝ) + 1) * 2 ^ (k - 52) - t
    · refine ⟨_, r1, fun z hz => ?_⟩
      push_cast
      rw [abs_of_nonneg (by linarith)]
      rcases gap z hz with h | h
      · rw [abs_of_nonneg (by linarith)]; linarith
      · rw [abs_of_nonpos (by linarith)]; linarith
    · refine ⟨_, r2, fun z hz => ?_⟩
      push_cast
      rw [abs_of_nonpos (by linarith)]
      rcases gap z hz with h | h
      · rw [abs_of_nonneg (by linarith)]; linarith
      · rw [abs_of_nonpos (by linarith)]; linarith
  · refine ⟨0, Representable.zero _, fun z _ => ?_⟩
    rw [← he]
    simp

/-- A correctly rounded square root has a small relative error. -/
theorem acc_of_rounded {o : RealOps ℚ} (hs : ∀ x : ℚ, 0 ≤ x → CorrectlyRounded 53 (Real.sqrt x) (o.sqrt x)) : Triangle.SqrtAcc o := by
  intro x hx
  obtain ⟨h1, h2⟩ := hs x hx
  have h0 := Real.sqrt_nonneg (x : ℝ)
  rw [abs_sub_comm]
  by_contra hc
  rw [not_le] at hc
  rcases h0.lt_or_eq with hpos | he
  · generalize Real.sqrt (x : ℝ) = t at *
    set e := |t - o.sqrt x| - t / 2 ^ 53 with hE
    have he : 0 < e := sub_pos.2 hc
    obtain ⟨q, hq1, hq2⟩ := exists_rat_btwn (show t < t + e / 4 by linarith)
    have hq0 : (0 : ℝ) < q := hpos.trans hq1
    have hq0' : 0 ≤ q := by exact_mod_cast hq0.le
    have h3 := Faure.nearest_rel (by norm_num) (rn_nearest (digits := 53) (by norm_num)) q
    rw [abs_of_nonneg hq0'] at h3
    have h3' : |(q : ℝ) - rn 53 q| ≤ q / 2 ^ 53 := by exact_mod_cast h3
    have h4 := h2 _ ((rn_nearest (digits := 53) (by norm_num)).repr q)
    have h5 : |t - (rn 53 q : ℝ)| ≤ |t - q| + |(q : ℝ) - rn 53 q| := abs_sub_le _ _ _
    rw [abs_of_neg (by linarith : t - (q : ℝ) < 0)] at h5
    have h6 : (q : ℝ) / 2 ^ 53 ≤ t / 2 ^ 53 + e / 4 := by
      have : (q : ℝ) / 2 ^ 53 ≤ (t + e / 4) / 2 ^ 53 := by gcongr
      have h7 : e / 4 / 2 ^ 53 ≤ e / 4 := div_le_self (by linarith) (by norm_num)
      rw [add_div] at this
      linarith
    linarith
  · rw [← he] at hc h2
    have := h2 0 (Representable.zero _)
    simp only [Rat.cast_zero, sub_zero, abs_zero] at this
    rw [zero_div, zero_sub] at hc
    rw [zero_sub] at this
    linarith

/-! ## No undefined behaviour -/

section
variable {o : RealOps ℚ} {E : EngInfo} {N : Numbers ℚ (List Int)}

theorem disc_safe (hu : SafeRun (fun v : ℚ => 0 ≤ v ∧ v < 1) E N.unif) (zero : Bool) : ∀ n, SafeRun (fun _ : ℚ × ℚ × ℚ => True) E (disc o zero N n)
  | 0 => SafeRun.more
  | n + 1 => by
    refine SafeRun.bind (f := fun u s => (N.unif s).bind fun v s =>
      if (zero = true ∧ square o (side o u) (side o v) = 0) ∨ 1 < square o (side o u) (side o v) then disc o zero N n s
      else .done (side o u, side o v, square o (side o u) (side o v)) s) hu fun u _ => SafeRun.bind hu fun v _ => ?_
    split
    · exact disc_safe hu zero n
    · exact SafeRun.done trivial

theorem fill_safe (hn : SafeRun (fun _ : ℚ => True) E N.norm) : ∀ (c : List ℚ) (q : ℚ), SafeRun (fun _ : ℚ × List ℚ => True) E (fill o N c q)
  | [], q => SafeRun.done trivial
  | _ :: c, q => by
    exact SafeRun.bind (f := fun val s => (fill o N c (o.fl (q + o.fl (val * val))) s).bind fun r s => .done (r.1, val :: r.2) s) hn fun v _ => SafeRun.bind (fill_safe hn c _) fun r _ => SafeRun.done trivial

theorem direction_safe (hn : SafeRun (fun _ : ℚ => True) E N.norm) : ∀ (n : Nat) (c : List ℚ), SafeRun (fun _ : ℚ × List ℚ => True) E (direction o N c n)
  | 0, _ => SafeRun.more
  | n + 1, c => by
    refine SafeRun.bind (f := fun r s => if r.1 = 0 then direction o N r.2 n s else .done r s) (fill_safe hn c 0) fun r _ => ?_
    split
    · exact direction_safe hn n _
    · exact SafeRun.done trivial

theorem finish_safe {e : Dist ℚ} {vs : List ℚ} (h : vs.length = e.container.length) : SafeRun (fun _ : Dist ℚ => True) E (finish e vs) := by
  intro xs _
  rw [finish_length h]
  exact ⟨by simp, by rintro _ _ ⟨⟩; exact ⟨trivial, List.suffix_refl _⟩⟩

theorem generate_safe (hu : SafeRun (fun v : ℚ => 0 ≤ v ∧ v < 1) E N.unif) (hn : SafeRun (fun _ : ℚ => True) E N.norm) (m : Nat) {e : Dist ℚ} (hs : Sized e) :
    SafeRun (fun _ : Dist ℚ => True) E (generate o N m e) := by
  unfold Sized at hs
  unfold generate
  split
  · exact SafeRun.done trivial
  split
  · exact SafeRun.bind hu fun u _ => finish_safe (by simp only [List.length_singleton]; omega)
  split
  · exact SafeRun.bind (disc_safe hu true m) fun r _ => finish_safe (by simp only [Sphere.circle, List.length_cons, List.length_nil]; omega)
  split
  · exact SafeRun.bind (disc_safe hu false m) fun r _ => finish_safe (by simp only [Sphere.globe, List.length_cons, List.length_nil]; omega)
  exact SafeRun.bind (direction_safe hn m _) fun r _ => SafeRun.done trivial

end

/-! ## The domain of the square root -/

theorem bind_congr {σ α β : Type} {r : Run σ α} {f g : α → σ → Run σ β} (h : ∀ a t, r = .done a t → f a t = g a t) : r.bind f = r.bind g := by
  cases r with
  | done a t => exact h a t rfl
  | more => rfl
  | ub => rfl

theorem squares_nonneg {o : RealOps ℚ} (H : Rounding 53 o.fl) : ∀ (vs : List ℚ) (q : ℚ), 0 ≤ q → 0 ≤ squares o q vs
  | [], _, h => h
  | v :: vs, q, h => squares_nonneg H vs _ (Boost.Random.fl_nonneg H (add_nonneg h (Boost.Random.fl_nonneg H (mul_self_nonneg v))))

theorem domain {σ : Type} {o o' : RealOps ℚ} (H : Rounding 53 o.fl) (hfl : o'.fl = o.fl) (hsqrt : ∀ x, 0 ≤ x → o'.sqrt x = o.sqrt x)
    (N : Numbers ℚ σ) (n : Nat) (e : Dist ℚ) (s : σ) : generate o' N n e s = generate o N n e s := by
  have hq : ∀ x y, square o' x y = square o x y := fun x y => by simp only [square, hfl]
  have hside : ∀ u, side o' u = side o u := fun u => by simp only [side, hfl]
  have hdisc : ∀ z n (s : σ), disc o' z N n s = disc o z N n s := by
    intro z n
    induction n with
    | zero => intro s; rfl
    | succ n ih => intro s; simp only [disc, hside, hq, ih]
  have hfill : ∀ (c : List ℚ) q (s : σ), fill o' N c q s = fill o N c q s := by
    intro c
    induction c with
    | nil => intro q s; rfl
    | cons a c ih => intro q s; simp only [fill, hfl, ih]
  have hdir : ∀ n c (s : σ), direction o' N c n s = direction o N c n s := by
    intro n
    induction n with
    | zero => intro c s; rfl
    | succ n ih => intro c s; simp only [direction, hfill, ih]
  have hnn : ∀ x y, 0 ≤ square o x y := fun x y =>
    Boost.Random.fl_nonneg H (add_nonneg (Boost.Random.fl_nonneg H (mul_self_nonneg x)) (Boost.Random.fl_nonneg H (mul_self_nonneg y)))
  unfold generate
  rw [hdisc, hdisc, hdir]
  split
  · rfl
  split
  · simp only [hfl]
  split
  · refine bind_congr fun r t hr => ?_
    obtain ⟨u, v, t1, t2, -, -, rfl, hz, hle⟩ := disc_done _ _ _ _ _ hr
    simp only [circle, hfl]
    rw [hsqrt _ (hnn _ _)]
  split
  · refine bind_congr fun r t hr => ?_
    obtain ⟨u, v, t1, t2, -, -, rfl, hz, hle⟩ := disc_done _ _ _ _ _ hr
    simp only [globe, hfl]
    rw [hsqrt _ (Boost.Random.fl_nonneg H (sub_nonneg.2 hle))]
  · refine bind_congr fun r t hr => ?_
    obtain ⟨h1, h2, h3, h4⟩ := direction_done _ _ _ _ _ hr
    simp only [scaled, hfl]
    rw [hsqrt _ (by rw [h1]; exact squares_nonneg H _ _ le_rfl)]

end Boost.Random.Sphere
