import Verif.Proofs.Affine
import Mathlib.Analysis.SpecialFunctions.Log.Deriv
import Mathlib.Analysis.Complex.ExponentialBounds

/-!
# Affine forms of logarithms
-/

namespace Boost.Random.Affine

open Finset

/-! ## An upper bound of the logarithm of a number -/

/-- An upper bound of `S ∑ j < i, w ^ j / (2 j + 1) + acc w ^ i` for `w` at most `W / S`. -/
def upLoop (W i acc : Nat) : Nat :=
  Nat.rec (motive := fun _ => Nat → Nat) (fun acc => acc)
    (fun i ih acc => force (Nat.add (Nat.add (Nat.div (Nat.mul acc W) S) (Nat.div S (Nat.succ (Nat.mul (nat_lit 2) i)))) (nat_lit 2)) ih) i acc

theorem upLoop_succ (W i acc : Nat) : upLoop W (i + 1) acc = upLoop W i (acc * W / S + S / (2 * i + 1) + 2) := by
  change force (acc * W / S + S / (2 * i + 1) + 2) (upLoop W i) = _
  rw [force_eq]

theorem upLoop_le {W : Nat} {w : ℝ} (h0 : 0 ≤ w) (hw : w * S ≤ W) : ∀ i acc : Nat, (S : ℝ) * ∑ j ∈ range i, w ^ j / (2 * j + 1) + acc * w ^ i ≤ upLoop W i acc
  | 0, acc => by simp [upLoop]
  | i + 1, acc => by
    rw [upLoop_succ]
    refine le_trans ?_ (upLoop_le h0 hw i _)
    rw [sum_range_succ, mul_add, add_assoc]
    refine add_le_add le_rfl ?_
    have hS := S_pos
    obtain ⟨_, h2⟩ := div_floor (acc * W) S S_pos'
    obtain ⟨_, h4⟩ := div_floor S (2 * i + 1) (by omega)
    push_cast at h2 h4 ⊢
    have h5 : (acc : ℝ) * w ≤ acc * W / S := by
      rw [le_div_iff₀ hS, mul_assoc]
      exact mul_le_mul_of_nonneg_left hw (Nat.cast_nonneg _)
    have e : (S : ℝ) * (w ^ i / (2 * i + 1)) + acc * w ^ (i + 1) = (S / (2 * i + 1) + acc * w) * w ^ i := by ring
    rw [e]
    exact mul_le_mul_of_nonneg_right (by linarith) (pow_nonneg h0 _)

/-- An upper bound of `S log (c / 2 ^ log2 c)`. -/
def logUp (c : Nat) : Nat :=
  force (Nat.pow (nat_lit 2) (Nat.log2 c)) fun m =>
    force (Nat.succ (Nat.div (Nat.mul (Nat.sub c m) S) (Nat.add c m))) fun z =>
      force (Nat.succ (Nat.div (Nat.mul z z) S)) fun w =>
        Nat.mul (nat_lit 2) (Nat.add (Nat.div (Nat.mul z (upLoop w (nat_lit 13) (nat_lit 0))) S) (nat_lit 2))

theorem logUp_le {c : Nat} (hc : 0 < c) : Real.log ((c : ℝ) / 2 ^ Nat.log2 c) * S ≤ logUp c := by
  have hS := S_pos
  have m1 := Nat.log2_self_le (n := c) (by omega)
  have m2 := Nat.lt_log2_self (n := c)
  simp only [logUp, force_eq]
  change _ ≤ ((2 * (((c - 2 ^ Nat.log2 c) * S / (c + 2 ^ Nat.log2 c) + 1) * upLoop (((c - 2 ^ Nat.log2 c) * S / (c + 2 ^ Nat.log2 c) + 1) * ((c - 2 ^ Nat.log2 c) * S / (c + 2 ^ Nat.log2 c) + 1) / S + 1) 13 0 / S + 2) : Nat) : ℝ)
  rw [pow_succ] at m2
  have ep : ((2 ^ Nat.log2 c : Nat) : ℝ) = (2 : ℝ) ^ Nat.log2 c := by push_cast; rfl
  rw [← ep]
  generalize 2 ^ Nat.log2 c = m at m1 m2
  have hm0 : 0 < m := by omega
  have hm : (0 : ℝ) < m := by exact_mod_cast hm0
  have m1' : (m : ℝ) ≤ c := by exact_mod_cast m1
  have m2' : (c : ℝ) < m * 2 := by exact_mod_cast m2
  obtain ⟨_, hz⟩ := div_floor ((c - m) * S) (c + m) (by omega)
  push_cast [Nat.cast_sub m1] at hz
  generalize (c - m) * S / (c + m) = z0 at hz ⊢
  set z : ℝ := (c - m) / (c + m) with hzd
  have hz0 : 0 ≤ z := div_nonneg (by linarith) (by linarith)
  have hz3 : z ≤ 1 / 3 := by rw [hzd, div_le_iff₀ (by linarith)]; linarith
  have hzS : z * S ≤ (z0 + 1 : Nat) := by
    rw [hzd, div_mul_eq_mul_div]; push_cast; exact hz
  obtain ⟨_, hw⟩ := div_floor ((z0 + 1) * (z0 + 1)) S S_pos'
  have hwS : z ^ 2 * S ≤ (((z0 + 1) * (z0 + 1) / S + 1 : Nat) : ℝ) := by
    push_cast at hw hzS ⊢
    refine le_trans ?_ hw
    rw [le_div_iff₀ hS]
    have := mul_le_mul hzS hzS (by positivity) (by positivity)
    nlinarith
  have hup := upLoop_le (sq_nonneg z) hwS 13 0
  generalize upLoop _ 13 0 = h at hup ⊢
  obtain ⟨_, hh⟩ := div_floor ((z0 + 1) * h) S S_pos'
  have hser := Real.log_div_le_sum_range_add hz0 (by linarith) 13
  have e1 : (1 + z) / (1 - z) = (c : ℝ) / m := by
    have : (c : ℝ) + m ≠ 0 := by linarith
    have hd : 1 - z = 2 * m / (c + m) := by rw [hzd]; field_simp; ring
    have hu : 1 + z = 2 * c / (c + m) := by rw [hzd]; field_simp; ring
    rw [hd, hu]; field_simp
  rw [e1] at hser
  have e2 : ∑ i ∈ range 13, z ^ (2 * i + 1) / (2 * (i : ℝ) + 1) = z * ∑ j ∈ range 13, (z ^ 2) ^ j / (2 * j + 1) := by
    rw [mul_sum]
    refine sum_congr rfl fun i _ => ?_
    rw [← pow_mul, pow_succ]; ring
  rw [e2] at hser
  have tail : z ^ (2 * 13 + 1) / (1 - z ^ 2) * S ≤ 1 := by
    have h1 : z ^ (2 * 13 + 1) ≤ (1 / 3) ^ 27 := pow_le_pow_left₀ hz0 hz3 27
    have h2 : (8 / 9 : ℝ) ≤ 1 - z ^ 2 := by nlinarith
    have h3 : z ^ (2 * 13 + 1) / (1 - z ^ 2) ≤ (1 / 3) ^ 27 / (8 / 9) := by gcongr
    calc _ ≤ (1 / 3 : ℝ) ^ 27 / (8 / 9) * S := mul_le_mul_of_nonneg_right h3 hS.le
      _ ≤ 1 := by unfold S; norm_num
  have h5 : (z * ∑ j ∈ range 13, (z ^ 2) ^ j / (2 * (j : ℝ) + 1)) * S ≤ ((z0 + 1) * h / S : Nat) + 1 := by
    refine le_trans ?_ hh
    rw [le_div_iff₀ hS]
    have hs0 : 0 ≤ ∑ j ∈ range 13, (z ^ 2) ^ j / (2 * (j : ℝ) + 1) := sum_nonneg fun i _ => by positivity
    have hup' : (S : ℝ) * ∑ j ∈ range 13, (z ^ 2) ^ j / (2 * (j : ℝ) + 1) ≤ h := by simpa using hup
    have := mul_le_mul hzS hup' (by positivity) (by positivity)
    push_cast at this ⊢
    nlinarith
  push_cast at h5 ⊢
  nlinarith

/-- A lower bound of `-S log (c / S)`. -/
def negLog (c : Nat) : Sg :=
  ⟨Nat.mul (Nat.sub (nat_lit 40) (Nat.log2 c)) (nat_lit 762123384499), Nat.add (Nat.mul (Nat.sub (Nat.log2 c) (nat_lit 40)) (nat_lit 762123385050)) (logUp c)⟩

theorem negLog_le {c : Nat} (hc : 0 < c) : (negLog c).val ≤ -(Real.log ((c : ℝ) / S) * S) := by
  have h := logUp_le hc
  have hS := S_pos
  have hc' : (0 : ℝ) < c := by exact_mod_cast hc
  have e : Real.log ((c : ℝ) / S) = Real.log ((c : ℝ) / 2 ^ Nat.log2 c) + (Nat.log2 c : ℝ) * Real.log 2 - 40 * Real.log 2 := by
    rw [Real.log_div hc'.ne' hS.ne', Real.log_div hc'.ne' (by positivity), Real.log_pow, show (S : ℝ) = 2 ^ 40 by unfold S; norm_num, Real.log_pow]
    push_cast; ring
  rw [e]
  unfold negLog Sg.val
  simp only [Nat.mul_eq, Nat.add_eq, Nat.sub_eq]
  have l1 : (762123384499 : ℝ) ≤ Real.log 2 * S := by
    have := Real.log_two_gt_d9
    have : (0.6931471803 : ℝ) * S ≤ Real.log 2 * S := mul_le_mul_of_nonneg_right this.le hS.le
    refine le_trans ?_ this
    unfold S; norm_num
  have l2 : Real.log 2 * S ≤ (762123385050 : ℝ) := by
    have := Real.log_two_lt_d9
    have : Real.log 2 * S ≤ (0.6931471808 : ℝ) * S := mul_le_mul_of_nonneg_right this.le hS.le
    refine le_trans this ?_
    unfold S; norm_num
  rcases le_total 40 (Nat.log2 c) with h4 | h4
  · rw [Nat.sub_eq_zero_of_le h4]
    have h4' : (0 : ℝ) ≤ (Nat.log2 c : ℝ) - 40 := by
      have : ((40 : Nat) : ℝ) ≤ Nat.log2 c := by exact_mod_cast h4
      push_cast at this; linarith
    push_cast [Nat.cast_sub h4]
    nlinarith
  · rw [Nat.sub_eq_zero_of_le h4]
    have h4' : (0 : ℝ) ≤ 40 - (Nat.log2 c : ℝ) := by
      have : (Nat.log2 c : ℝ) ≤ ((40 : Nat) : ℝ) := by exact_mod_cast h4
      push_cast at this; linarith
    push_cast [Nat.cast_sub h4]
    nlinarith

/-- A lower bound of minus the logarithm of a form: the tangent at the centre. -/
def Af.negLogForm (a : Af) (c : Nat) : Af :=
  ⟨negLog c, a.g.slope S c, a.e.slope S c, Nat.add (Nat.div (Nat.mul a.r S) c) (nat_lit 4)⟩

def Af.negLog (a : Af) (f : Af → Bool) : Bool :=
  Affine.force (Nat.sub a.c.p a.c.n) fun c => cond (Nat.ble (nat_lit 1) c) ((a.negLogForm c).force f) false

theorem Sg.val_slope_S {g : Sg} {c : Nat} (hc : 0 < c) : |(g.slope S c).val - -(g.val * (S : ℝ) / c)| ≤ 1 := by
  unfold Sg.slope Sg.val
  simp only [div_raw, Nat.mul_eq]
  obtain ⟨h1, h2⟩ := div_floor (g.p * S) c hc
  obtain ⟨h3, h4⟩ := div_floor (g.n * S) c hc
  rw [Nat.cast_mul] at h1 h2 h3 h4
  have e : -(((g.p : ℝ) - g.n) * (S : ℝ) / c) = g.n * (S : ℝ) / c - g.p * (S : ℝ) / c := by ring
  rw [e, abs_le]
  constructor <;> linarith

section
variable {ξ η : ℝ} {a b : Af} {x y : ℝ}

theorem Af.Holds.negLog (hξ : |ξ| ≤ 1) (hη : |η| ≤ 1) (hx : a.Holds ξ η x) (hx0 : 0 < x) {f : Af → Bool} (h : a.negLog f = true) :
    ∃ (b : Af) (v : ℝ), v ≤ -Real.log x ∧ b.Holds ξ η v ∧ f b = true := by
  unfold Af.negLog at h
  simp only [Affine.force_eq] at h
  generalize hcd : Nat.sub a.c.p a.c.n = c at h
  cases hb : Nat.ble (nat_lit 1) c with
  | false => rw [hb] at h; exact absurd h (by simp)
  | true =>
    rw [hb, cond_true, Af.force_eq] at h
    have hc0 : 0 < c := Nat.le_of_ble_eq_true hb
    have hval : a.c.val = c := by
      unfold Sg.val
      rw [← hcd, Nat.sub_eq, Nat.cast_sub]
      have : a.c.p - a.c.n = c := hcd
      omega
    have hS := S_pos
    have hc' : (0 : ℝ) < c := by exact_mod_cast hc0
    have hn := negLog_le hc0
    refine ⟨_, ((Affine.negLog c).val - (x * S - c) * S / c) / S, ?_, ?_, h⟩
    · rw [div_le_iff₀ hS]
      have e : Real.log x = Real.log ((c : ℝ) / S) + Real.log (x * S / c) := by
        rw [← Real.log_mul (by positivity) (by positivity)]
        congr 1; field_simp
      have h1 : Real.log (x * S / c) ≤ x * S / c - 1 := Real.log_le_sub_one_of_pos (by positivity)
      have h2 : (x * S - c) * S / c = (x * S / c - 1) * S := by field_simp
      rw [h2, e]
      nlinarith
    · apply Af.Holds.norm
      refine holds_of_coeffs hξ hη (u := 1) (C := (Affine.negLog c).val) (G := -(a.g.val * (S : ℝ) / c)) (E := -(a.e.val * (S : ℝ) / c)) (R := a.r * (S : ℝ) / c) ?_ ?_
        (Sg.val_slope_S hc0) (Sg.val_slope_S hc0) ?_
      · unfold Af.Holds at hx
        rw [hval] at hx
        rw [div_mul_cancel₀ _ hS.ne', show (Affine.negLog c).val - (x * S - c) * S / c - ((Affine.negLog c).val + -(a.g.val * S / c) * ξ + -(a.e.val * S / c) * η) =
          -((x * S - (c + a.g.val * ξ + a.e.val * η)) * ((S : ℝ) / c)) by ring, abs_neg, abs_mul, abs_of_pos (show (0 : ℝ) < S / c by positivity), mul_div_assoc]
        exact mul_le_mul_of_nonneg_right hx (by positivity)
      · unfold Af.negLogForm; simp
      · unfold Af.negLogForm
        simp only [Nat.add_eq, Nat.cast_add, div_raw, Nat.mul_eq]
        obtain ⟨_, h2⟩ := div_floor (a.r * S) c hc0
        push_cast at h2 ⊢
        linarith

/-! ## The series of the logarithm -/

/-- The number `r` with `log ((1 + z) / (1 - z)) = 2 z + 2 z³ r`. -/
noncomputable def rest (z : ℝ) : ℝ := if z = 0 then 1 / 3 else (1 / 2 * Real.log ((1 + z) / (1 - z)) - z) / z ^ 3

theorem rest_spec (z : ℝ) : 1 / 2 * Real.log ((1 + z) / (1 - z)) = z + z ^ 3 * rest z := by
  unfold rest
  split
  · next h => rw [h]; simp
  · next h => field_simp; ring

theorem rest_sum {z : ℝ} (hz : |z| < 1) (N : Nat) : |rest z - ∑ j ∈ range (N + 1), (z ^ 2) ^ j / (2 * j + 3)| ≤ (z ^ 2) ^ (N + 1) / (1 - z ^ 2) := by
  unfold rest
  split
  · next h =>
    rw [h, sum_range_succ']
    simp
  · next h =>
    have h1 := Real.sum_range_sub_log_div_le hz (N + 2)
    have e : ∑ i ∈ range (N + 2), z ^ (2 * i + 1) / (2 * (i : ℝ) + 1) = z + z ^ 3 * ∑ j ∈ range (N + 1), (z ^ 2) ^ j / (2 * j + 3) := by
      rw [sum_range_succ', mul_sum, add_comm]
      congr 1
      · simp
      · refine sum_congr rfl fun i _ => ?_
        rw [← pow_mul]
        push_cast
        rw [show 2 * (i + 1) + 1 = 2 * i + 3 by ring, pow_add, show 2 * ((i : ℝ) + 1) + 1 = 2 * i + 3 by ring]
        ring
    rw [e] at h1
    have hz3 : 0 < |z| ^ 3 := by positivity
    have e2 : (1 / 2 * Real.log ((1 + z) / (1 - z)) - z) / z ^ 3 - ∑ j ∈ range (N + 1), (z ^ 2) ^ j / (2 * (j : ℝ) + 3) =
        (1 / 2 * Real.log ((1 + z) / (1 - z)) - (z + z ^ 3 * ∑ j ∈ range (N + 1), (z ^ 2) ^ j / (2 * (j : ℝ) + 3))) / z ^ 3 := by
      field_simp
      ring
    rw [e2, abs_div, abs_pow, div_le_iff₀ hz3]
    refine h1.trans (le_of_eq ?_)
    rw [show 2 * (N + 2) + 1 = 2 * (N + 1) + 3 by ring, pow_add, ← sq_abs z, ← pow_mul]
    ring

/-- The sum of the series, without the rest. -/
def restLoop (w : Af) (i : Nat) (acc : Af) (f : Af → Bool) : Bool :=
  Nat.rec (motive := fun _ => Af → Bool) f
    (fun i ih acc => ((acc.mul w).add (Af.const (nat_lit 1) (Nat.add (Nat.mul (nat_lit 2) i) (nat_lit 3)))).force ih) i acc

theorem Af.Holds.restLoop (hξ : |ξ| ≤ 1) (hη : |η| ≤ 1) {w : Af} (hw : w.Holds ξ η y) {f : Af → Bool} : ∀ (i : Nat) {acc : Af} {x : ℝ}, acc.Holds ξ η x →
    Affine.restLoop w i acc f = true → ∃ b : Af, b.Holds ξ η (∑ j ∈ range i, y ^ j / (2 * j + 3) + x * y ^ i) ∧ f b = true
  | 0, acc, x, hx, h => ⟨acc, by simpa using hx, h⟩
  | i + 1, acc, x, hx, h => by
    change Af.force _ (fun acc => Affine.restLoop w i acc f) = true at h
    rw [Af.force_eq] at h
    obtain ⟨b, hb, hf⟩ := Af.Holds.restLoop hξ hη hw i (((hx.mul hξ hη hw).add (const_holds (n := 1) (d := 2 * i + 3) (by omega) rfl)).norm) h
    refine ⟨b, ?_, hf⟩
    convert hb using 1
    rw [sum_range_succ]
    push_cast
    ring

/-- The number `rest z`, for `w` that encloses `z²`. -/
def Af.rest (w : Af) (N : Nat) (f : Af → Bool) : Bool :=
  Affine.force (Nat.add w.c.mag w.rho) fun m =>
    cond (Nat.ble (Nat.succ m) S)
      (restLoop w (Nat.succ N) (Af.const (nat_lit 0) (nat_lit 1)) fun s =>
        Af.force ⟨s.c, s.g, s.e, Nat.add s.r (Nat.succ (Nat.div (Nat.mul (Nat.pow m (Nat.succ N)) (Nat.mul S S)) (Nat.mul (Nat.pow S (Nat.succ N)) (Nat.sub S m))))⟩ f)
      false

theorem Af.Holds.rest (hξ : |ξ| ≤ 1) (hη : |η| ≤ 1) {w : Af} {z : ℝ} (hw : w.Holds ξ η (z ^ 2)) {N : Nat} {f : Af → Bool} (h : w.rest N f = true) :
    |z| < 1 ∧ ∃ b : Af, b.Holds ξ η (Affine.rest z) ∧ f b = true := by
  have hS := S_pos
  have hd := hw.dist hξ hη
  unfold Af.rest at h
  rw [Affine.force_eq] at h
  have hm : z ^ 2 * S ≤ (Nat.add w.c.mag w.rho : Nat) := by
    have := (abs_le.1 hd).2
    have h2 := (abs_le.1 w.c.abs_val).2
    rw [Nat.add_eq, Nat.cast_add]
    linarith
  generalize Nat.add w.c.mag w.rho = m at h hm
  cases hb : Nat.ble (Nat.succ m) S with
  | false => rw [hb] at h; exact absurd h (by simp)
  | true =>
    rw [hb, cond_true] at h
    have hlt : m < S := Nat.le_of_ble_eq_true hb
    have hlt' : (m : ℝ) < S := by exact_mod_cast hlt
    have hz2 : z ^ 2 ≤ m / S := by rw [le_div_iff₀ hS]; exact hm
    have hm1 : (m : ℝ) / S < 1 := by rw [div_lt_one hS]; exact hlt'
    have hz : |z| < 1 := by
      rw [← sq_lt_one_iff_abs_lt_one]
      linarith
    refine ⟨hz, ?_⟩
    obtain ⟨s, hs, hf⟩ := Af.Holds.restLoop hξ hη hw _ (const_holds (n := 0) (d := 1) (by norm_num) (x := 0) (by simp)) h
    rw [Af.force_eq] at hf
    refine ⟨_, ?_, hf⟩
    apply Af.Holds.norm
    have hr := rest_sum hz N
    rw [zero_mul, add_zero] at hs
    unfold Af.Holds at hs ⊢
    simp only
    have e : Affine.rest z * S - (s.c.val + s.g.val * ξ + s.e.val * η) = ((∑ j ∈ range (N + 1), (z ^ 2) ^ j / (2 * (j : ℝ) + 3)) * S - (s.c.val + s.g.val * ξ + s.e.val * η)) +
        (Affine.rest z - ∑ j ∈ range (N + 1), (z ^ 2) ^ j / (2 * (j : ℝ) + 3)) * S := by ring
    rw [e]
    refine (abs_add_le _ _).trans ?_
    simp only [Nat.add_eq, Nat.cast_add, div_raw, Nat.mul_eq, Nat.sub_eq, Nat.pow_eq, Nat.succ_eq_add_one]
    refine add_le_add hs ?_
    rw [abs_mul, abs_of_pos hS]
    obtain ⟨_, h2⟩ := div_floor (m ^ (N + 1) * (S * S)) (S ^ (N + 1) * (S - m)) (by
      have : 0 < S - m := by omega
      have := S_pos'
      positivity)
    push_cast [Nat.cast_sub hlt.le] at h2 ⊢
    refine le_trans ?_ h2
    have h1 : (z ^ 2) ^ (N + 1) / (1 - z ^ 2) ≤ ((m : ℝ) / S) ^ (N + 1) / (1 - m / S) := by
      have : 0 < 1 - (m : ℝ) / S := by linarith
      gcongr
    calc _ ≤ ((m : ℝ) / S) ^ (N + 1) / (1 - m / S) * S := mul_le_mul_of_nonneg_right (hr.trans h1) hS.le
      _ = m ^ (N + 1) * (S * S) / (S ^ (N + 1) * (S - m)) := by
        have : (S : ℝ) - m ≠ 0 := by linarith
        have : 1 - (m : ℝ) / S ≠ 0 := by linarith
        rw [div_pow]
        field_simp

end

end Boost.Random.Affine
