import Mathlib.Analysis.SpecialFunctions.Log.Deriv
import Mathlib.Tactic.Linarith
import Mathlib.Tactic.Positivity
import Mathlib.Tactic.FieldSimp
import Mathlib.Tactic.Ring

/-!
# Affine arithmetic

Numbers that depend on two parameters `ξ`, `η` in `[-1, 1]` are enclosed by `c + g ξ + e η ± r`, with `c`, `g`, `e` and `r` multiples of `1 / 2 ^ 40`.
The functions on these forms are evaluated by the kernel, so that signed numbers are pairs of natural numbers and every result is normalized before use.
-/

namespace Boost.Random.Affine

/-- The unit is `1 / S`. -/
def S : Nat := nat_lit 1099511627776

/-- The integer `p - n`. -/
structure Sg where
  p : Nat
  n : Nat
  deriving DecidableEq

/-- The numbers `c + g ξ + e η ± r`, in units. -/
structure Af where
  c : Sg
  g : Sg
  e : Sg
  r : Nat

/-- Evaluate `n`, then go on. -/
def force {α : Type} (n : Nat) (f : Nat → α) : α := Nat.rec (f (nat_lit 0)) (fun k _ => f (Nat.succ k)) n

theorem force_eq {α : Type} (n : Nat) (f : Nat → α) : force n f = f n := by cases n <;> rfl

/-- Evaluate and normalize a number. -/
def Sg.force {α : Type} (a : Sg) (f : Sg → α) : α :=
  Affine.force a.p fun p => Affine.force a.n fun n => Affine.force (Nat.sub p n) fun x => Affine.force (Nat.sub n p) fun y => f ⟨x, y⟩

/-- Evaluate and normalize a form. -/
def Af.force {α : Type} (a : Af) (f : Af → α) : α :=
  a.c.force fun c => a.g.force fun g => a.e.force fun e => Affine.force a.r fun r => f ⟨c, g, e, r⟩

def Sg.norm (a : Sg) : Sg := ⟨a.p - a.n, a.n - a.p⟩
def Af.norm (a : Af) : Af := ⟨a.c.norm, a.g.norm, a.e.norm, a.r⟩

theorem Af.force_eq {α : Type} (a : Af) (f : Af → α) : a.force f = f a.norm := by
  simp only [Af.force, Sg.force, Affine.force_eq]
  rfl

noncomputable def Sg.val (a : Sg) : ℝ := (a.p : ℝ) - a.n

theorem Sg.val_norm (a : Sg) : a.norm.val = a.val := by
  unfold Sg.norm Sg.val
  rcases le_total a.p a.n with h | h
  · rw [Nat.sub_eq_zero_of_le h, Nat.cast_sub h]; simp
  · rw [Nat.sub_eq_zero_of_le h, Nat.cast_sub h]; simp

def Sg.mag (a : Sg) : Nat := Nat.add a.p a.n
def Sg.neg (a : Sg) : Sg := ⟨a.n, a.p⟩
def Sg.add (a b : Sg) : Sg := ⟨Nat.add a.p b.p, Nat.add a.n b.n⟩

theorem Sg.abs_val (a : Sg) : |a.val| ≤ (a.mag : Nat) := by
  unfold Sg.val Sg.mag
  have h1 : (0 : ℝ) ≤ a.p := Nat.cast_nonneg _
  have h2 : (0 : ℝ) ≤ a.n := Nat.cast_nonneg _
  rw [Nat.add_eq, Nat.cast_add, abs_le]
  constructor <;> linarith

theorem Sg.val_neg (a : Sg) : a.neg.val = -a.val := by simp [Sg.neg, Sg.val]

theorem Sg.val_add (a b : Sg) : (a.add b).val = a.val + b.val := by
  simp only [Sg.add, Sg.val, Nat.add_eq, Nat.cast_add]; ring

/-- The greatest distance of a form from its centre. -/
def Af.rho (a : Af) : Nat := Nat.add (Nat.add a.g.mag a.e.mag) a.r

/-- The form encloses `x`. -/
def Af.Holds (ξ η : ℝ) (a : Af) (x : ℝ) : Prop := |x * S - (a.c.val + a.g.val * ξ + a.e.val * η)| ≤ a.r

theorem S_pos : (0 : ℝ) < (S : Nat) := by unfold S; norm_num

section
variable {ξ η : ℝ} {a b : Af} {x y : ℝ}

theorem Af.Holds.norm (h : a.Holds ξ η x) : a.norm.Holds ξ η x := by
  unfold Af.Holds Af.norm at *
  simpa only [Sg.val_norm] using h

theorem Af.Holds.lin (hξ : |ξ| ≤ 1) (hη : |η| ≤ 1) (a : Af) : |a.g.val * ξ + a.e.val * η| ≤ (a.g.mag : ℝ) + a.e.mag := by
  refine (abs_add_le _ _).trans (add_le_add ?_ ?_)
  · rw [abs_mul]
    calc |a.g.val| * |ξ| ≤ |a.g.val| * 1 := mul_le_mul_of_nonneg_left hξ (abs_nonneg _)
      _ ≤ _ := by rw [mul_one]; exact a.g.abs_val
  · rw [abs_mul]
    calc |a.e.val| * |η| ≤ |a.e.val| * 1 := mul_le_mul_of_nonneg_left hη (abs_nonneg _)
      _ ≤ _ := by rw [mul_one]; exact a.e.abs_val

/-- The distance from the centre. -/
theorem Af.Holds.dist (hξ : |ξ| ≤ 1) (hη : |η| ≤ 1) (h : a.Holds ξ η x) : |x * S - a.c.val| ≤ (a.rho : Nat) := by
  have h1 := Af.Holds.lin hξ hη a
  unfold Af.Holds at h
  have e : x * S - a.c.val = (x * S - (a.c.val + a.g.val * ξ + a.e.val * η)) + (a.g.val * ξ + a.e.val * η) := by ring
  rw [e]
  refine (abs_add_le _ _).trans ?_
  unfold Af.rho
  rw [Nat.add_eq, Nat.add_eq, Nat.cast_add, Nat.cast_add]
  linarith

/-! ## The operations -/

def Af.add (a b : Af) : Af := ⟨a.c.add b.c, a.g.add b.g, a.e.add b.e, Nat.add a.r b.r⟩
def Af.neg (a : Af) : Af := ⟨a.c.neg, a.g.neg, a.e.neg, a.r⟩
def Af.sub (a b : Af) : Af := a.add b.neg

theorem Af.Holds.add (hx : a.Holds ξ η x) (hy : b.Holds ξ η y) : (a.add b).Holds ξ η (x + y) := by
  unfold Af.Holds Af.add at *
  simp only [Sg.val_add, Nat.add_eq, Nat.cast_add]
  rw [show (x + y) * S - (a.c.val + b.c.val + (a.g.val + b.g.val) * ξ + (a.e.val + b.e.val) * η) =
    (x * S - (a.c.val + a.g.val * ξ + a.e.val * η)) + (y * S - (b.c.val + b.g.val * ξ + b.e.val * η)) by ring]
  exact (abs_add_le _ _).trans (add_le_add hx hy)

theorem Af.Holds.neg (hx : a.Holds ξ η x) : a.neg.Holds ξ η (-x) := by
  unfold Af.Holds Af.neg at *
  simp only [Sg.val_neg]
  rw [show -x * S - (-a.c.val + -a.g.val * ξ + -a.e.val * η) = -(x * S - (a.c.val + a.g.val * ξ + a.e.val * η)) by ring, abs_neg]
  exact hx

theorem Af.Holds.sub (hx : a.Holds ξ η x) (hy : b.Holds ξ η y) : (a.sub b).Holds ξ η (x - y) := by
  rw [sub_eq_add_neg]
  exact hx.add hy.neg

/-- The constant `n / d`. -/
def Af.const (n d : Nat) : Af := ⟨⟨Nat.div (Nat.mul n S) d, nat_lit 0⟩, ⟨nat_lit 0, nat_lit 0⟩, ⟨nat_lit 0, nat_lit 0⟩, nat_lit 1⟩

theorem div_raw (a b : Nat) : Nat.div a b = a / b := rfl

theorem div_floor (a b : Nat) (hb : 0 < b) : ((a / b : Nat) : ℝ) ≤ a / b ∧ (a : ℝ) / b ≤ ((a / b : Nat) : ℝ) + 1 := by
  have hb' : (0 : ℝ) < b := by exact_mod_cast hb
  refine ⟨Nat.cast_div_le, ?_⟩
  rw [div_le_iff₀ hb']
  have h : a ≤ (a / b + 1) * b := by
    have := Nat.lt_div_mul_add hb (a := a)
    rw [add_mul, one_mul]; exact this.le
  exact_mod_cast h

theorem const_holds {n d : Nat} (hd : 0 < d) (hx : x = (n : ℝ) / d) : (Af.const n d).Holds ξ η x := by
  unfold Af.Holds Af.const Sg.val
  simp only [Nat.cast_zero, sub_zero, zero_mul, add_zero, Nat.cast_one, div_raw, Nat.mul_eq]
  obtain ⟨h1, h2⟩ := div_floor (n * S) d hd
  rw [Nat.cast_mul] at h1 h2
  rw [hx, div_mul_eq_mul_div, abs_le]
  constructor <;> linarith

/-- The product with `n / d`. -/
def Sg.scale (n d : Nat) (a : Sg) : Sg := ⟨Nat.div (Nat.mul a.p n) d, Nat.div (Nat.mul a.n n) d⟩
def Af.scale (n d : Nat) (a : Af) : Af := ⟨a.c.scale n d, a.g.scale n d, a.e.scale n d, Nat.add (Nat.div (Nat.mul a.r n) d) (nat_lit 4)⟩

theorem Sg.val_scale {n d : Nat} (hd : 0 < d) (a : Sg) : |(a.scale n d).val - a.val * ((n : ℝ) / d)| ≤ 1 := by
  unfold Sg.scale Sg.val
  simp only [div_raw, Nat.mul_eq]
  obtain ⟨h1, h2⟩ := div_floor (a.p * n) d hd
  obtain ⟨h3, h4⟩ := div_floor (a.n * n) d hd
  rw [Nat.cast_mul] at h1 h2 h3 h4
  rw [sub_mul, ← mul_div_assoc, ← mul_div_assoc, abs_le]
  constructor <;> linarith

/-- Replacing the coefficients of a form by others that differ by at most `u`. -/
theorem holds_of_coeffs (hξ : |ξ| ≤ 1) (hη : |η| ≤ 1) {C G E R u : ℝ} (h : |x * S - (C + G * ξ + E * η)| ≤ R) (hc : |a.c.val - C| ≤ u) (hg : |a.g.val - G| ≤ u)
    (he : |a.e.val - E| ≤ u) (hr : R + 3 * u ≤ a.r) : a.Holds ξ η x := by
  unfold Af.Holds
  have h1 : |(a.g.val - G) * ξ| ≤ u := by
    rw [abs_mul]
    calc |a.g.val - G| * |ξ| ≤ |a.g.val - G| * 1 := mul_le_mul_of_nonneg_left hξ (abs_nonneg _)
      _ ≤ u := by rwa [mul_one]
  have h2 : |(a.e.val - E) * η| ≤ u := by
    rw [abs_mul]
    calc |a.e.val - E| * |η| ≤ |a.e.val - E| * 1 := mul_le_mul_of_nonneg_left hη (abs_nonneg _)
      _ ≤ u := by rwa [mul_one]
  rw [abs_le] at *
  constructor <;> nlinarith

theorem Af.Holds.scale (hξ : |ξ| ≤ 1) (hη : |η| ≤ 1) {n d : Nat} (hd : 0 < d) (h : a.Holds ξ η x) {q : ℝ} (hq : q = (n : ℝ) / d) : (a.scale n d).Holds ξ η (q * x) := by
  subst hq
  have hq : 0 ≤ (n : ℝ) / d := by positivity
  refine holds_of_coeffs hξ hη (u := 1) (R := a.r * ((n : ℝ) / d)) ?_ (Sg.val_scale hd _) (Sg.val_scale hd _) (Sg.val_scale hd _) ?_
  · rw [show (n : ℝ) / d * x * S - (a.c.val * ((n : ℝ) / d) + a.g.val * ((n : ℝ) / d) * ξ + a.e.val * ((n : ℝ) / d) * η) =
      (x * S - (a.c.val + a.g.val * ξ + a.e.val * η)) * ((n : ℝ) / d) by ring, abs_mul, abs_of_nonneg hq]
    exact mul_le_mul_of_nonneg_right h hq
  · simp only [Af.scale, Nat.add_eq, div_raw, Nat.mul_eq, Nat.cast_add]
    obtain ⟨h1, h2⟩ := div_floor (a.r * n) d hd
    rw [Nat.cast_mul, mul_div_assoc] at h2
    norm_num
    linarith

/-- The product of two numbers, and the sum of two products, in units. -/
def Sg.mul (a b : Sg) : Sg :=
  ⟨Nat.div (Nat.add (Nat.mul a.p b.p) (Nat.mul a.n b.n)) S, Nat.div (Nat.add (Nat.mul a.p b.n) (Nat.mul a.n b.p)) S⟩

def Sg.mul2 (a b c d : Sg) : Sg :=
  ⟨Nat.div (Nat.add (Nat.add (Nat.mul a.p b.p) (Nat.mul a.n b.n)) (Nat.add (Nat.mul c.p d.p) (Nat.mul c.n d.n))) S,
   Nat.div (Nat.add (Nat.add (Nat.mul a.p b.n) (Nat.mul a.n b.p)) (Nat.add (Nat.mul c.p d.n) (Nat.mul c.n d.p))) S⟩

theorem S_pos' : 0 < S := by unfold S; norm_num

theorem Sg.val_mul (a b : Sg) : |(a.mul b).val - a.val * b.val / S| ≤ 1 := by
  unfold Sg.mul Sg.val
  simp only [div_raw, Nat.mul_eq, Nat.add_eq]
  obtain ⟨h1, h2⟩ := div_floor (a.p * b.p + a.n * b.n) S S_pos'
  obtain ⟨h3, h4⟩ := div_floor (a.p * b.n + a.n * b.p) S S_pos'
  have e : ((a.p : ℝ) - a.n) * (b.p - b.n) / S = ((a.p * b.p + a.n * b.n : Nat) : ℝ) / S - ((a.p * b.n + a.n * b.p : Nat) : ℝ) / S := by
    push_cast; ring
  rw [e, abs_le]
  constructor <;> linarith

theorem Sg.val_mul2 (a b c d : Sg) : |(a.mul2 b c d).val - (a.val * b.val + c.val * d.val) / S| ≤ 1 := by
  unfold Sg.mul2 Sg.val
  simp only [div_raw, Nat.mul_eq, Nat.add_eq]
  obtain ⟨h1, h2⟩ := div_floor (a.p * b.p + a.n * b.n + (c.p * d.p + c.n * d.n)) S S_pos'
  obtain ⟨h3, h4⟩ := div_floor (a.p * b.n + a.n * b.p + (c.p * d.n + c.n * d.p)) S S_pos'
  have e : (((a.p : ℝ) - a.n) * (b.p - b.n) + (c.p - c.n) * (d.p - d.n)) / S = ((a.p * b.p + a.n * b.n + (c.p * d.p + c.n * d.n) : Nat) : ℝ) / S -
    ((a.p * b.n + a.n * b.p + (c.p * d.n + c.n * d.p) : Nat) : ℝ) / S := by
    push_cast; ring
  rw [e, abs_le]
  constructor <;> linarith

def Af.mul (a b : Af) : Af :=
  ⟨a.c.mul b.c, a.c.mul2 b.g b.c a.g, a.c.mul2 b.e b.c a.e,
    Nat.add (Nat.div (Nat.add (Nat.add (Nat.mul a.c.mag b.r) (Nat.mul b.c.mag a.r)) (Nat.mul a.rho b.rho)) S) (nat_lit 4)⟩

theorem Af.Holds.mul (hξ : |ξ| ≤ 1) (hη : |η| ≤ 1) (hx : a.Holds ξ η x) (hy : b.Holds ξ η y) : (a.mul b).Holds ξ η (x * y) := by
  have hS := S_pos
  have dx := hx.dist hξ hη
  have dy := hy.dist hξ hη
  refine holds_of_coeffs hξ hη (u := 1) (R := ((a.c.mag : ℝ) * b.r + b.c.mag * a.r + a.rho * b.rho) / S) ?_ (Sg.val_mul _ _) (Sg.val_mul2 _ _ _ _) (Sg.val_mul2 _ _ _ _) ?_
  · unfold Af.Holds at hx hy
    rw [le_div_iff₀ hS, ← abs_of_pos hS, ← abs_mul, abs_of_pos hS]
    have e : (x * y * S - (a.c.val * b.c.val / S + (a.c.val * b.g.val + b.c.val * a.g.val) / S * ξ + (a.c.val * b.e.val + b.c.val * a.e.val) / S * η)) * S =
        a.c.val * (y * S - (b.c.val + b.g.val * ξ + b.e.val * η)) + b.c.val * (x * S - (a.c.val + a.g.val * ξ + a.e.val * η)) +
          (x * S - a.c.val) * (y * S - b.c.val) := by
      field_simp
      ring
    rw [e]
    refine (abs_add_le _ _).trans (add_le_add ((abs_add_le _ _).trans (add_le_add ?_ ?_)) ?_)
    · rw [abs_mul]; exact mul_le_mul a.c.abs_val hy (abs_nonneg _) (Nat.cast_nonneg _)
    · rw [abs_mul]; exact mul_le_mul b.c.abs_val hx (abs_nonneg _) (Nat.cast_nonneg _)
    · rw [abs_mul]; exact mul_le_mul dx dy (abs_nonneg _) (Nat.cast_nonneg _)
  · simp only [Af.mul, Nat.add_eq, div_raw, Nat.mul_eq, Nat.cast_add]
    obtain ⟨h1, h2⟩ := div_floor (a.c.mag * b.r + b.c.mag * a.r + a.rho * b.rho) S S_pos'
    push_cast at h2 ⊢
    linarith

/-! ## The inverse -/

/-- The coefficient `-g S² / c²`, from `i = S² / c`. -/
def Sg.slope (i c : Nat) (g : Sg) : Sg := ⟨Nat.div (Nat.mul g.n i) c, Nat.div (Nat.mul g.p i) c⟩

/-- The inverse of a form with centre `c > rho`; half of the remainder of the tangent, `h`, goes to the centre. -/
def Af.invForm (a : Af) (c i h : Nat) : Af :=
  ⟨⟨Nat.add i h, nat_lit 0⟩, a.g.slope i c, a.e.slope i c, Nat.add (Nat.add (Nat.div (Nat.mul a.r i) c) h) (nat_lit 10)⟩

def Af.inv (a : Af) (f : Af → Bool) : Bool :=
  Affine.force (Nat.sub a.c.p a.c.n) fun c => Affine.force a.rho fun rho =>
    cond (Nat.ble (Nat.succ rho) c)
      (Affine.force (Nat.div (Nat.mul S S) c) fun i =>
        Affine.force (Nat.div (Nat.mul (Nat.mul rho rho) (Nat.mul S S)) (Nat.mul (nat_lit 2) (Nat.mul (Nat.mul c c) (Nat.sub c rho)))) fun h => (a.invForm c i h).force f)
      false

theorem slope_bounds {g i c : Nat} (hc : 0 < c) (hg : g ≤ c) (hi : i = S * S / c) :
    ((g * i / c : Nat) : ℝ) ≤ g * ((S : ℝ) * S) / (c * c) ∧ (g : ℝ) * ((S : ℝ) * S) / (c * c) ≤ ((g * i / c : Nat) : ℝ) + 2 := by
  have hc' : (0 : ℝ) < c := by exact_mod_cast hc
  have hg' : (g : ℝ) ≤ c := by exact_mod_cast hg
  have hg0 : (0 : ℝ) ≤ g := Nat.cast_nonneg _
  obtain ⟨h1, h2⟩ := div_floor (S * S) c hc
  rw [← hi, Nat.cast_mul] at h1 h2
  obtain ⟨h3, h4⟩ := div_floor (g * i) c hc
  rw [Nat.cast_mul] at h3 h4
  have e : (g : ℝ) * ((S : ℝ) * S) / (c * c) = g * ((S : ℝ) * S / c) / c := by field_simp
  rw [e]
  constructor
  · refine h3.trans (div_le_div_of_nonneg_right (mul_le_mul_of_nonneg_left h1 hg0) hc'.le)
  · have : (g : ℝ) * ((S : ℝ) * S / c) / c ≤ g * i / c + 1 := by
      rw [div_le_iff₀ hc', add_mul, div_mul_cancel₀ _ hc'.ne', one_mul]
      nlinarith
    linarith

theorem Sg.val_slope {g : Sg} {i c : Nat} (hc : 0 < c) (hg : g.mag ≤ c) (hi : i = S * S / c) : |(g.slope i c).val - -(g.val * ((S : ℝ) * S) / (c * c))| ≤ 2 := by
  have hp : g.p ≤ c := (Nat.le_add_right _ _).trans hg
  have hn : g.n ≤ c := (Nat.le_add_left _ _).trans hg
  obtain ⟨h1, h2⟩ := slope_bounds hc hp hi
  obtain ⟨h3, h4⟩ := slope_bounds hc hn hi
  unfold Sg.slope Sg.val
  simp only [div_raw, Nat.mul_eq]
  have e : -(((g.p : ℝ) - g.n) * ((S : ℝ) * S) / (c * c)) = g.n * ((S : ℝ) * S) / (c * c) - g.p * ((S : ℝ) * S) / (c * c) := by ring
  rw [e, abs_le]
  constructor <;> linarith

theorem Af.Holds.inv (hξ : |ξ| ≤ 1) (hη : |η| ≤ 1) (hx : a.Holds ξ η x) {f : Af → Bool} (h : a.inv f = true) : 0 < x ∧ ∃ b : Af, b.Holds ξ η x⁻¹ ∧ f b = true := by
  unfold Af.inv at h
  simp only [Affine.force_eq] at h
  generalize hcd : Nat.sub a.c.p a.c.n = c at h
  cases hb : Nat.ble (Nat.succ a.rho) c with
  | false => rw [hb] at h; exact absurd h (by simp)
  | true =>
    rw [hb, cond_true] at h
    have hlt : a.rho < c := Nat.le_of_ble_eq_true hb
    have hc0 : 0 < c := by omega
    have hval : a.c.val = c := by
      unfold Sg.val
      rw [← hcd, Nat.sub_eq, Nat.cast_sub]
      have : a.c.p - a.c.n = c := hcd
      omega
    have hS := S_pos
    have hc' : (0 : ℝ) < c := by exact_mod_cast hc0
    have hlt' : (a.rho : ℝ) < c := by exact_mod_cast hlt
    have hrho0 : (0 : ℝ) ≤ a.rho := Nat.cast_nonneg _
    have dx := hx.dist hξ hη
    rw [hval] at dx
    obtain ⟨d1, d2⟩ := abs_le.1 dx
    have hxS : 0 < x * S := by linarith
    have hx0 : 0 < x := by
      by_contra hn
      nlinarith [not_lt.1 hn]
    refine ⟨hx0, ?_⟩
    rw [Af.force_eq] at h
    refine ⟨_, ?_, h⟩
    apply Af.Holds.norm
    obtain ⟨i1, i2⟩ := div_floor (S * S) c hc0
    obtain ⟨k1, k2⟩ := div_floor (a.rho * a.rho * (S * S)) (2 * (c * c * (c - a.rho))) (by
      have : 0 < c - a.rho := by omega
      positivity)
    simp only [div_raw, Nat.mul_eq, Nat.sub_eq]
    generalize hi : S * S / c = i at i1 i2 ⊢
    generalize a.rho * a.rho * (S * S) / (2 * (c * c * (c - a.rho))) = hh at k1 k2 ⊢
    have hgm : a.g.mag ≤ c := by
      have : a.rho = a.g.mag + a.e.mag + a.r := rfl
      omega
    have hem : a.e.mag ≤ c := by
      have : a.rho = a.g.mag + a.e.mag + a.r := rfl
      omega
    have hrc : a.r ≤ c := by
      have : a.rho = a.g.mag + a.e.mag + a.r := rfl
      omega
    obtain ⟨r1, r2⟩ := slope_bounds hc0 hrc hi.symm
    push_cast [Nat.cast_sub hlt.le] at i1 i2 k1 k2
    have hcr : 0 < (c : ℝ) - a.rho := by linarith
    set D : ℝ := a.rho * a.rho * (S * S) / (2 * (c * c * (c - a.rho))) with hD
    -- the remainder of the tangent
    have key : x⁻¹ * S - (S * S / c - (x * S - c) * (S * S) / (c * c)) = (x * S - c) ^ 2 * (S * S) / (c * c * (x * S)) := by
      field_simp
      ring
    have rem0 : 0 ≤ (x * S - c) ^ 2 * ((S : ℝ) * S) / (c * c * (x * S)) := by positivity
    have rem1 : (x * S - c) ^ 2 * ((S : ℝ) * S) / (c * c * (x * S)) ≤ 2 * D := by
      have e2 : 2 * D = a.rho ^ 2 * ((S : ℝ) * S) / (c * c * (c - a.rho)) := by rw [hD]; field_simp
      rw [e2]
      have hsq : (x * S - c) ^ 2 ≤ (a.rho : ℝ) ^ 2 := sq_le_sq' d1 d2
      have h3 : (c : ℝ) - a.rho ≤ x * S := by linarith
      gcongr
    refine holds_of_coeffs hξ hη (u := 2) (C := (S * S : ℝ) / c + D) (G := -(a.g.val * ((S : ℝ) * S) / (c * c))) (E := -(a.e.val * ((S : ℝ) * S) / (c * c)))
      (R := a.r * ((S : ℝ) * S) / (c * c) + D) ?_ ?_ (Sg.val_slope hc0 hgm hi.symm) (Sg.val_slope hc0 hem hi.symm) ?_
    · unfold Af.Holds at hx
      rw [hval] at hx
      have e : x⁻¹ * S - (S * S / c + D + -(a.g.val * ((S : ℝ) * S) / (c * c)) * ξ + -(a.e.val * ((S : ℝ) * S) / (c * c)) * η) =
          (x⁻¹ * S - (S * S / c - (x * S - c) * (S * S) / (c * c)) - D) + -((x * S - (c + a.g.val * ξ + a.e.val * η)) * ((S : ℝ) * S / (c * c))) := by
        ring
      rw [e, key]
      refine (abs_add_le _ _).trans ?_
      rw [abs_neg, abs_mul, abs_of_pos (show (0 : ℝ) < S * S / (c * c) by positivity), add_comm]
      refine add_le_add ?_ ?_
      · have e3 : a.r * ((S : ℝ) * S) / (c * c) = a.r * ((S : ℝ) * S / (c * c)) := mul_div_assoc _ _ _
        rw [e3]
        exact mul_le_mul_of_nonneg_right hx (by positivity)
      · rw [abs_le]; constructor <;> linarith
    · unfold Af.invForm Sg.val
      simp only [Nat.add_eq, Nat.cast_add, Nat.cast_zero, sub_zero]
      rw [abs_le]; constructor <;> linarith
    · unfold Af.invForm
      simp only [Nat.add_eq, Nat.cast_add, div_raw, Nat.mul_eq]
      push_cast
      linarith

end

end Boost.Random.Affine
