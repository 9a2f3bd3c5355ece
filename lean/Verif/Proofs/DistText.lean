import Verif.Spec.DistText
import Verif.Proofs.Rounding

/-!
# Text representation: helper lemmas
-/

namespace Boost.Random
open Spec DistText

/-! ## Enough digits -/

/-- Different numbers with `digits` digits are not close to each other. -/
theorem Representable.apart {digits : Nat} {x z : ℚ} (hx : Representable digits x) (hz : Representable digits z) (h : x ≠ z) : |x| ≤ |z - x| * 2 ^ digits := by
  obtain ⟨m, e, hm, rfl⟩ := hx
  obtain ⟨m', e', hm', rfl⟩ := hz
  have hm1 : |(m : ℚ)| + 1 ≤ 2 ^ digits := by exact_mod_cast hm
  have hm2 : |(m' : ℚ)| + 1 ≤ 2 ^ digits := by exact_mod_cast hm'
  have key : ∀ (a b : ℤ) (f g : ℤ), f ≤ g → (a : ℚ) * 2 ^ f ≠ b * 2 ^ g → (2 : ℚ) ^ f ≤ |(b : ℚ) * 2 ^ g - a * 2 ^ f| := by
    intro a b f g hfg hne
    obtain ⟨k, rfl⟩ : ∃ k : ℕ, g = f + k := ⟨(g - f).toNat, by omega⟩
    have e1 : (b : ℚ) * 2 ^ (f + (k : ℤ)) - a * 2 ^ f = ((b * 2 ^ k - a : ℤ) : ℚ) * 2 ^ f := by
      rw [zpow_add₀ (by norm_num), zpow_natCast]; push_cast; ring
    have hne' : b * 2 ^ k - a ≠ 0 := by
      intro h0
      rw [h0] at e1
      apply hne
      have : (b : ℚ) * 2 ^ (f + (k : ℤ)) - a * 2 ^ f = 0 := by rw [e1]; simp
      linarith
    rw [e1, abs_mul, abs_of_pos (show (0 : ℚ) < 2 ^ f by positivity)]
    have : (1 : ℚ) ≤ |((b * 2 ^ k - a : ℤ) : ℚ)| := by exact_mod_cast Int.one_le_abs hne'
    nlinarith [show (0 : ℚ) < 2 ^ f by positivity]
  rcases le_total e e' with hle | hle
  · have h1 := key m m' e e' hle h
    rw [abs_mul, abs_of_pos (show (0 : ℚ) < 2 ^ e by positivity)]
    have hp : (0 : ℚ) < 2 ^ e := by positivity
    calc |(m : ℚ)| * 2 ^ e ≤ 2 ^ digits * 2 ^ e := by apply mul_le_mul_of_nonneg_right _ hp.le; linarith
      _ ≤ 2 ^ digits * |(m' : ℚ) * 2 ^ e' - m * 2 ^ e| := by apply mul_le_mul_of_nonneg_left h1; positivity
      _ = _ := by ring
  · have h1 := key m' m e' e hle h.symm
    have hp : (0 : ℚ) < 2 ^ e' := by positivity
    have h2 : |(m' : ℚ) * 2 ^ e'| ≤ (2 ^ digits - 1) * 2 ^ e' := by
      rw [abs_mul, abs_of_pos hp]
      apply mul_le_mul_of_nonneg_right _ hp.le; linarith
    rw [abs_sub_comm] at h1 ⊢
    have h3 : |(m : ℚ) * 2 ^ e| ≤ |(m' : ℚ) * 2 ^ e'| + |(m' : ℚ) * 2 ^ e' - m * 2 ^ e| := by
      have := abs_sub_abs_le_abs_sub ((m : ℚ) * 2 ^ e) (m' * 2 ^ e')
      rw [abs_sub_comm] at this
      linarith
    rw [abs_sub_comm] at h1
    have h4 : (0 : ℚ) ≤ 2 ^ digits - 1 := by linarith [abs_nonneg (m : ℚ)]
    have h5 : (2 ^ digits - 1) * (2 : ℚ) ^ e' ≤ (2 ^ digits - 1) * |(m' : ℚ) * 2 ^ e' - m * 2 ^ e| := by
      apply mul_le_mul_of_nonneg_left _ h4
      rw [abs_sub_comm]; exact h1
    rw [abs_sub_comm ((m : ℚ) * 2 ^ e)]
    linarith

/-- A number with `digits` digits is the nearest one to every number close to it. -/
theorem Nearest.close {digits : Nat} {fl : ℚ → ℚ} (H : Nearest digits fl) {x y : ℚ} (hx : Representable digits x) (h : 2 * |y - x| * 2 ^ digits < |x|) : fl y = x := by
  by_contra hne
  have h1 := Representable.apart hx (H.repr y) (Ne.symm hne)
  have h2 := H.nearest y x hx
  have h4 : |fl y - x| ≤ 2 * |y - x| := by
    have := abs_add_le (fl y - y) (y - x)
    rw [sub_add_sub_cancel, abs_sub_comm (fl y) y] at this
    linarith
  have := mul_le_mul_of_nonneg_right h4 (show (0 : ℚ) ≤ 2 ^ digits by positivity)
  linarith

/-- A number with `digits` digits is the nearest one to its text. -/
theorem Prints.back {digits n : Nat} {fl pr : ℚ → ℚ} (H : Nearest digits fl) (P : Prints n pr) (hn : 2 ^ digits < 10 ^ (n - 1)) {x : ℚ} (hx : Representable digits x) :
    fl (pr x) = x := by
  by_contra hne
  have h1 := Representable.apart hx (H.repr (pr x)) (Ne.symm hne)
  have h2 := H.nearest (pr x) x hx
  have h3 := P x
  have h4 : |fl (pr x) - x| ≤ 2 * |pr x - x| := by
    have := abs_add_le (fl (pr x) - pr x) (pr x - x)
    rw [sub_add_sub_cancel, abs_sub_comm (fl (pr x)) (pr x)] at this
    linarith
  have hn' : (2 : ℚ) ^ digits < 10 ^ (n - 1) := by exact_mod_cast hn
  have h5 : 0 < |fl (pr x) - x| := abs_pos.2 (sub_ne_zero.2 hne)
  have : |fl (pr x) - x| * 2 ^ digits < |fl (pr x) - x| * 10 ^ (n - 1) := by
    exact mul_lt_mul_of_pos_left hn' h5
  have : |fl (pr x) - x| * 10 ^ (n - 1) ≤ 2 * |pr x - x| * 10 ^ (n - 1) := mul_le_mul_of_nonneg_right h4 (by positivity)
  linarith

theorem Representable.mono {p q : Nat} (h : p ≤ q) {x : ℚ} (hx : Representable p x) : Representable q x :=
  let ⟨m, e, h1, h2⟩ := hx
  ⟨m, e, lt_of_lt_of_le h1 (pow_le_pow_right₀ (by norm_num) h), h2⟩

/-- The text of a number, read as a `double`: close to the number. -/
theorem Prints.double_near {digits n : Nat} {dbl pr : ℚ → ℚ} (H : Nearest 53 dbl) (P : Prints n pr) (hd : digits ≤ 53)
    (hn : 2 ^ 53 < 10 ^ (n - 1) ∨ 2 ^ (digits + 1) < 10 ^ (n - 1)) {x : ℚ} (hx : Representable digits x) :
    dbl (pr x) = x ∨ |dbl (pr x) - x| * 2 ^ (digits + 1) < |x| := by
  have hx' := Representable.mono hd hx
  rcases hn with hn | hn
  · exact .inl (Prints.back H P hn hx')
  · by_cases hne : dbl (pr x) = x
    · exact .inl hne
    right
    have h2 := H.nearest (pr x) x hx'
    have h3 := P x
    have h4 : |dbl (pr x) - x| ≤ 2 * |pr x - x| := by
      have := abs_add_le (dbl (pr x) - pr x) (pr x - x)
      rw [sub_add_sub_cancel, abs_sub_comm (dbl (pr x)) (pr x)] at this
      linarith
    have hn' : (2 : ℚ) ^ (digits + 1) < 10 ^ (n - 1) := by exact_mod_cast hn
    have h5 : 0 < |dbl (pr x) - x| := abs_pos.2 (sub_ne_zero.2 hne)
    have : |dbl (pr x) - x| * 2 ^ (digits + 1) < |dbl (pr x) - x| * 10 ^ (n - 1) := mul_lt_mul_of_pos_left hn' h5
    have : |dbl (pr x) - x| * 10 ^ (n - 1) ≤ 2 * |pr x - x| * 10 ^ (n - 1) := mul_le_mul_of_nonneg_right h4 (by positivity)
    linarith

/-- Rounding that to the type of the number gives the number back. -/
theorem Prints.double_back {digits n : Nat} {fl dbl pr : ℚ → ℚ} (H : Nearest digits fl) (H' : Nearest 53 dbl) (P : Prints n pr) (hd : digits ≤ 53)
    (hn : 2 ^ 53 < 10 ^ (n - 1) ∨ 2 ^ (digits + 1) < 10 ^ (n - 1)) {x : ℚ} (hx : Representable digits x) : fl (dbl (pr x)) = x := by
  rcases Prints.double_near H' P hd hn hx with h | h
  · rw [h]; exact (Nearest.rounding H).exact x hx
  · generalize dbl (pr x) = y at h
    by_contra hne
    have h1 := Representable.apart hx (H.repr y) (Ne.symm hne)
    have h2 := H.nearest y x hx
    have h4 : |fl y - x| ≤ 2 * |y - x| := by
      have := abs_add_le (fl y - y) (y - x)
      rw [sub_add_sub_cancel, abs_sub_comm (fl y) y] at this
      linarith
    have h5 : |fl y - x| * 2 ^ digits ≤ 2 * |y - x| * 2 ^ digits := mul_le_mul_of_nonneg_right h4 (by positivity)
    rw [pow_succ] at h
    linarith

/-- The texts of two numbers, read as `double`s, are on different sides of the middle. -/
theorem Prints.double_order {digits n : Nat} {dbl pr : ℚ → ℚ} (H : Nearest 53 dbl) (P : Prints n pr) (hd : digits ≤ 53)
    (hn : 2 ^ 53 < 10 ^ (n - 1) ∨ 2 ^ (digits + 1) < 10 ^ (n - 1)) {x z : ℚ} (hx : Representable digits x) (hz : Representable digits z) (h : x < z) :
    dbl (pr x) < (x + z) / 2 ∧ (x + z) / 2 < dbl (pr z) := by
  have hp : (0 : ℚ) < 2 ^ digits := by positivity
  have a1 := Representable.apart hx hz h.ne
  have a2 := Representable.apart hz hx h.ne'
  rw [abs_of_pos (show 0 < z - x by linarith)] at a1
  rw [abs_of_neg (show x - z < 0 by linarith)] at a2
  constructor
  · rcases Prints.double_near H P hd hn hx with e | e
    · rw [e]; linarith
    · rw [pow_succ] at e
      have e2 := (abs_lt.1 (show |dbl (pr x) - x| < (z - x) / 2 by
        by_contra hc
        push Not at hc
        have := mul_le_mul_of_nonneg_right hc hp.le
        linarith)).2
      linarith
  · rcases Prints.double_near H P hd hn hz with e | e
    · rw [e]; linarith
    · rw [pow_succ] at e
      have e2 := (abs_lt.1 (show |dbl (pr z) - z| < (z - x) / 2 by
        by_contra hc
        push Not at hc
        have := mul_le_mul_of_nonneg_right hc hp.le
        linarith)).1
      linarith

/-- One minus a number in `[1/2, 1]` is exact. -/
theorem Representable.one_sub {digits : Nat} {x : ℚ} (hx : Representable digits x) (h1 : 1 / 2 ≤ x) (h2 : x ≤ 1) : Representable digits (1 - x) := by
  rcases Nat.eq_zero_or_pos digits with rfl | hd
  · obtain ⟨m, e, hm, rfl⟩ := hx
    have : m = 0 := by simpa using hm
    subst this
    norm_num at h1
  obtain ⟨m, e, hm, rfl⟩ := hx
  have hm' : (m : ℚ) < 2 ^ digits := by exact_mod_cast lt_of_le_of_lt (le_abs_self m) hm
  have hpe : (0 : ℚ) < 2 ^ e := by positivity
  have he : -(digits : ℤ) ≤ e := by
    by_contra hlt
    push Not at hlt
    have h3 : (2 : ℚ) ^ e ≤ 2 ^ (-(digits : ℤ) - 1) := zpow_le_zpow_right₀ (by norm_num) (by omega)
    have h4 : (2 : ℚ) ^ (-(digits : ℤ) - 1) = 1 / (2 ^ digits * 2) := by
      rw [zpow_sub₀ (by norm_num), zpow_neg, zpow_natCast]; field_simp
    rw [h4] at h3
    have h5 : (m : ℚ) * 2 ^ e < 2 ^ digits * (1 / (2 ^ digits * 2)) := by
      calc (m : ℚ) * 2 ^ e < 2 ^ digits * 2 ^ e := mul_lt_mul_of_pos_right hm' hpe
        _ ≤ _ := mul_le_mul_of_nonneg_left h3 (by positivity)
    have : (2 : ℚ) ^ digits * (1 / (2 ^ digits * 2)) = 1 / 2 := by field_simp
    linarith
  obtain ⟨k, hk⟩ : ∃ k : ℕ, e = -(digits : ℤ) + k := ⟨(e + digits).toNat, by omega⟩
  have hv : (1 : ℚ) - m * 2 ^ e = ((2 ^ digits - m * 2 ^ k : ℤ) : ℚ) * 2 ^ (-(digits : ℤ)) := by
    rw [hk, zpow_add₀ (by norm_num), zpow_natCast, zpow_neg, zpow_natCast]
    push_cast
    field_simp
  refine ⟨2 ^ digits - m * 2 ^ k, -(digits : ℤ), ?_, hv⟩
  have hq : (0 : ℚ) < 2 ^ (-(digits : ℤ)) := by positivity
  have hq2 : (2 : ℚ) ^ digits * 2 ^ (-(digits : ℤ)) = 1 := by rw [zpow_neg, zpow_natCast]; field_simp
  generalize (2 ^ digits - m * 2 ^ k : ℤ) = N at hv
  have b1 : (0 : ℚ) ≤ N := by
    by_contra hc
    push Not at hc
    have := mul_neg_of_neg_of_pos hc hq
    linarith
  have b2 : (N : ℚ) < 2 ^ digits := by
    by_contra hc
    push Not at hc
    have := mul_le_mul_of_nonneg_right hc hq.le
    linarith
  rw [abs_of_nonneg (by exact_mod_cast b1)]
  exact_mod_cast b2

/-- `1 - (1 - p)` in the deprecated geometric distribution. -/
theorem one_sub_one_sub {digits : Nat} {fl : ℚ → ℚ} (H : Rounding digits fl) (hd : 1 ≤ digits) {p : ℚ} (hp : Representable digits p) (h0 : 0 < p) (h1 : p < 1) :
    fl (1 - fl (1 - fl (1 - p))) = fl (1 - p) := by
  rcases le_or_gt (1 / 2) p with h | h
  · rw [H.exact _ (Representable.one_sub hp h h1.le), sub_sub_cancel, H.exact p hp, H.exact _ (Representable.one_sub hp h h1.le)]
  · have a1 : 1 / 2 ≤ fl (1 - p) := by
      have := H.mono (1 / 2) (1 - p) (by linarith)
      rwa [H.exact (1 / 2) (by simpa using Representable.inv_two_pow hd 1)] at this
    have a2 : fl (1 - p) ≤ 1 := by
      have := H.mono (1 - p) 1 (by linarith)
      rwa [H.exact 1 (Representable.one hd)] at this
    rw [H.exact _ (Representable.one_sub (H.repr _) a1 a2), sub_sub_cancel, H.exact _ (H.repr _)]

theorem Prints.zero {n : Nat} {pr : ℚ → ℚ} (P : Prints n pr) : pr 0 = 0 := by
  have := P 0
  rw [sub_zero, abs_zero] at this
  have h2 : (0 : ℚ) < 2 * 10 ^ (n - 1) := by positivity
  have : |pr 0| ≤ 0 := by
    by_contra hlt
    push Not at hlt
    nlinarith
  exact abs_nonpos_iff.1 this

/-- Text with `n` significant digits. -/
def dec (n : Nat) (x : ℚ) : ℚ := if x = 0 then 0 else (round (x / 10 ^ (Int.log 10 |x| + 1 - n)) : ℚ) * 10 ^ (Int.log 10 |x| + 1 - n)

theorem dec_prints {n : Nat} (hn : 1 ≤ n) : Prints n (dec n) := by
  intro x
  unfold dec
  split
  · next h => subst h; simp
  · next h =>
    have hp : 0 < |x| := abs_pos.2 h
    have h1 : (10 : ℚ) ^ Int.log 10 |x| ≤ |x| := by exact_mod_cast Int.zpow_log_le_self (b := 10) (by decide) hp
    generalize Int.log 10 |x| = k at h1 ⊢
    have hu : (0 : ℚ) < 10 ^ (k + 1 - (n : ℤ)) := by positivity
    generalize hg : (10 : ℚ) ^ (k + 1 - (n : ℤ)) = u at hu ⊢
    have h2 := abs_sub_round (x / u)
    have h3 : |(round (x / u) : ℚ) * u - x| ≤ u / 2 := by
      have : (round (x / u) : ℚ) * u - x = -((x / u - round (x / u)) * u) := by field_simp; ring
      rw [this, abs_neg, abs_mul, abs_of_pos hu]
      nlinarith
    have h4 : u * 10 ^ (n - 1) = 10 ^ k := by
      rw [← hg, ← zpow_natCast, ← zpow_add₀ (by norm_num)]
      congr 1
      omega
    have h5 : |(round (x / u) : ℚ) * u - x| * (2 * 10 ^ (n - 1)) ≤ u / 2 * (2 * 10 ^ (n - 1)) := mul_le_mul_of_nonneg_right h3 (by positivity)
    linarith

theorem dec_eq {n : Nat} {x : ℚ} (k m : ℤ) (h1 : (10 : ℚ) ^ k ≤ |x|) (h2 : |x| < 10 ^ (k + 1)) (hm : |x / 10 ^ (k + 1 - n) - m| < 1 / 2) :
    dec n x = m * 10 ^ (k + 1 - n) := by
  have hp : 0 < |x| := lt_of_lt_of_le (by positivity) h1
  have hk : Int.log 10 |x| = k := by
    apply le_antisymm
    · have a := (Int.lt_zpow_iff_log_lt (b := 10) (by decide) (x := k + 1) hp).1 (by exact_mod_cast h2)
      omega
    · exact (Int.zpow_le_iff_le_log (b := 10) (by decide) hp).1 (by exact_mod_cast h1)
  unfold dec
  rw [if_neg (abs_pos.1 hp), hk]
  congr 2
  rw [round_eq, Int.floor_eq_iff]
  rw [abs_lt] at hm
  constructor <;> linarith

/-! ## Reading what was written -/

@[simp] theorem Str.real_num (fl : ℚ → ℚ) (v x : ℚ) (r : List Item) : Str.real fl ⟨.num v :: r, true⟩ x = (⟨r, true⟩, fl v) := rfl
@[simp] theorem Str.real_false (fl : ℚ → ℚ) (x : ℚ) (r : List Item) : Str.real fl ⟨r, false⟩ x = (⟨r, false⟩, x) := rfl
@[simp] theorem Str.int_false (T : IntTy) (x : Int) (r : List Item) : Str.int T ⟨r, false⟩ x = (⟨r, false⟩, x) := rfl
@[simp] theorem two_num (fl : ℚ → ℚ) (v w : ℚ) (p : ℚ × ℚ) (r : List Item) : two fl ⟨.num v :: .num w :: r, true⟩ p = (⟨r, true⟩, (fl v, fl w)) := rfl
@[simp] theorem two_false (fl : ℚ → ℚ) (p : ℚ × ℚ) (r : List Item) : two fl ⟨r, false⟩ p = (⟨r, false⟩, p) := rfl

/-- The values of an integer type. -/
def Fits (T : IntTy) (x : Int) : Prop := (if T.signed then -(T.maxv : Int) - 1 else 0) ≤ x ∧ x ≤ T.maxv

theorem Str.int_num (T : IntTy) (v x : Int) (h : Fits T v) (r : List Item) : Str.int T ⟨.num (v : ℚ) :: r, true⟩ x = (⟨r, true⟩, v) := by
  unfold Str.int
  simp only [Rat.den_intCast, Rat.num_intCast, if_true]
  obtain ⟨h1, h2⟩ := h
  cases hs : T.signed
  · rw [hs] at h1
    simp only [Bool.false_eq_true, if_false] at h1 ⊢
    exact if_pos ⟨h1, h2⟩
  · rw [hs] at h1
    simp only [if_true] at h1 ⊢
    have a1 : ¬ v < -(T.maxv : Int) - 1 := by omega
    have a2 : ¬ (T.maxv : Int) < v := by omega
    exact (if_neg a1).trans (if_neg a2)

/-! ## Distributions that read their parameters first -/

theorem viaParam_unchanged {P D : Type} {readParam : Str → P → Str × P} {default : P} {set : D → P → Option D} {s s' : Str} {d d' : D}
    (h : viaParam readParam default set s d = some (s', d')) (hf : s'.ok = false) : d' = d := by
  unfold viaParam at h
  simp only at h
  split at h
  · next hok =>
    obtain ⟨x, _, hx⟩ := Option.map_eq_some_iff.1 h
    rw [Prod.mk.injEq] at hx
    rw [← hx.1, hok] at hf
    cases hf
  · rw [Option.some.injEq, Prod.mk.injEq] at h
    exact h.2.symm

theorem viaParam_accepts {P D : Type} {readParam : Str → P → Str × P} {default : P} {set : D → P → Option D} {s s' : Str} {d d' : D}
    (h : viaParam readParam default set s d = some (s', d')) (hf : s'.ok = true) :
    (readParam s default).1 = s' ∧ set d (readParam s default).2 = some d' := by
  unfold viaParam at h
  simp only at h
  split at h
  · obtain ⟨x, hx1, hx⟩ := Option.map_eq_some_iff.1 h
    rw [Prod.mk.injEq] at hx
    obtain ⟨h1, rfl⟩ := hx
    exact ⟨h1, hx1⟩
  · next hok =>
    rw [Option.some.injEq, Prod.mk.injEq] at h
    rw [h.1] at hok
    exact absurd hf hok

theorem viaParam_total {P D : Type} {readParam : Str → P → Str × P} {default : P} {set : D → P → Option D} (h : ∀ d p, ∃ e, set d p = some e) (s : Str) (d : D) :
    ∃ r, viaParam readParam default set s d = some r := by
  unfold viaParam
  simp only
  split
  · obtain ⟨e, he⟩ := h d (readParam s default).2
    exact ⟨_, by rw [he]; rfl⟩
  · exact ⟨_, rfl⟩

theorem viaParam_idle {P D : Type} {readParam : Str → P → Str × P} {default : P} {set : D → P → Option D} (r : List Item) (d : D)
    (h : (readParam ⟨r, false⟩ default).1 = ⟨r, false⟩) : viaParam readParam default set ⟨r, false⟩ d = some (⟨r, false⟩, d) := by
  unfold viaParam
  simp only
  rw [h]
  rfl

theorem viaParam_ok {P D : Type} {readParam : Str → P → Str × P} {default : P} {set : D → P → Option D} {s : Str} {d d' : D} {r : List Item} {p : P}
    (h1 : readParam s default = (⟨r, true⟩, p)) (h2 : set d p = some d') : viaParam readParam default set s d = some (⟨r, true⟩, d') := by
  unfold viaParam
  rw [h1]
  simp only [if_true, h2, Option.map_some]

theorem viaParam_none {P D : Type} {readParam : Str → P → Str × P} {default : P} {set : D → P → Option D} {s : Str} {d : D} {r : List Item} {p : P}
    (h1 : readParam s default = (⟨r, true⟩, p)) (h2 : set d p = none) : viaParam readParam default set s d = none := by
  unfold viaParam
  rw [h1]
  simp only [if_true, h2, Option.map_none]

theorem unchanged_of {P D : Type} {io : Io D} {readParam : Str → P → Str × P} {default : P} {set : D → P → Option D} (e : io.read = viaParam readParam default set) : Unchanged io := by
  intro s d s' d' h hf
  rw [e] at h
  exact viaParam_unchanged h hf

theorem idle_of {P D : Type} {io : Io D} {readParam : Str → P → Str × P} {default : P} {set : D → P → Option D} (e : io.read = viaParam readParam default set)
    (h : ∀ r, (readParam ⟨r, false⟩ default).1 = ⟨r, false⟩) : Idle io fun _ => True := by
  intro r d _
  rw [e]
  exact viaParam_idle r d (h r)

theorem accepts_of {P D : Type} {io : Io D} {readParam : Str → P → Str × P} {default : P} {set : D → P → Option D} (e : io.read = viaParam readParam default set)
    {s s' : Str} {d d' : D} (h : io.read s d = some (s', d')) (hf : s'.ok = true) :
    (readParam s default).1 = s' ∧ set d (readParam s default).2 = some d' := by
  rw [e] at h
  exact viaParam_accepts h hf

theorem total_of {P D : Type} {io : Io D} {readParam : Str → P → Str × P} {default : P} {set : D → P → Option D} (e : io.read = viaParam readParam default set)
    (h : ∀ d p, ∃ x, set d p = some x) : Total io := by
  intro s d
  rw [e]
  exact viaParam_total h s d

/-! ## Vectors -/

theorem readNumbers_print (F : Text) (v : List ℚ) (h : ∀ x ∈ v, F.fl (F.pr x) = x) (r : List Item) :
    readNumbers F.fl ((v.map fun x => Item.num (F.pr x)) ++ .close :: r) = (v, .close :: r) := by
  induction v with
  | nil => rfl
  | cons a v ih =>
    simp only [List.map_cons, List.cons_append, readNumbers]
    rw [ih fun x hx => h x (List.mem_cons_of_mem _ hx), h a List.mem_cons_self]

theorem readVector_print (F : Text) (v : List ℚ) (h : ∀ x ∈ v, F.fl (F.pr x) = x) (r : List Item) :
    readVector F.fl ⟨printVector F v ++ r, true⟩ = (⟨r, true⟩, v) := by
  unfold readVector printVector
  simp only [List.cons_append, List.append_assoc, List.nil_append, Str.char, if_true]
  rw [readNumbers_print F v h r]
  simp

end Boost.Random
