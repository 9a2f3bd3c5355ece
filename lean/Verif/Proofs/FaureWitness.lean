import Verif.Proofs.FaureBounds
import Mathlib.Tactic.NormNum

/-!
# Faure engine: a coordinate above one

Base 5, the digits of the coordinate are 23 times the digit 4.
-/

namespace Boost.Random
namespace Faure
open Qrng Spec RealDist

theorem rr_five {fl : ℚ → ℚ} (R : Rounding 53 fl) {k : Nat} (hk : k ≤ 22) : rr fl 5 k = 5 ^ k := by
  induction k with
  | zero => simp [rr]
  | succ k ih =>
    rw [rr, ih (by omega)]
    have : ((5 : ℚ) ^ k * ((5 : Nat) : ℚ)) = ((5 ^ (k + 1) : Nat) : ℚ) := by push_cast; ring
    rw [this, R.exact _ (Representable.natCast (lt_of_le_of_lt (Nat.pow_le_pow_right (by norm_num) hk) (by norm_num : 5 ^ 22 < 2 ^ 53)))]
    push_cast
    rfl

section
variable {fl : ℚ → ℚ} (H : Nearest 53 fl) {Z : Nat → Nat} (hZ : ∀ i < 23, Z i = 4)
include H hZ

theorem acc_step {i : Nat} (hi : i < 22) {v d v' : ℚ} (hv : accum fl 5 Z i = v) (hd : fl (4 / 5 ^ (i + 1)) = d) (hv' : fl (v + d) = v') :
    accum fl 5 Z (i + 1) = v' := by
  rw [accum, hv, hZ i (by omega), rr_five (Boost.Random.Nearest.rounding H) (by omega : i + 1 ≤ 22), ← hv', ← hd]
  norm_num

omit H hZ in
theorem acc0 : accum fl 5 Z 0 = 0 := rfl

theorem acc1 : accum fl 5 Z 1 = ((7205759403792794 : Nat) : ℚ) * 2 ^ (-53 : ℤ) :=
  acc_step H hZ (by norm_num) acc0 (nearest_eq H 7205759403792794 (-53) (by norm_num) (by norm_num) (by norm_num [abs_lt]))
    (nearest_eq H 7205759403792794 (-53) (by norm_num) (by norm_num) (by norm_num [abs_lt]))

theorem acc2 : accum fl 5 Z 2 = ((8646911284551353 : Nat) : ℚ) * 2 ^ (-53 : ℤ) :=
  acc_step H hZ (by norm_num) (acc1 H hZ) (nearest_eq H 5764607523034235 (-55) (by norm_num) (by norm_num) (by norm_num [abs_lt]))
    (nearest_eq H 8646911284551353 (-53) (by norm_num) (by norm_num) (by norm_num [abs_lt]))

theorem acc3 : accum fl 5 Z 3 = ((8935141660703065 : Nat) : ℚ) * 2 ^ (-53 : ℤ) :=
  acc_step H hZ (by norm_num) (acc2 H hZ) (nearest_eq H 4611686018427388 (-57) (by norm_num) (by norm_num) (by norm_num [abs_lt]))
    (nearest_eq H 8935141660703065 (-53) (by norm_num) (by norm_num) (by norm_num [abs_lt]))

theorem acc4 : accum fl 5 Z 4 = ((8992787735933407 : Nat) : ℚ) * 2 ^ (-53 : ℤ) :=
  acc_step H hZ (by norm_num) (acc3 H hZ) (nearest_eq H 7378697629483821 (-60) (by norm_num) (by norm_num) (by norm_num [abs_lt]))
    (nearest_eq H 8992787735933407 (-53) (by norm_num) (by norm_num) (by norm_num [abs_lt]))

theorem acc5 : accum fl 5 Z 5 = ((9004316950979475 : Nat) : ℚ) * 2 ^ (-53 : ℤ) :=
  acc_step H hZ (by norm_num) (acc4 H hZ) (nearest_eq H 5902958103587057 (-62) (by norm_num) (by norm_num) (by norm_num [abs_lt]))
    (nearest_eq H 9004316950979475 (-53) (by norm_num) (by norm_num) (by norm_num [abs_lt]))

theorem acc6 : accum fl 5 Z 6 = ((9006622793988689 : Nat) : ℚ) * 2 ^ (-53 : ℤ) :=
  acc_step H hZ (by norm_num) (acc5 H hZ) (nearest_eq H 4722366482869645 (-64) (by norm_num) (by norm_num) (by norm_num [abs_lt]))
    (nearest_eq H 9006622793988689 (-53) (by norm_num) (by norm_num) (by norm_num [abs_lt]))

theorem acc7 : accum fl 5 Z 7 = ((9007083962590532 : Nat) : ℚ) * 2 ^ (-53 : ℤ) :=
  acc_step H hZ (by norm_num) (acc6 H hZ) (nearest_eq H 7555786372591432 (-67) (by norm_num) (by norm_num) (by norm_num [abs_lt]))
    (nearest_eq H 9007083962590532 (-53) (by norm_num) (by norm_num) (by norm_num [abs_lt]))

theorem acc8 : accum fl 5 Z 8 = ((9007176196310901 : Nat) : ℚ) * 2 ^ (-53 : ℤ) :=
  acc_step H hZ (by norm_num) (acc7 H hZ) (nearest_eq H 6044629098073146 (-69) (by norm_num) (by norm_num) (by norm_num [abs_lt]))
    (nearest_eq H 9007176196310901 (-53) (by norm_num) (by norm_num) (by norm_num [abs_lt]))

theorem acc9 : accum fl 5 Z 9 = ((9007194643054975 : Nat) : ℚ) * 2 ^ (-53 : ℤ) :=
  acc_step H hZ (by norm_num) (acc8 H hZ) (nearest_eq H 4835703278458517 (-71) (by norm_num) (by norm_num) (by norm_num [abs_lt]))
    (nearest_eq H 9007194643054975 (-53) (by norm_num) (by norm_num) (by norm_num [abs_lt]))

theorem acc10 : accum fl 5 Z 10 = ((9007198332403790 : Nat) : ℚ) * 2 ^ (-53 : ℤ) :=
  acc_step H hZ (by norm_num) (acc9 H hZ) (nearest_eq H 7737125245533627 (-74) (by norm_num) (by norm_num) (by norm_num [abs_lt]))
    (nearest_eq H 9007198332403790 (-53) (by norm_num) (by norm_num) (by norm_num [abs_lt]))

theorem acc11 : accum fl 5 Z 11 = ((9007199070273553 : Nat) : ℚ) * 2 ^ (-53 : ℤ) :=
  acc_step H hZ (by norm_num) (acc10 H hZ) (nearest_eq H 6189700196426901 (-76) (by norm_num) (by norm_num) (by norm_num [abs_lt]))
    (nearest_eq H 9007199070273553 (-53) (by norm_num) (by norm_num) (by norm_num [abs_lt]))

theorem acc12 : accum fl 5 Z 12 = ((9007199217847506 : Nat) : ℚ) * 2 ^ (-53 : ℤ) :=
  acc_step H hZ (by norm_num) (acc11 H hZ) (nearest_eq H 4951760157141521 (-78) (by norm_num) (by norm_num) (by norm_num [abs_lt]))
    (nearest_eq H 9007199217847506 (-53) (by norm_num) (by norm_num) (by norm_num [abs_lt]))

theorem acc13 : accum fl 5 Z 13 = ((9007199247362297 : Nat) : ℚ) * 2 ^ (-53 : ℤ) :=
  acc_step H hZ (by norm_num) (acc12 H hZ) (nearest_eq H 7922816251426434 (-81) (by norm_num) (by norm_num) (by norm_num [abs_lt]))
    (nearest_eq H 9007199247362297 (-53) (by norm_num) (by norm_num) (by norm_num [abs_lt]))

theorem acc14 : accum fl 5 Z 14 = ((9007199253265255 : Nat) : ℚ) * 2 ^ (-53 : ℤ) :=
  acc_step H hZ (by norm_num) (acc13 H hZ) (nearest_eq H 6338253001141147 (-83) (by norm_num) (by norm_num) (by norm_num [abs_lt]))
    (nearest_eq H 9007199253265255 (-53) (by norm_num) (by norm_num) (by norm_num [abs_lt]))

theorem acc15 : accum fl 5 Z 15 = ((9007199254445847 : Nat) : ℚ) * 2 ^ (-53 : ℤ) :=
  acc_step H hZ (by norm_num) (acc14 H hZ) (nearest_eq H 5070602400912918 (-85) (by norm_num) (by norm_num) (by norm_num [abs_lt]))
    (nearest_eq H 9007199254445847 (-53) (by norm_num) (by norm_num) (by norm_num [abs_lt]))

theorem acc16 : accum fl 5 Z 16 = ((9007199254681965 : Nat) : ℚ) * 2 ^ (-53 : ℤ) :=
  acc_step H hZ (by norm_num) (acc15 H hZ) (nearest_eq H 8112963841460668 (-88) (by norm_num) (by norm_num) (by norm_num [abs_lt]))
    (nearest_eq H 9007199254681965 (-53) (by norm_num) (by norm_num) (by norm_num [abs_lt]))

theorem acc17 : accum fl 5 Z 17 = ((9007199254729189 : Nat) : ℚ) * 2 ^ (-53 : ℤ) :=
  acc_step H hZ (by norm_num) (acc16 H hZ) (nearest_eq H 6490371073168535 (-90) (by norm_num) (by norm_num) (by norm_num [abs_lt]))
    (nearest_eq H 9007199254729189 (-53) (by norm_num) (by norm_num) (by norm_num [abs_lt]))

theorem acc18 : accum fl 5 Z 18 = ((9007199254738634 : Nat) : ℚ) * 2 ^ (-53 : ℤ) :=
  acc_step H hZ (by norm_num) (acc17 H hZ) (nearest_eq H 5192296858534828 (-92) (by norm_num) (by norm_num) (by norm_num [abs_lt]))
    (nearest_eq H 9007199254738634 (-53) (by norm_num) (by norm_num) (by norm_num [abs_lt]))

theorem acc19 : accum fl 5 Z 19 = ((9007199254740523 : Nat) : ℚ) * 2 ^ (-53 : ℤ) :=
  acc_step H hZ (by norm_num) (acc18 H hZ) (nearest_eq H 8307674973655724 (-95) (by norm_num) (by norm_num) (by norm_num [abs_lt]))
    (nearest_eq H 9007199254740523 (-53) (by norm_num) (by norm_num) (by norm_num [abs_lt]))

theorem acc20 : accum fl 5 Z 20 = ((9007199254740901 : Nat) : ℚ) * 2 ^ (-53 : ℤ) :=
  acc_step H hZ (by norm_num) (acc19 H hZ) (nearest_eq H 6646139978924579 (-97) (by norm_num) (by norm_num) (by norm_num [abs_lt]))
    (nearest_eq H 9007199254740901 (-53) (by norm_num) (by norm_num) (by norm_num [abs_lt]))

theorem acc21 : accum fl 5 Z 21 = ((9007199254740977 : Nat) : ℚ) * 2 ^ (-53 : ℤ) :=
  acc_step H hZ (by norm_num) (acc20 H hZ) (nearest_eq H 5316911983139663 (-99) (by norm_num) (by norm_num) (by norm_num [abs_lt]))
    (nearest_eq H 9007199254740977 (-53) (by norm_num) (by norm_num) (by norm_num [abs_lt]))

/-- 22 digits 4 give one at least. -/
theorem acc22 : 1 ≤ accum fl 5 Z 22 := by
  have R := Boost.Random.Nearest.rounding H
  have hd : fl (4 / 5 ^ (21 + 1)) = ((8507059173023462 : Nat) : ℚ) * 2 ^ (-102 : ℤ) := nearest_eq H 8507059173023462 (-102) (by norm_num) (by norm_num) (by norm_num [abs_lt])
  have h := acc_step H hZ (i := 21) (by norm_num) (acc21 H hZ) hd rfl
  rw [h]
  have := R.mono 1 ((9007199254740977 : Nat) * 2 ^ (-53 : ℤ) + ((8507059173023462 : Nat) : ℚ) * 2 ^ (-102 : ℤ)) (by norm_num)
  rwa [R.exact 1 (Representable.one (by norm_num))] at this

/-- 23 digits 4 give more than one. -/
theorem acc23 : 1 < accum fl 5 Z 23 := by
  have R := Boost.Random.Nearest.rounding H
  have h22 := acc22 H hZ
  have hr : rr fl 5 23 ≤ 5 ^ 23 + 1 := by
    rw [rr, rr_five R (le_refl _)]
    have := R.mono ((5 : ℚ) ^ 22 * ((5 : Nat) : ℚ)) (5 ^ 23 + 1) (by norm_num)
    rwa [R.exact (5 ^ 23 + 1) (by
      have := Representable.scaledUp (digits := 53) (N := (5 ^ 23 + 1) / 2) (by norm_num) 1
      norm_num at this ⊢
      exact this)] at this
  have hr0 : 0 < rr fl 5 23 := lt_of_lt_of_le (by norm_num) (rr_lower (by norm_num) H (by norm_num) 23)
  have h1 : (4 : ℚ) / (5 ^ 23 + 1) ≤ 4 / rr fl 5 23 := div_le_div_of_nonneg_left (by norm_num) hr0 hr
  have h2 := (fl_bounds (by norm_num) H (x := 4 / rr fl 5 23) (div_nonneg (by norm_num) hr0.le)).1
  have h3 : (1 : ℚ) + 1 / 2 ^ 52 ≤ accum fl 5 Z 22 + fl (4 / rr fl 5 23) := by
    have : (1 : ℚ) / 2 ^ 52 ≤ 4 / (5 ^ 23 + 1) * (1 - 1 / 2 ^ 53) := by norm_num
    have h4 : (4 : ℚ) / (5 ^ 23 + 1) * (1 - 1 / 2 ^ 53) ≤ 4 / rr fl 5 23 * (1 - 1 / 2 ^ 53) := mul_le_mul_of_nonneg_right h1 (by norm_num)
    linarith
  have h5 := R.mono _ _ h3
  rw [R.exact (1 + 1 / 2 ^ 52) (by
    have := Representable.scaled (digits := 53) (N := 2 ^ 52 + 1) (by norm_num) 52
    norm_num at this ⊢
    exact this)] at h5
  rw [accum, hZ 22 (by norm_num)]
  refine lt_of_lt_of_le (by norm_num) (le_trans h5 (le_of_eq ?_))
  norm_num

end

/-- The point whose second coordinate has these digits. -/
def bigPoint : Nat := 10483355094225109

theorem bigPoint_digits : ∀ i < 23, faureDigit 5 23 bigPoint 1 i = 4 := by decide +kernel

theorem bigPoint_log : Nat.log 5 bigPoint = 22 := by
  unfold bigPoint
  exact Nat.log_eq_of_pow_le_of_lt_pow (by norm_num) (by norm_num)

theorem bigPoint_value {fl : ℚ → ℚ} (H : Nearest 53 fl) : 1 < faureRounded fl 5 bigPoint 1 := by
  unfold faureRounded
  rw [if_neg (by norm_num), faureSum_eq]
  unfold len
  rw [bigPoint_log]
  exact acc23 H bigPoint_digits

end Faure
end Boost.Random
