import Verif.Proofs.IntFloatPair
import Verif.Proofs.DiscreteProb

/-!
# Distributions with floating-point results
-/

namespace Boost.Random
open Spec Finset
namespace RealDist

section
variable {E : EngInfo} (hE : EngOK E) (hD : DiffOK E)
include hE hD

theorem subTy_eq {x : Int} (hx : E.min ≤ x ∧ x ≤ E.max) : subTy E.ty x E.min = some (x - E.min) := by
  unfold subTy
  have h1 := hE.min_ty
  have h2 := hE.max_ty
  unfold InTy at h1 h2
  by_cases hs : E.ty.signed = true
  · have := hD hs
    rw [if_pos hs, if_pos]
    unfold InSigned
    refine ⟨?_, by omega⟩
    have : (0 : Int) < 2 ^ (E.ty.bits - 1) := by positivity
    omega
  · rw [if_neg hs] at h1 h2 ⊢
    rw [Int.emod_eq_of_lt (by omega) (by omega)]

end

section
variable {digits : Nat} {fl : ℚ → ℚ} (H : Rounding digits fl)
include H

theorem fl_zero : fl 0 = 0 := H.exact _ (Representable.zero _)

theorem fl_nonneg {x : ℚ} (h : 0 ≤ x) : 0 ≤ fl x := by
  have := H.mono 0 x h
  rwa [fl_zero H] at this

theorem fl_fl (x : ℚ) : fl (fl x) = fl x := H.exact _ (H.repr x)

variable {E : EngInfo} (hE : EngOK E)
include hE

theorem uniform01_range (hD : DiffOK E) : ∀ xs, Outputs E xs → uniform01 fl E xs ≠ .ub ∧
    ∀ v rest, uniform01 fl E xs = .done v rest → 0 ≤ v ∧ v < 1 ∧ Representable digits v ∧ rest <:+ xs := by
  have hlt := hE.lt
  intro xs
  induction xs with
  | nil => intro _; exact ⟨by rintro ⟨⟩, by rintro _ _ ⟨⟩⟩
  | cons x xs ih =>
    intro hO
    have hx := hO x (by simp)
    unfold uniform01
    rw [subTy_eq hE hD ⟨hlt.le, le_refl _⟩, subTy_eq hE hD hx]
    simp only
    split
    · rename_i hl
      refine ⟨by rintro ⟨⟩, ?_⟩
      rintro _ _ ⟨⟩
      refine ⟨fl_nonneg H (mul_nonneg (fl_nonneg H ?_) (fl_nonneg H (div_nonneg zero_le_one (fl_nonneg H (add_nonneg (fl_nonneg H ?_) (fl_nonneg H zero_le_one)))))), hl, H.repr _, List.suffix_cons _ _⟩
      · exact_mod_cast (by omega : (0 : Int) ≤ x - E.min)
      · exact_mod_cast (by omega : (0 : Int) ≤ E.max - E.min)
    · obtain ⟨i1, i2⟩ := ih fun z hz => hO z (by simp [hz])
      refine ⟨i1, fun v rest h => ?_⟩
      obtain ⟨a, b, c, d⟩ := i2 v rest h
      exact ⟨a, b, c, d.trans (List.suffix_cons _ _)⟩

theorem uniform01_min (hD : DiffOK E) (xs : List Int) : uniform01 fl E (E.min :: xs) = .done 0 xs := by
  have hlt := hE.lt
  unfold uniform01
  rw [subTy_eq hE hD ⟨hlt.le, le_refl _⟩, subTy_eq hE hD ⟨le_refl _, hlt.le⟩]
  simp [fl_zero H]

theorem uniformReal_range {lo hi : ℚ} (hlh : lo ≤ hi) (hlo : Representable digits lo) : ∀ xs, Outputs E xs → uniformReal fl E lo hi xs ≠ .ub ∧
    ∀ v rest, uniformReal fl E lo hi xs = .done v rest → lo ≤ v ∧ v < hi ∧ Representable digits v ∧ rest <:+ xs := by
  intro xs
  induction xs with
  | nil => intro _; exact ⟨by rintro ⟨⟩, by rintro _ _ ⟨⟩⟩
  | cons x xs ih =>
    intro hO
    have hx := hO x (by simp)
    unfold uniformReal
    rw [EngInfo.brange_eq hE, EngInfo.diff_eq hE hx]
    simp only
    split
    · rename_i hl
      refine ⟨by rintro ⟨⟩, ?_⟩
      rintro _ _ ⟨⟩
      refine ⟨?_, hl, H.repr _, List.suffix_cons _ _⟩
      conv_lhs => rw [← H.exact _ hlo]
      apply H.mono
      have : 0 ≤ fl (fl (fl (dig E x : ℚ) / fl (fl ((E.b - 1 : Nat) : ℚ) + fl 1)) * fl (hi - lo)) :=
        fl_nonneg H (mul_nonneg (fl_nonneg H (div_nonneg (fl_nonneg H (by positivity)) (fl_nonneg H (add_nonneg (fl_nonneg H (by positivity)) (fl_nonneg H zero_le_one)))))
          (fl_nonneg H (by linarith)))
      linarith
    · obtain ⟨i1, i2⟩ := ih fun z hz => hO z (by simp [hz])
      refine ⟨i1, fun v rest h => ?_⟩
      obtain ⟨a, b, c, d⟩ := i2 v rest h
      exact ⟨a, b, c, d.trans (List.suffix_cons _ _)⟩

theorem uniformReal_min {lo hi : ℚ} (hlh : lo < hi) (hlo : Representable digits lo) (xs : List Int) : uniformReal fl E lo hi (E.min :: xs) = .done lo xs := by
  have hlt := hE.lt
  unfold uniformReal
  rw [EngInfo.brange_eq hE, EngInfo.diff_eq hE ⟨le_refl _, hlt.le⟩]
  have : dig E E.min = 0 := by unfold dig; omega
  simp [fl_zero H, this, H.exact _ hlo, hlh]

end

/-! ## `bernoulli_distribution` -/

section
variable {E : EngInfo} (hE : EngOK E) (hD : DiffOK E) {fl : ℚ → ℚ}
include hE hD

theorem bernoulli_cons {p : ℚ} (hp : p ≠ 0) {x : Int} (hx : E.min ≤ x ∧ x ≤ E.max) (xs : List Int) :
    bernoulli fl E p (x :: xs) = .done (decide (fl ((x - E.min : Int) : ℚ) ≤ fl (p * fl ((E.max - E.min : Int) : ℚ)))) xs := by
  unfold bernoulli
  rw [if_neg hp]
  simp only
  rw [subTy_eq hE hD hx, subTy_eq hE hD ⟨hE.lt.le, le_refl _⟩]

theorem bernoulli_count {p : ℚ} (hp : 0 < p) (hex : ∀ n : Nat, (n : ℤ) ≤ E.max - E.min → fl n = n)
    (h0 : 0 ≤ fl (p * ((E.max - E.min : Int) : ℚ))) (h1 : fl (p * ((E.max - E.min : Int) : ℚ)) ≤ ((E.max - E.min : Int) : ℚ)) :
    count E (bernoulli fl E p) 1 true = ⌊fl (p * ((E.max - E.min : Int) : ℚ))⌋₊ + 1 := by
  have hlt := hE.lt
  rw [count_eq_cnt]
  obtain ⟨R, hR⟩ : ∃ R : Nat, (R : Int) = E.max - E.min := ⟨(E.max - E.min).toNat, by omega⟩
  have hb : E.b = R + 1 := by unfold EngInfo.b; omega
  rw [← hR] at h0 h1 ⊢
  have hfR : fl ((R : Int) : ℚ) = R := by
    have := hex R (by omega)
    exact_mod_cast this
  push_cast at h0 h1 hfR ⊢
  unfold cnt
  rw [hb]
  have hs : ∀ d ∈ range (R + 1), cnt E (fun xs => bernoulli fl E p ((E.min + (d : Int)) :: xs)) 0 true =
      if d < ⌊fl (p * (R : ℚ))⌋₊ + 1 then 1 else 0 := by
    intro d hd
    have hd' := mem_range.1 hd
    unfold cnt
    rw [bernoulli_cons hE hD hp.ne' ⟨by omega, by omega⟩, ← hR]
    have e1 : fl ((E.min + (d : Int) - E.min : Int) : ℚ) = d := by
      rw [show E.min + (d : Int) - E.min = (d : Int) by omega]
      have := hex d (by omega)
      exact_mod_cast this
    have e2 : fl ((R : Int) : ℚ) = R := by exact_mod_cast hfR
    rw [e1, e2]
    have : ((d : ℚ) ≤ fl (p * (R : ℚ))) ↔ d < ⌊fl (p * (R : ℚ))⌋₊ + 1 := by
      rw [Nat.lt_succ_iff]
      exact (Nat.le_floor_iff h0).symm
    by_cases h : (d : ℚ) ≤ fl (p * (R : ℚ))
    · rw [if_pos (this.1 h), if_pos (by simp [h])]
    · rw [if_neg (fun hh => h (this.2 hh)), if_neg (by simp [h])]
  rw [sum_congr rfl hs, ← card_filter]
  have hfl : ⌊fl (p * (R : ℚ))⌋₊ ≤ R := by
    have := Nat.floor_le h0
    exact_mod_cast le_trans this h1
  have : (range (R + 1)).filter (fun d => d < ⌊fl (p * (R : ℚ))⌋₊ + 1) = range (⌊fl (p * (R : ℚ))⌋₊ + 1) := by
    ext d; simp only [mem_filter, mem_range]; omega
  rw [this, card_range]

end

end RealDist
end Boost.Random
