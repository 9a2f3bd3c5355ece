import Verif.Model.OldUniform01
import Verif.Proofs.RealDist
import Verif.Spec.OldUniform01

/-!
# Lemmas on the two forms of `uniform_01`
-/

namespace Boost.Random

open Spec RealDist OldUniform01

namespace OldUniform01

theorem minus_eq {E : EngInfo} (hE : EngOK E) (h : OldOK E) {x : Int} (hx : E.min ≤ x ∧ x ≤ E.max) : minus E.ty x E.min = some (x - E.min) := by
  unfold minus
  split
  · rfl
  · exact subTy_eq hE (h.resolve_left (by assumption)) hx

theorem convert_eq {E : EngInfo} (hE : EngOK E) (h : DiffOK E) {x : Int} (hx : E.min ≤ x ∧ x ≤ E.max) : convert E.ty (x - E.min) = x - E.min := by
  have hp : (0 : Int) < 2 ^ E.ty.bits := by positivity
  have h1 := hE.min_ty
  have h2 := hE.max_ty
  have hb := hE.bits
  have h2w : (2 : Int) ^ E.ty.bits = 2 * 2 ^ (E.ty.bits - 1) := by
    rw [← pow_succ']; congr 1; omega
  have hlt : x - E.min < 2 ^ E.ty.bits := by
    unfold InTy at h1 h2
    by_cases hs : E.ty.signed = true
    · rw [if_pos hs] at h1 h2
      unfold InSigned at h1 h2
      omega
    · rw [if_neg hs] at h1 h2
      omega
  have hm : (x - E.min) % 2 ^ E.ty.bits = x - E.min := Int.emod_eq_of_lt (by omega) hlt
  unfold convert castT
  rw [hm]
  have hN : (x - E.min).toNat % 2 ^ E.ty.bits = (x - E.min).toNat := by
    refine Nat.mod_eq_of_lt ?_
    have : ((x - E.min).toNat : Int) < (2 ^ E.ty.bits : Nat) := by
      rw [Int.toNat_of_nonneg (by omega)]
      exact_mod_cast hlt
    exact_mod_cast this
  by_cases hs : E.ty.signed = true
  · have hd := h hs
    rw [if_pos hs]
    unfold toSigned
    simp only [hN]
    rw [if_pos]
    · omega
    · have : ((x - E.min).toNat : Int) < (2 ^ (E.ty.bits - 1) : Nat) := by
        rw [Int.toNat_of_nonneg (by omega)]
        push_cast
        omega
      exact_mod_cast this
  · rw [if_neg hs, hN]
    omega

theorem den_pos {digits : Nat} {fl : ℚ → ℚ} (H : Rounding digits fl) (hd : 1 ≤ digits) {E : EngInfo} (hE : EngOK E) : 0 < fl (fl ((E.max - E.min : Int) : ℚ) + fl 1) := by
  have hlt := hE.lt
  have h1 : fl 1 = 1 := fl_one H hd
  have h0 : (0 : ℚ) ≤ fl ((E.max - E.min : Int) : ℚ) := fl_nonneg H (by exact_mod_cast (by omega : (0 : Int) ≤ E.max - E.min))
  have : fl 1 ≤ fl (fl ((E.max - E.min : Int) : ℚ) + fl 1) := H.mono _ _ (by rw [h1]; linarith)
  linarith

/-- The type `int` in place of the result type of a narrow engine. -/
def widen (E : EngInfo) : EngInfo := if E.ty.bits < 32 then { E with ty := ⟨32, true⟩ } else E

theorem widen_min (E : EngInfo) : (widen E).min = E.min := by unfold widen; split <;> rfl
theorem widen_max (E : EngInfo) : (widen E).max = E.max := by unfold widen; split <;> rfl

theorem widen_ok {E : EngInfo} (hE : EngOK E) (h : OldOK E) : EngOK (widen E) ∧ DiffOK (widen E) := by
  unfold widen
  split
  · rename_i hb
    have h1 := hE.min_ty
    have h2 := hE.max_ty
    have e : (2 : Int) ^ E.ty.bits ≤ 2 ^ 31 := pow_le_pow_right₀ (by norm_num) (by omega)
    have e' : (2 : Int) ^ (E.ty.bits - 1) ≤ 2 ^ 30 := pow_le_pow_right₀ (by norm_num) (by omega)
    have hmin : -(2 : Int) ^ 30 ≤ E.min ∧ E.min < 2 ^ 31 := by
      unfold InTy InSigned at h1
      split at h1 <;> constructor <;> omega
    have hmax : -(2 : Int) ^ 30 ≤ E.max ∧ E.max < 2 ^ 31 := by
      unfold InTy InSigned at h2
      split at h2 <;> constructor <;> omega
    have hdiff : E.max - E.min < 2 ^ 31 := by
      unfold InTy InSigned at h1 h2
      split at h1 <;> simp_all <;> omega
    refine ⟨⟨by norm_num, ?_, ?_, hE.lt⟩, fun _ => hdiff⟩
    · show InTy ⟨32, true⟩ E.min
      unfold InTy InSigned
      norm_num
      omega
    · show InTy ⟨32, true⟩ E.max
      unfold InTy InSigned
      norm_num
      omega
  · exact ⟨hE, h.resolve_left (by assumption)⟩

/-- The loop of the old form is that of the new form on wide types. -/
theorem loop_eq {fl : ℚ → ℚ} {E : EngInfo} (hE : EngOK E) (h : OldOK E) : ∀ xs, Outputs E xs →
    Old.loop fl E (fl (1 / fl (fl ((E.max - E.min : Int) : ℚ) + fl 1))) xs = uniform01 fl (widen E) xs := by
  intro xs
  induction xs with
  | nil => intro _; rfl
  | cons x xs ih =>
    intro hO
    have hx := hO x List.mem_cons_self
    have hlt := hE.lt
    obtain ⟨w1, w2⟩ := widen_ok hE h
    rw [Old.loop, uniform01, minus_eq hE h hx]
    have hm := subTy_eq w1 w2 (x := (widen E).max) ⟨by rw [widen_min, widen_max]; exact hlt.le, le_refl _⟩
    have hd := subTy_eq w1 w2 (x := x) (by rw [widen_min, widen_max]; exact hx)
    rw [hm, hd, widen_min, widen_max]
    simp only
    rw [ih fun y hy => hO y (List.mem_cons_of_mem _ hy)]

end OldUniform01

end Boost.Random
