import Verif.Spec.Niederreiter
import Mathlib.Algebra.BigOperators.Fin
import Mathlib.Data.Fintype.BigOperators
import Mathlib.Data.Fintype.Pi
import Mathlib.Algebra.Order.BigOperators.Ring.Finset
import Mathlib.Tactic.Ring

/-!
# From boxes whose sides are multiples of the degrees to all boxes
-/

namespace Boost.Random
namespace Nets
open Spec

/-- The values with given leading bits. -/
theorem card_prefix (a s : Nat) : ((Finset.Ico (a * 2 ^ s) ((a + 1) * 2 ^ s))).card = 2 ^ s := by
  rw [Nat.card_Ico, Nat.add_mul]; omega

theorem mem_prefix {a s y : Nat} : y ∈ Finset.Ico (a * 2 ^ s) ((a + 1) * 2 ^ s) ↔ y / 2 ^ s = a := by
  rw [Finset.mem_Ico]
  constructor
  · rintro ⟨h1, h2⟩
    exact Nat.div_eq_of_lt_le h1 h2
  · rintro rfl
    refine ⟨Nat.div_mul_le_self _ _, ?_⟩
    exact Nat.lt_mul_of_div_lt (Nat.lt_succ_self _) (Nat.two_pow_pos s)

theorem ts_of_digital {w dim : Nat} {e : Nat → Nat} {vs : List Nat} (he : ∀ d < dim, 1 ≤ e d) (h : IsDigitalSequence w dim e vs) :
    IsTsSequence w dim (∑ d ∈ Finset.range dim, (e d - 1)) vs := by
  classical
  intro bits a M c hM hc ht ha
  let k : Nat → Nat := fun d => (bits d + (e d - 1)) / e d
  have hk1 : ∀ d < dim, bits d ≤ k d * e d := by
    intro d hd
    have := he d hd
    have h1 := Nat.div_add_mod (bits d + (e d - 1)) (e d)
    have h2 := Nat.mod_lt (bits d + (e d - 1)) (by omega : 0 < e d)
    rw [Nat.mul_comm] at h1
    show bits d ≤ (bits d + (e d - 1)) / e d * e d
    omega
  have hk2 : ∀ d, k d * e d ≤ bits d + (e d - 1) := fun d => Nat.div_mul_le_self _ _
  have hsum : ∑ d ∈ Finset.range dim, k d * e d ≤ M := by
    refine le_trans (Finset.sum_le_sum fun d _ => hk2 d) ?_
    rw [Finset.sum_add_distrib]
    omega
  have hle : ∀ d < dim, k d * e d ≤ w := fun d hd =>
    le_trans (Finset.single_le_sum (f := fun d => k d * e d) (fun _ _ => Nat.zero_le _) (Finset.mem_range.2 hd)) (le_trans hsum hM)
  let S : Fin dim → Finset Nat := fun d => Finset.Ico (a d * 2 ^ (k d * e d - bits d)) ((a d + 1) * 2 ^ (k d * e d - bits d))
  let f : Nat → Fin dim → Nat := fun n d => pointOf dim vs (c * 2 ^ M + n) d / 2 ^ (w - k d * e d)
  have hdiv : ∀ (d : Fin dim) (x : Nat), x / 2 ^ (w - k d * e d) / 2 ^ (k d * e d - bits d) = x / 2 ^ (w - bits d) := by
    intro d x
    rw [Nat.div_div_eq_div_mul, ← Nat.pow_add]
    have h1 := hk1 d d.2
    have h2 := hle d d.2
    congr 2
    omega
  have hmaps : ∀ n ∈ inBox w dim vs M c bits a, f n ∈ Fintype.piFinset S := by
    intro n hn
    rw [inBox, Finset.mem_filter] at hn
    rw [Fintype.mem_piFinset]
    intro d
    rw [mem_prefix, hdiv]
    exact hn.2 d d.2
  rw [Finset.card_eq_sum_card_fiberwise (f := f) (t := Fintype.piFinset S) (fun n hn => hmaps n hn)]
  have hfib : ∀ y ∈ Fintype.piFinset S, ((inBox w dim vs M c bits a).filter fun n => f n = y).card = 2 ^ (M - ∑ d ∈ Finset.range dim, k d * e d) := by
    intro y hy
    rw [Fintype.mem_piFinset] at hy
    let a' : Nat → Nat := fun d => if hd : d < dim then y ⟨d, hd⟩ else 0
    have ha' : ∀ d (hd : d < dim), a' d = y ⟨d, hd⟩ := fun d hd => dif_pos hd
    rw [← h k a' M c hM hc hsum (fun d hd => ?_)]
    · congr 1
      ext n
      rw [inBox, inBox, Finset.mem_filter, Finset.mem_filter, Finset.mem_filter, Finset.mem_range]
      constructor
      · rintro ⟨⟨h1, _⟩, h3⟩
        refine ⟨h1, fun d hd => ?_⟩
        rw [ha' d hd]
        exact congrFun h3 ⟨d, hd⟩
      · rintro ⟨h1, h2⟩
        refine ⟨⟨h1, fun d hd => ?_⟩, funext fun d => ?_⟩
        · have h3 := mem_prefix.1 (hy ⟨d, hd⟩)
          have h4 := h2 d hd
          rw [ha' d hd] at h4
          rw [← hdiv ⟨d, hd⟩, h4]
          exact h3
        · rw [← ha' d d.2]
          exact h2 d d.2
    · rw [ha' d hd]
      have h1 := Finset.mem_Ico.1 (hy ⟨d, hd⟩)
      refine lt_of_lt_of_le h1.2 ?_
      calc (a d + 1) * 2 ^ (k d * e d - bits d) ≤ 2 ^ bits d * 2 ^ (k d * e d - bits d) := Nat.mul_le_mul_right _ (ha d hd)
        _ = 2 ^ (k d * e d) := by rw [← Nat.pow_add]; congr 1; have := hk1 d hd; omega
  rw [Finset.sum_congr rfl hfib, Finset.sum_const, smul_eq_mul, Fintype.card_piFinset]
  have hS : ∀ d : Fin dim, (S d).card = 2 ^ (k d * e d - bits d) := fun d => card_prefix _ _
  rw [Finset.prod_congr rfl (fun d _ => hS d), Fin.prod_univ_eq_prod_range (fun d => 2 ^ (k d * e d - bits d)), Finset.prod_pow_eq_pow_sum, ← Nat.pow_add]
  congr 1
  have h1 : ∑ d ∈ Finset.range dim, k d * e d = ∑ d ∈ Finset.range dim, (k d * e d - bits d) + ∑ d ∈ Finset.range dim, bits d := by
    rw [← Finset.sum_add_distrib]
    refine Finset.sum_congr rfl fun d hd => ?_
    have := hk1 d (Finset.mem_range.1 hd)
    omega
  omega

end Nets
end Boost.Random
