import Verif.Model.Mixture
import Verif.Proofs.BinomialWitness
import Verif.Proofs.BinomialRange
import Verif.Proofs.NearPow

/-!
# `hyperexp_detail::normalize`
-/

namespace Boost.Random
open Spec RealDist
namespace Hyperexponential

theorem accumulate_id (l : List ℚ) (s : ℚ) : accumulate id l s = s + l.sum := by
  unfold accumulate
  induction l generalizing s with
  | nil => simp
  | cons a l ih => rw [List.foldl_cons, ih, List.sum_cons]; simp only [id]; ring

/-- In exact arithmetic each number is divided by the sum. -/
theorem normalize_id (v : List ℚ) (hs : v.sum ≠ 0) : normalize id v = v.map (· / v.sum) := by
  unfold normalize
  rcases v.eq_nil_or_concat with rfl | ⟨l, a, rfl⟩
  · rfl
  rw [if_neg (by simp)]
  simp only [List.concat_eq_append, List.dropLast_concat, accumulate_id, id, zero_add, List.map_append, List.map_cons, List.map_nil]
  rw [List.concat_eq_append] at hs
  congr 2
  have : (l.map fun x => x / (l ++ [a]).sum).sum = l.sum / (l ++ [a]).sum := by
    generalize (l ++ [a]).sum = s
    clear hs
    induction l with
    | nil => simp
    | cons b l ih => rw [List.map_cons, List.sum_cons, ih, List.sum_cons, add_div]
  rw [this, eq_div_iff hs, sub_mul, div_mul_cancel₀ _ hs, List.sum_append]
  simp

variable {fl : ℚ → ℚ}

theorem accumulate_append (fl : ℚ → ℚ) (l m : List ℚ) (s : ℚ) : accumulate fl (l ++ m) s = accumulate fl m (accumulate fl l s) := by
  unfold accumulate
  rw [List.foldl_append]

theorem accumulate_repr {P : Nat} (R : Rounding P fl) : ∀ (l : List ℚ) (s : ℚ), Representable P s → Representable P (accumulate fl l s)
  | [], _, h => h
  | a :: l, s, _ => accumulate_repr R l (fl (s + a)) (R.repr _)

theorem accumulate_nonneg {P : Nat} (R : Rounding P fl) : ∀ (l : List ℚ) (s : ℚ), (∀ x ∈ l, 0 ≤ x) → 0 ≤ s → 0 ≤ accumulate fl l s
  | [], _, _, h => h
  | a :: l, s, hl, hs => accumulate_nonneg R l (fl (s + a)) (fun x hx => hl x (List.mem_cons_of_mem _ hx)) (RealDist.fl_nonneg R (add_nonneg hs (hl a (by simp))))

theorem accumulate_mem {P : Nat} (R : Rounding P fl) : ∀ (l : List ℚ) (s : ℚ), (∀ x ∈ l, 0 ≤ x) → (∀ x ∈ l, Representable P x) → 0 ≤ s → Representable P s →
    s ≤ accumulate fl l s ∧ ∀ x ∈ l, x ≤ accumulate fl l s
  | [], s, _, _, _, _ => ⟨le_refl s, by simp⟩
  | a :: l, s, hl, hr, hs, hrs => by
    have ha := hl a (by simp)
    obtain ⟨h1, h2⟩ := accumulate_mem R l (fl (s + a)) (fun x hx => hl x (List.mem_cons_of_mem _ hx)) (fun x hx => hr x (List.mem_cons_of_mem _ hx))
      (RealDist.fl_nonneg R (add_nonneg hs ha)) (R.repr _)
    have e : accumulate fl (a :: l) s = accumulate fl l (fl (s + a)) := rfl
    rw [e]
    have g1 := R.mono s (s + a) (by linarith)
    have g2 := R.mono a (s + a) (by linarith)
    rw [R.exact s hrs] at g1
    rw [R.exact a (hr a (by simp))] at g2
    refine ⟨g1.trans h1, fun x hx => ?_⟩
    rcases List.mem_cons.1 hx with rfl | hx
    · exact g2.trans h1
    · exact h2 x hx

section
variable (H : Nearest 53 fl)
include H

theorem fl_bounds {x : ℚ} (h : 0 ≤ x) : x * (1 - 1 / 2 ^ 53) ≤ fl x ∧ fl x ≤ x * (1 + 1 / 2 ^ 53) := by
  have := abs_le.1 (Faure.nearest_rel (by norm_num) H x)
  rw [abs_of_nonneg h] at this
  constructor
  · linarith [this.2]
  · linarith [this.1]

theorem accumulate_ge : ∀ (l : List ℚ) (s : ℚ), (∀ x ∈ l, 0 ≤ x) → 0 ≤ s → (s + l.sum) * (1 - 1 / 2 ^ 53) ^ l.length ≤ accumulate fl l s
  | [], s, _, _ => by simp [accumulate]
  | a :: l, s, hl, hs => by
    have ha := hl a (by simp)
    have hl' : ∀ x ∈ l, 0 ≤ x := fun x hx => hl x (List.mem_cons_of_mem _ hx)
    have h1 := (fl_bounds H (add_nonneg hs ha)).1
    have h0 : 0 ≤ fl (s + a) := RealDist.fl_nonneg (Boost.Random.Nearest.rounding H) (add_nonneg hs ha)
    have ih := accumulate_ge l (fl (s + a)) hl' h0
    have hls : 0 ≤ l.sum := List.sum_nonneg hl'
    refine le_trans ?_ ih
    rw [List.sum_cons, List.length_cons, pow_succ' (1 - 1 / 2 ^ 53 : ℚ) l.length]
    generalize hq : (1 - 1 / 2 ^ 53 : ℚ) = q at *
    have q0 : 0 ≤ q := by rw [← hq]; norm_num
    have q1 : q ≤ 1 := by rw [← hq]; norm_num
    have hpow : 0 ≤ q ^ l.length := pow_nonneg q0 _
    have : (s + (a + l.sum)) * q ≤ fl (s + a) + l.sum := by nlinarith
    calc (s + (a + l.sum)) * (q * q ^ l.length) = ((s + (a + l.sum)) * q) * q ^ l.length := by ring
      _ ≤ _ := mul_le_mul_of_nonneg_right this hpow

theorem accumulate_le : ∀ (l : List ℚ) (s : ℚ), (∀ x ∈ l, 0 ≤ x) → 0 ≤ s → accumulate fl l s ≤ (s + l.sum) * (1 + 1 / 2 ^ 53) ^ l.length
  | [], s, _, _ => by simp [accumulate]
  | a :: l, s, hl, hs => by
    have ha := hl a (by simp)
    have hl' : ∀ x ∈ l, 0 ≤ x := fun x hx => hl x (List.mem_cons_of_mem _ hx)
    have h1 := (fl_bounds H (add_nonneg hs ha)).2
    have h0 : 0 ≤ fl (s + a) := RealDist.fl_nonneg (Boost.Random.Nearest.rounding H) (add_nonneg hs ha)
    have ih := accumulate_le l (fl (s + a)) hl' h0
    have hls : 0 ≤ l.sum := List.sum_nonneg hl'
    refine le_trans ih ?_
    rw [List.sum_cons, List.length_cons, pow_succ' (1 + 1 / 2 ^ 53 : ℚ) l.length]
    generalize hq : (1 + 1 / 2 ^ 53 : ℚ) = q at *
    have q0 : 1 ≤ q := by rw [← hq]; norm_num
    have hpow : 0 ≤ q ^ l.length := pow_nonneg (by linarith) _
    have : fl (s + a) + l.sum ≤ (s + (a + l.sum)) * q := by nlinarith
    calc _ ≤ ((s + (a + l.sum)) * q) * q ^ l.length := mul_le_mul_of_nonneg_right this hpow
      _ = _ := by ring

theorem sum_div_le {S : ℚ} (hS : 0 < S) : ∀ l : List ℚ, (∀ x ∈ l, 0 ≤ x) → (l.map fun x => fl (x / S)).sum ≤ l.sum / S * (1 + 1 / 2 ^ 53)
  | [], _ => by simp
  | a :: l, hl => by
    have h := (fl_bounds H (div_nonneg (hl a (by simp)) hS.le)).2
    have ih := sum_div_le hS l fun x hx => hl x (List.mem_cons_of_mem _ hx)
    rw [List.map_cons, List.sum_cons, List.sum_cons, add_div, add_mul]
    exact add_le_add h ih

/-- The sum of all rounded quotients but the last. -/
theorem head_sum_le (v : List ℚ) (hv : ∀ x ∈ v, 0 ≤ x) (hs : 0 < v.sum) (hn : v.length ≤ 2 ^ 50) :
    accumulate fl (v.dropLast.map fun x => fl (x / accumulate fl v 0)) 0 ≤ 2 := by
  have hge := accumulate_ge H v 0 hv le_rfl
  rw [zero_add] at hge
  have b1 : (7 / 8 : ℚ) ≤ (1 - 1 / 2 ^ 53) ^ v.length := by
    have := one_add_mul_le_pow (a := (-(1 / 2 ^ 53) : ℚ)) (by norm_num) v.length
    rw [← sub_eq_add_neg] at this
    refine le_trans ?_ this
    have h : (v.length : ℚ) ≤ 2 ^ 50 := by exact_mod_cast hn
    have : (v.length : ℚ) * -(1 / 2 ^ 53) ≥ 2 ^ 50 * -(1 / 2 ^ 53) := mul_le_mul_of_nonpos_right h (by norm_num)
    norm_num at this ⊢
    linarith
  have b2 : ((1 + 1 / 2 ^ 53 : ℚ)) ^ v.length ≤ 8 / 7 := by
    have h1 : ((1 + 1 / 2 ^ 53 : ℚ)) ^ v.length * (1 - 1 / 2 ^ 53) ^ v.length ≤ 1 := by
      rw [← mul_pow]
      exact pow_le_one₀ (by norm_num) (by norm_num)
    have h2 : (0 : ℚ) < (1 + 1 / 2 ^ 53) ^ v.length := by positivity
    nlinarith
  have hS : v.sum * (7 / 8) ≤ accumulate fl v 0 := le_trans (mul_le_mul_of_nonneg_left b1 hs.le) hge
  have hS0 : 0 < accumulate fl v 0 := by linarith
  generalize accumulate fl v 0 = S at *
  have hd : ∀ x ∈ v.dropLast, 0 ≤ x := fun x hx => hv x (List.mem_of_mem_dropLast hx)
  have hm : ∀ x ∈ v.dropLast.map (fun x => fl (x / S)), 0 ≤ x := by
    intro x hx
    obtain ⟨y, hy, rfl⟩ := List.mem_map.1 hx
    exact RealDist.fl_nonneg (Boost.Random.Nearest.rounding H) (div_nonneg (hd y hy) hS0.le)
  have h1 := accumulate_le H _ 0 hm le_rfl
  rw [zero_add] at h1
  have h2 := sum_div_le H hS0 v.dropLast hd
  have h3 : v.dropLast.sum ≤ v.sum := by
    rcases v.eq_nil_or_concat with rfl | ⟨l, a, rfl⟩
    · simp
    · rw [List.concat_eq_append, List.dropLast_concat, List.sum_append]
      have := hv a (by simp)
      simpa using this
  have h4 : v.dropLast.sum / S ≤ 8 / 7 := by
    rw [div_le_iff₀ hS0]
    linarith
  have h5 : ((1 + 1 / 2 ^ 53 : ℚ)) ^ (v.dropLast.map fun x => fl (x / S)).length ≤ 8 / 7 := by
    refine le_trans (pow_le_pow_right₀ (by norm_num) ?_) b2
    rw [List.length_map, List.length_dropLast]
    omega
  have h6 : 0 ≤ v.dropLast.sum / S := div_nonneg (List.sum_nonneg hd) hS0.le
  have h7 : (0 : ℚ) < (1 + 1 / 2 ^ 53) ^ (v.dropLast.map fun x => fl (x / S)).length := by positivity
  have h8 : (v.dropLast.map fun x => fl (x / S)).sum ≤ 8 / 7 * (1 + 1 / 2 ^ 53) := le_trans h2 (mul_le_mul_of_nonneg_right h4 (by norm_num))
  have h9 := mul_le_mul h8 h5 h7.le (by norm_num)
  refine le_trans (le_trans h1 h9) ?_
  norm_num

/-- The last number added to the others gives one, in the arithmetic of the program. -/
theorem complement (htie : fl (1 - 1 / 2 ^ 54) = 1) {f : ℚ} (h0 : 0 ≤ f) (h2 : f ≤ 2) (hr : Representable 53 f) : fl (f + fl (1 - f)) = 1 := by
  have R := (Boost.Random.Nearest.rounding H)
  have h1r : Representable 53 1 := Representable.one (by norm_num)
  rcases le_or_gt (1 / 2) f with h | h
  · rw [R.exact _ (Representable.sub_close h1r hr (by linarith) (by linarith)), add_sub_cancel, R.exact _ h1r]
  · have hc : |(1 - f) - fl (1 - f)| ≤ 1 / 2 ^ 54 := by
      obtain ⟨r, hm⟩ : ∃ r : ℤ, |(1 - f) * 2 ^ 53 - (r : ℚ)| ≤ 1 / 2 := ⟨_, abs_sub_round _⟩
      have hlo := (abs_le.1 hm).1
      have hhi := (abs_le.1 hm).2
      have hrep : Representable 53 ((r : ℚ) / 2 ^ 53) := by
        by_cases hb : r < 2 ^ 53
        · refine ⟨r, -53, ?_, by rw [div_eq_mul_inv]; norm_num⟩
          rw [abs_of_nonneg]
          · exact_mod_cast hb
          · have : (-1 : ℚ) < (r : ℚ) := by norm_num at hlo hhi ⊢; linarith
            have : (-1 : ℤ) < r := by exact_mod_cast this
            omega
        · have : (r : ℚ) < 2 ^ 53 + 1 := by norm_num at hlo hhi ⊢; linarith
          have : r < 2 ^ 53 + 1 := by exact_mod_cast this
          have : r = 2 ^ 53 := by omega
          rw [this]
          have : (((2 ^ 53 : ℤ) : ℚ) / 2 ^ 53) = 1 := by norm_num
          rw [this]
          exact h1r
      refine le_trans (H.nearest _ _ hrep) ?_
      have e : (1 - f) - (r : ℚ) / 2 ^ 53 = ((1 - f) * 2 ^ 53 - r) / 2 ^ 53 := by
        field_simp
      rw [e, abs_div, abs_of_pos (show (0 : ℚ) < 2 ^ 53 by norm_num), div_le_iff₀ (by norm_num)]
      refine le_trans hm ?_
      norm_num
    have hc' := abs_le.1 hc
    generalize fl (1 - f) = g at *
    apply le_antisymm
    · have h3 : fl (f + g) ≤ fl (1 + 1 / 2 ^ 54) := R.mono _ _ (by linarith [hc'.1])
      refine le_trans h3 ?_
      by_contra hgt
      have g1 := Representable.ge_succ_one (by norm_num) (H.repr (1 + 1 / 2 ^ 54)) (not_le.1 hgt)
      have g2 := H.nearest (1 + 1 / 2 ^ 54) 1 h1r
      rw [add_sub_cancel_left, abs_of_pos (show (0 : ℚ) < 1 / 2 ^ 54 by norm_num)] at g2
      have g3 := (abs_le.1 g2).1
      norm_num at g1 g3
      linarith
    · rw [← htie]
      refine R.mono _ _ ?_
      linarith [hc'.2]

/-- The numbers sum to one, in the arithmetic of the program. -/
theorem normalize_sum (htie : fl (1 - 1 / 2 ^ 54) = 1) (v : List ℚ) (hv : ∀ x ∈ v, 0 ≤ x) (hs : 0 < v.sum) (hn : v.length ≤ 2 ^ 50) :
    accumulate fl (normalize fl v) 0 = 1 := by
  have hne : v ≠ [] := by rintro rfl; simp at hs
  unfold normalize
  rw [if_neg hne]
  dsimp only
  rw [accumulate_append]
  have hS : 0 ≤ accumulate fl v 0 := accumulate_nonneg (Boost.Random.Nearest.rounding H) v 0 hv le_rfl
  refine complement H htie (accumulate_nonneg (Boost.Random.Nearest.rounding H) _ 0 ?_ le_rfl) (head_sum_le H v hv hs hn) (accumulate_repr (Boost.Random.Nearest.rounding H) _ 0 (Representable.zero _))
  intro x hx
  obtain ⟨y, hy, rfl⟩ := List.mem_map.1 hx
  exact RealDist.fl_nonneg (Boost.Random.Nearest.rounding H) (div_nonneg (hv y (List.mem_of_mem_dropLast hy)) hS)

/-- A second call changes nothing. -/
theorem normalize_idem (htie : fl (1 - 1 / 2 ^ 54) = 1) (v : List ℚ) (hv : ∀ x ∈ v, 0 ≤ x) (hs : 0 < v.sum) (hn : v.length ≤ 2 ^ 50) :
    normalize fl (normalize fl v) = normalize fl v := by
  have h1 := normalize_sum H htie v hv hs hn
  have hne : v ≠ [] := by rintro rfl; simp at hs
  have hne' : normalize fl v ≠ [] := by unfold normalize; rw [if_neg hne]; simp
  conv_lhs => rw [normalize, if_neg hne']
  dsimp only
  rw [h1]
  have e : (normalize fl v).dropLast.map (fun x => fl (x / 1)) = (normalize fl v).dropLast := by
    conv_rhs => rw [← List.map_id (normalize fl v).dropLast]
    refine List.map_congr_left fun x hx => ?_
    rw [div_one, id]
    unfold normalize at hx
    rw [if_neg hne] at hx
    dsimp only at hx
    rw [List.dropLast_concat] at hx
    obtain ⟨y, _, rfl⟩ := List.mem_map.1 hx
    exact (Boost.Random.Nearest.rounding H).exact _ (H.repr _)
  rw [e]
  unfold normalize
  rw [if_neg hne]
  dsimp only
  rw [List.dropLast_concat]

end
end Hyperexponential
end Boost.Random
