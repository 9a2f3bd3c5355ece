import Verif.Model.HyperRound
import Verif.Proofs.PiecewiseRound
import Verif.Proofs.Normalize

/-!
# `probabilities()` in floating-point arithmetic
-/

namespace Boost.Random
open Spec
namespace Discrete

theorem probLoop_round {p : Nat} {fl : ℚ → ℚ} (R : Rounding p fl) (hpos : ∀ x, 0 < x → 0 < fl x) {n : Nat} :
    ∀ (t : List (ℚ × Nat)) (i : Nat) (r : List ℚ), r.length = n → i + t.length = n → (∀ e ∈ t, 0 ≤ e.1 ∧ e.1 ≤ 1 ∧ e.2 < n) →
      (∀ x ∈ r, 0 ≤ x ∧ Representable p x) → (t = [] → ∃ x ∈ r, 0 < x) →
      ∃ r', probLoop (fun x y => some (fl (x - y))) (fun _ => some 1) (fun x y => some (fl (x + y))) i t r = some r' ∧ r'.length = n ∧
        (∀ x ∈ r', 0 ≤ x ∧ Representable p x) ∧ ∃ x ∈ r', 0 < x
  | [], i, r, hl, _, _, hr, hne => ⟨r, rfl, hl, hr, hne rfl⟩
  | (x, s) :: t, i, r, hl, hi, ht, hr, _ => by
    obtain ⟨hx0, hx1, hs⟩ := ht (x, s) (by simp)
    simp only at hx0 hx1 hs
    simp only [List.length_cons] at hi
    have hir : i < r.length := by omega
    have fnn : ∀ z, 0 ≤ z → 0 ≤ fl z := fun z hz => by
      have := R.mono 0 z hz
      rwa [R.exact 0 (Representable.zero p)] at this
    have h0 := (hr r[i] (List.getElem_mem hir)).1
    obtain ⟨x1, e1⟩ : ∃ z, fl (r[i] + x) = z := ⟨_, rfl⟩
    have hx1' : 0 ≤ x1 := by rw [← e1]; exact fnn _ (by linarith)
    have hr1 : ∀ z ∈ r.set i x1, 0 ≤ z ∧ Representable p z := by
      intro z hz
      rcases List.mem_or_eq_of_mem_set hz with h | rfl
      · exact hr z h
      · exact ⟨hx1', by rw [← e1]; exact R.repr _⟩
    have hsr : s < (r.set i x1).length := by rw [List.length_set]; omega
    have hy0 := (hr1 (r.set i x1)[s] (List.getElem_mem hsr)).1
    obtain ⟨d, e2⟩ : ∃ z, fl (1 - x) = z := ⟨_, rfl⟩
    have hd0 : 0 ≤ d := by rw [← e2]; exact fnn _ (by linarith)
    obtain ⟨y1, e3⟩ : ∃ z, fl ((r.set i x1)[s] + d) = z := ⟨_, rfl⟩
    have hy1 : 0 ≤ y1 := by rw [← e3]; exact fnn _ (by linarith)
    have hr2 : ∀ z ∈ (r.set i x1).set s y1, 0 ≤ z ∧ Representable p z := by
      intro z hz
      rcases List.mem_or_eq_of_mem_set hz with h | rfl
      · exact hr1 z h
      · exact ⟨hy1, by rw [← e3]; exact R.repr _⟩
    have hp2 : ∃ z ∈ (r.set i x1).set s y1, 0 < z := by
      by_cases hx : x = 1
      · have p1 : 0 < x1 := by rw [← e1]; exact hpos _ (by linarith)
        by_cases his : i = s
        · refine ⟨y1, List.mem_set hsr _, ?_⟩
          rw [← e3]
          apply hpos
          have : (r.set i x1)[s] = x1 := by simp [his]
          rw [this]
          linarith
        · refine ⟨x1, ?_, p1⟩
          apply List.mem_of_getElem? (i := i)
          rw [List.getElem?_set_ne (fun h => his h.symm), List.getElem?_set_self hir]
      · have p1 : 0 < d := by rw [← e2]; exact hpos _ (by have := lt_of_le_of_ne hx1 hx; linarith)
        exact ⟨y1, List.mem_set hsr _, by rw [← e3]; exact hpos _ (by linarith)⟩
    obtain ⟨r', q1, q2⟩ := probLoop_round R hpos t (i + 1) ((r.set i x1).set s y1) (by simpa using hl) (by omega)
      (fun e he => ht e (by simp [he])) hr2 (fun _ => hp2)
    refine ⟨r', ?_, q2⟩
    simp only [probLoop, List.getElem?_eq_getElem hir, Option.bind_some, e1, List.getElem?_eq_getElem hsr, e2, e3]
    exact q1

theorem probabilitiesRound_spec {p : Nat} (hp : 1 ≤ p) {fl : ℚ → ℚ} (H : Nearest p fl) {t : List (ℚ × Nat)} (hne : t ≠ [])
    (ht : ∀ e ∈ t, 0 ≤ e.1 ∧ e.1 ≤ 1 ∧ e.2 < t.length) :
    ∃ q, probabilitiesRound fl t = some q ∧ q.length = t.length ∧ ∀ x ∈ q, 0 ≤ x ∧ x ≤ 1 := by
  have R := Nearest.rounding H
  have hpos : ∀ x, 0 < x → 0 < fl x := fun x hx => by
    have := Faure.nearest_rel hp H x
    rw [abs_of_pos hx, abs_le] at this
    have h2 : (2 : ℚ) ≤ 2 ^ p := by
      calc (2 : ℚ) = 2 ^ 1 := by norm_num
        _ ≤ 2 ^ p := pow_le_pow_right₀ (by norm_num) hp
    have h3 : x / 2 ^ p ≤ x / 2 := div_le_div_of_nonneg_left hx.le (by norm_num) h2
    linarith [this.2]
  obtain ⟨r, r1, r2, r3, z, hz, hz0⟩ := probLoop_round R hpos (n := t.length) t 0 (List.replicate t.length 0) (by simp) (by simp) ht
    (fun x hx => by rw [List.eq_of_mem_replicate hx]; exact ⟨le_rfl, Representable.zero p⟩) (fun h => absurd h hne)
  refine ⟨RealDist.normalizeRound fl r, by unfold probabilitiesRound; rw [r1]; rfl, by unfold RealDist.normalizeRound; rw [List.length_map, r2], fun x hx => ?_⟩
  unfold RealDist.normalizeRound at hx
  obtain ⟨y, hy, rfl⟩ := List.mem_map.1 hx
  have hS : ∀ x ∈ r, x ≤ r.foldl (fun s x => fl (s + x)) 0 := fun x hx =>
    (Hyperexponential.accumulate_mem R r 0 (fun x hx => (r3 x hx).1) (fun x hx => (r3 x hx).2) le_rfl (Representable.zero _)).2 x hx
  have hS0 : 0 < r.foldl (fun s x => fl (s + x)) 0 := lt_of_lt_of_le hz0 (hS z hz)
  have f0 : fl 0 = 0 := R.exact 0 (Representable.zero p)
  have f1 : fl 1 = 1 := R.exact 1 (Representable.one hp)
  constructor
  · exact f0.symm.le.trans (R.mono _ _ (div_nonneg (r3 y hy).1 hS0.le))
  · exact (R.mono _ _ ((div_le_one hS0).2 (hS y hy))).trans_eq f1

end Discrete
end Boost.Random
