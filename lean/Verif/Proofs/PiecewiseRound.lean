import Verif.Model.PiecewiseRound
import Verif.Proofs.DiscreteRound
import Verif.Proofs.Piecewise

/-!
# Tables of rounded weights are exact tables of weights nearby
-/

namespace Boost.Random
open Spec Finset
namespace RealDist
open Discrete

/-- The weights a table stands for. -/
def masses (n : Nat) (t : List (ℚ × Nat)) : List ℚ := (List.range n).map fun v => ∑ i ∈ range n, contrib (fun x : ℚ => x) (fun _ => 1) t i v

theorem masses_length (n : Nat) (t : List (ℚ × Nat)) : (masses n t).length = n := by unfold masses; simp

theorem masses_getD {n v : Nat} (t : List (ℚ × Nat)) (hv : v < n) : (masses n t).getD v 0 = ∑ i ∈ range n, contrib (fun x : ℚ => x) (fun _ => 1) t i v := by
  unfold masses
  rw [List.getD_eq_getElem?_getD, List.getElem?_map, List.getElem?_range hv]
  rfl

theorem masses_holds {n : Nat} (hn : 0 < n) {t : List (ℚ × Nat)} (hl : t.length = n)
    (hcol : ∀ i, i < n → ∃ x s, t[i]? = some (x, s) ∧ 0 ≤ x ∧ x ≤ 1 ∧ (s < n ∨ x = 1)) :
    HoldsReal (masses n t) t ∧ (masses n t).sum = n ∧ ∀ x ∈ masses n t, 0 ≤ x := by
  have hn0 : (n : ℚ) ≠ 0 := by exact_mod_cast hn.ne'
  have hone : ∀ i ∈ range n, ∑ v ∈ range n, contrib (fun x : ℚ => x) (fun _ => 1) t i v = 1 := by
    intro i hi
    obtain ⟨x, s, c1, c2, c3, c4⟩ := hcol i (mem_range.1 hi)
    have e : ∀ v, contrib (fun x : ℚ => x) (fun _ => 1) t i v = (if i = v then x else 0) + (if s = v then 1 - x else 0) := fun v => by
      unfold contrib; rw [c1]
    simp only [e]
    rw [sum_add_distrib, sum_ite_eq, if_pos hi, sum_ite_eq]
    rcases c4 with c | c
    · rw [if_pos (mem_range.2 c)]; ring
    · subst c
      split <;> ring
  have hsum : (masses n t).sum = n := by
    unfold masses
    rw [list_sum_range_rat, sum_comm, sum_congr rfl hone]
    simp
  refine ⟨⟨by rw [masses_length, hl], fun v => ?_, fun i hi => ?_⟩, hsum, fun x hx => ?_⟩
  · rw [masses_length, hsum, mul_div_assoc, div_self hn0, mul_one]
    by_cases hv : v < n
    · rw [masses_getD t hv]
    · rw [List.getD_eq_getElem?_getD, List.getElem?_eq_none (by rw [masses_length]; omega)]
      refine sum_eq_zero fun i hi => ?_
      obtain ⟨x, s, c1, c2, c3, c4⟩ := hcol i (mem_range.1 hi)
      have hi' := mem_range.1 hi
      unfold contrib
      simp only [c1]
      rw [if_neg (by omega), zero_add]
      rcases c4 with c | c
      · rw [if_neg (by omega)]
      · rw [c]; simp
  · rw [masses_length] at hi ⊢
    exact hcol i hi
  · obtain ⟨v, _, rfl⟩ := List.mem_map.1 hx
    refine sum_nonneg fun i hi => ?_
    obtain ⟨x, s, c1, c2, c3, _⟩ := hcol i (mem_range.1 hi)
    unfold contrib
    simp only [c1]
    split <;> split <;> linarith

/-- A rounded table, as an exact table of other weights. -/
structure Nearby (n : Nat) (c : ℚ) (ws ws' : List ℚ) : Prop where
  len : ws'.length = ws.length
  sum : ws'.sum = n
  nonneg : ∀ x ∈ ws', 0 ≤ x
  close : ∀ v, |ws'.getD v 0 / n - ws.getD v 0 / ws.sum| ≤ c
  zero : ∀ v, ws[v]? = some 0 → ws'.getD v 0 = 0

theorem round_nearby {p : Nat} {fl : ℚ → ℚ} (H : Nearest p fl) (old : List (ℚ × Nat)) (ws : List ℚ) (h0 : ∀ x ∈ ws, 0 ≤ x) (hs : 0 < ws.sum)
    (hn : (8 * ws.length + 10) * ws.length < 2 ^ p) :
    ∃ t ws', realInitRound fl old ws = some t ∧ HoldsReal ws' t ∧ Nearby ws.length ((8 * ws.length + 10) / 2 ^ p) ws ws' := by
  have hn0 : 0 < ws.length := List.length_pos_iff.2 (by rintro rfl; simp at hs)
  have hn1 : (0 : ℚ) < ws.length := by exact_mod_cast hn0
  have hn2 : 2 * (ws.length + 2) ≤ 2 ^ p := by nlinarith
  have hp : 1 ≤ p := by
    rcases Nat.eq_zero_or_pos p with rfl | h
    · simp at hn2; omega
    · exact h
  have hq : 2 * ((ws.length : ℚ) + 2) ≤ 2 ^ p := by exact_mod_cast hn2
  have hq2 : (8 * (ws.length : ℚ) + 10) * ws.length < 2 ^ p := by exact_mod_cast hn
  obtain ⟨t, h1, h2, h3, h4, h5⟩ := realInitRound_spec (rel_of_nearest hp H) old ws
    ((Nearest.rounding H).exact _ (Representable.natCast (by omega))) (by rw [mul_one_div, div_le_one (by positivity)]; exact hq) h0 hs
  obtain ⟨m1, m2, m3⟩ := masses_holds hn0 h2 h5
  have hm : ∀ v, v < ws.length → (masses ws.length t).getD v 0 = ((List.range ws.length).map fun i => contrib (fun x : ℚ => x) (fun _ => 1) t i v).sum :=
    fun v hv => by rw [masses_getD t hv, list_sum_range_rat]
  refine ⟨t, masses ws.length t, h1, m1, ⟨masses_length _ _, m2, m3, fun v => ?_, fun v hv => ?_⟩⟩
  · by_cases hv : v < ws.length
    · have a2 := h3 v
      rw [← hm v hv] at a2
      have : (masses ws.length t).getD v 0 / ws.length - ws.getD v 0 / ws.sum = ((masses ws.length t).getD v 0 - ws.getD v 0 * ws.length / ws.sum) / ws.length := by
        field_simp
      rw [this, abs_div, abs_of_pos hn1, div_le_iff₀ hn1]
      refine a2.trans (le_of_eq ?_)
      ring
    · rw [List.getD_eq_getElem?_getD, List.getElem?_eq_none (by rw [masses_length]; omega), List.getD_eq_getElem?_getD, List.getElem?_eq_none (by omega)]
      simp
      positivity
  · have hv' : v < ws.length := by
      rw [List.getElem?_eq_some_iff] at hv
      exact hv.1
    rw [hm v hv']
    rcases h4 v hv with h | h
    · exact h
    · exfalso
      have := h3 v
      rw [h, List.getD_eq_getElem?_getD, hv, Option.getD_some, zero_mul, zero_div, sub_zero, abs_one] at this
      have e : (8 * (ws.length : ℚ) + 10) * (1 / 2 ^ p) * ws.length = (8 * ws.length + 10) * ws.length / 2 ^ p := by ring
      rw [e, le_div_iff₀ (by positivity)] at this
      linarith

/-- Weights changed by a relative error. -/
theorem shares_close (f : ℚ → ℚ) {c : ℚ} (hc0 : 0 ≤ c) (hc : c ≤ 1 / 2) (ws : List ℚ) (h0 : ∀ x ∈ ws, 0 ≤ x) (hs : 0 < ws.sum)
    (h : ∀ x ∈ ws, |f x - x / ws.sum| ≤ c * (x / ws.sum)) :
    1 / 2 ≤ (ws.map f).sum ∧ ∀ v, |(ws.map f).getD v 0 / (ws.map f).sum - ws.getD v 0 / ws.sum| ≤ 4 * c := by
  have e : (ws.map fun x => x / ws.sum).sum = 1 := sum_normalize hs
  have hS := sum_map_close f (fun x => x / ws.sum) c ws h
  rw [e, mul_one, abs_le] at hS
  have hhalf : 1 / 2 ≤ (ws.map f).sum := by linarith [hS.1]
  refine ⟨hhalf, fun v => ?_⟩
  have hpos : 0 < (ws.map f).sum := by linarith
  rw [List.getD_eq_getElem?_getD, List.getElem?_map, List.getD_eq_getElem?_getD]
  cases hv : ws[v]? with
  | none => simp; exact hc0
  | some x =>
    have hx := List.mem_of_getElem? hv
    have hq0 : 0 ≤ x / ws.sum := div_nonneg (h0 x hx) hs.le
    have hq1 : x / ws.sum ≤ 1 := by rw [div_le_one hs]; exact le_sum_of_mem h0 x hx
    have hx1 := h x hx
    simp only [Option.map_some, Option.getD_some]
    obtain ⟨q, hq⟩ : ∃ q, x / ws.sum = q := ⟨_, rfl⟩
    rw [hq] at hq0 hq1 hx1 ⊢
    rw [abs_le] at hx1
    have h1 : c * q ≤ c * 1 := mul_le_mul_of_nonneg_left hq1 hc0
    obtain ⟨S, hSe⟩ : ∃ S, (ws.map f).sum = S := ⟨_, rfl⟩
    rw [hSe] at hS hhalf hpos ⊢
    have h2 : q * (S - 1) ≤ c := by nlinarith [hS.1, hS.2]
    have h3 : -c ≤ q * (S - 1) := by nlinarith [hS.1, hS.2]
    have h4 : c * (1 / 2) ≤ c * S := mul_le_mul_of_nonneg_left hhalf hc0
    rw [abs_le, le_sub_iff_add_le, sub_le_iff_le_add, le_div_iff₀ hpos, div_le_iff₀ hpos]
    constructor <;> nlinarith [hx1.1, hx1.2]

/-- The table of normalized weights. -/
theorem bins_nearby {p : Nat} {fl : ℚ → ℚ} (H : Nearest p fl) (old : List (ℚ × Nat)) (ws : List ℚ) (h0 : ∀ x ∈ ws, 0 ≤ x) (hs : 0 < ws.sum)
    (hn : (8 * ws.length + 10) * ws.length < 2 ^ p) :
    ∃ t ws', binsRound fl old ws = some t ∧ HoldsReal ws' t ∧ Nearby ws.length ((16 * ws.length + 18) / 2 ^ p) ws ws' := by
  have hn0 : 0 < ws.length := List.length_pos_iff.2 (by rintro rfl; simp at hs)
  have hn1 : (1 : ℚ) ≤ ws.length := by exact_mod_cast hn0
  have hp : 1 ≤ p := by
    rcases Nat.eq_zero_or_pos p with rfl | h
    · rw [pow_zero] at hn; nlinarith
    · exact h
  have hq2 : (8 * (ws.length : ℚ) + 10) * ws.length < 2 ^ p := by exact_mod_cast hn
  obtain ⟨u, hu⟩ : ∃ u : ℚ, 1 / 2 ^ p = u := ⟨_, rfl⟩
  have R := rel_of_nearest hp H
  rw [hu] at R
  have hup := R.pos
  have huu : (8 * (ws.length : ℚ) + 10) * ws.length * u < 1 := by
    rw [← hu, mul_one_div, div_lt_one (by positivity)]; exact hq2
  have hnu : 2 * (ws.length + 1) * u ≤ 1 / 2 := by nlinarith
  have hu1 : u ≤ 1 / 4 := by nlinarith
  obtain ⟨s0, s1⟩ := sum_close R (by linarith) ws 0 0 0 h0 (le_refl _) (by unfold Close; simp)
  rw [zero_add, zero_add] at s1
  obtain ⟨S, hS⟩ : ∃ S, ws.foldl (fun s x => fl (s + x)) 0 = S := ⟨_, rfl⟩
  rw [hS] at s0 s1
  have hSpos : 0 < S := by
    refine lt_of_lt_of_le ?_ s1.1
    have : 0 < 1 - u := by linarith
    positivity
  have hf : ∀ x ∈ ws, 0 ≤ fl (x / S) ∧ |fl (x / S) - x / ws.sum| ≤ 2 * ((ws.length + 1) * u) * (x / ws.sum) := by
    intro x hx
    have hx0 := h0 x hx
    have v0 : 0 ≤ fl (x / S) := by
      have := R.mono 0 (x / S) (by positivity)
      rwa [R.zero] at this
    refine ⟨v0, ?_⟩
    have c1 : Close u (ws.length + 1) (x / ws.sum) (fl (x / S)) := (s1.div hs hSpos hx0).trans (by linarith) (Close.round R (by linarith) (by positivity))
    have := c1.bound hup (by push_cast; linarith) (by linarith) (by positivity) v0
    push_cast at this
    exact this
  have hnorm : normalizeRound fl ws = ws.map fun x => fl (x / S) := by unfold normalizeRound; rw [hS]
  obtain ⟨g1, g2⟩ := shares_close (fun x => fl (x / S)) (c := 2 * ((ws.length + 1) * u)) (by positivity) (by linarith) ws h0 hs (fun x hx => (hf x hx).2)
  have hl : (ws.map fun x => fl (x / S)).length = ws.length := List.length_map _
  obtain ⟨t, ws', t1, t2, t3⟩ := round_nearby H old (ws.map fun x => fl (x / S))
    (fun y hy => by obtain ⟨x, hx, rfl⟩ := List.mem_map.1 hy; exact (hf x hx).1) (by linarith) (by rw [hl]; exact hn)
  rw [hl] at t3
  refine ⟨t, ws', by unfold binsRound; rw [hnorm]; exact t1, t2, ⟨t3.len.trans hl, t3.sum, t3.nonneg, fun v => ?_, fun v hv => ?_⟩⟩
  · have a1 := t3.close v
    have a2 := g2 v
    have a3 := abs_sub_le (ws'.getD v 0 / ws.length) ((ws.map fun x => fl (x / S)).getD v 0 / (ws.map fun x => fl (x / S)).sum) (ws.getD v 0 / ws.sum)
    have e : (16 * (ws.length : ℚ) + 18) / 2 ^ p = (8 * ws.length + 10) / 2 ^ p + 4 * (2 * ((ws.length + 1) * u)) := by rw [← hu]; ring
    rw [e]
    linarith
  · refine t3.zero v ?_
    rw [List.getElem?_map, hv, Option.map_some, zero_div, R.zero]

end RealDist
end Boost.Random
