import Verif.Proofs.DiscreteRound

/-!
# C166: `discrete_distribution` with real weights in floating-point arithmetic
-/

namespace Boost.Random
open Spec Finset Discrete

/-- C166, the table: whatever was held before, in any arithmetic that rounds to nearest with `p` digits, building a table from non-negative
weights with a positive sum never leaves it, and for a column and a test value in `[0, 1)` it gives the number of a weight, also if rounding
leaves columns on either side unpaired. If the test values are the multiples of `1/M`, the share of the pairs that give `v` differs from
`weight(v)/sum` by at most `(8n + 10)/2^p + 1/M`. -/
theorem c166_share {p : Nat} {fl : ℚ → ℚ} (H : Nearest p fl) (old : List (ℚ × Nat)) (ws : List ℚ) (h0 : ∀ x ∈ ws, 0 ≤ x) (hs : 0 < ws.sum)
    (hn : 2 * (ws.length + 2) ≤ 2 ^ p) :
    ∃ t, realInitRound fl old ws = some t ∧ t.length = ws.length ∧
      (∀ i test, i < ws.length → 0 ≤ test → test < 1 → ∃ v, realPick t i test = some v ∧ v < ws.length) ∧
      ∀ M : Nat, 0 < M → ∀ v,
        |(((range ws.length ×ˢ range M).filter fun q => realPick t q.1 ((q.2 : ℚ) / M) = some v).card : ℚ) / (ws.length * M) - ws.getD v 0 / ws.sum| ≤
          (8 * ws.length + 10) / 2 ^ p + 1 / M := by
  have hp : 1 ≤ p := by
    rcases Nat.eq_zero_or_pos p with rfl | h
    · simp at hn; omega
    · exact h
  have hn0 : 0 < ws.length := List.length_pos_iff.2 (by rintro rfl; simp at hs)
  have hn1 : (0 : ℚ) < ws.length := by exact_mod_cast hn0
  have hq : 2 * ((ws.length : ℚ) + 2) ≤ 2 ^ p := by exact_mod_cast hn
  obtain ⟨t, h1, h2, h3, _, h5⟩ := realInitRound_spec (rel_of_nearest hp H) old ws
    ((Nearest.rounding H).exact _ (Representable.natCast (by omega))) (by rw [mul_one_div, div_le_one (by positivity)]; exact hq) h0 hs
  refine ⟨t, h1, h2, fun i test hi ht0 ht1 => ?_, fun M hM v => ?_⟩
  · obtain ⟨x, s, c1, c2, c3, c4⟩ := h5 i hi
    refine ⟨if test < x then i else s, by simp only [realPick, c1, Option.map_some], ?_⟩
    split
    · exact hi
    · rcases c4 with c | c
      · exact c
      · linarith
  · have hM0 : (0 : ℚ) < M := by exact_mod_cast hM
    have a1 := pick_share h5 hM v
    have a2 := h3 v
    obtain ⟨m, hm⟩ : ∃ m, ((List.range ws.length).map fun i => contrib (fun x : ℚ => x) (fun _ => 1) t i v).sum = m := ⟨_, rfl⟩
    obtain ⟨c, hc⟩ : ∃ c : ℚ, (((range ws.length ×ˢ range M).filter fun q => realPick t q.1 ((q.2 : ℚ) / M) = some v).card : ℚ) = c := ⟨_, rfl⟩
    rw [hm] at a1 a2
    rw [hc] at a1 ⊢
    have b1 : |c / (ws.length * M) - m / ws.length| ≤ 1 / M := by
      have : c / (ws.length * M) - m / ws.length = (c - m * M) / (ws.length * M) := by field_simp
      rw [this, abs_div, abs_of_pos (by positivity : (0 : ℚ) < ws.length * M), div_le_div_iff₀ (by positivity) hM0]
      nlinarith
    have b2 : |m / ws.length - ws.getD v 0 / ws.sum| ≤ (8 * ws.length + 10) / 2 ^ p := by
      have : m / ws.length - ws.getD v 0 / ws.sum = (m - ws.getD v 0 * ws.length / ws.sum) / ws.length := by field_simp
      rw [this, abs_div, abs_of_pos hn1, div_le_iff₀ hn1]
      refine a2.trans (le_of_eq ?_)
      ring
    have := abs_sub_le (c / (ws.length * M)) (m / ws.length) (ws.getD v 0 / ws.sum)
    linarith

#guard realInitRound (rn 3) [] [1, 1, 1] = some [(1, 0), (1, 0), (1, 0)]
#guard realInitRound (rn 3) [] [1, 2, 4] = some [(3/8, 2), (1, 0), (1, 0)]
#guard realInitRound (rn 53) [(1, 9)] [5/2, 1, 1/3] ≠ realInit [(1, 9)] [5/2, 1, 1/3]

/-- C166, weights of zero: if `(8n + 10)·n < 2^p` (for `double`: up to 33 million weights), rounding never makes a value of weight zero appear, for any
column and any test value. -/
theorem c166_zero {p : Nat} {fl : ℚ → ℚ} (H : Nearest p fl) (old : List (ℚ × Nat)) (ws : List ℚ) (h0 : ∀ x ∈ ws, 0 ≤ x) (hs : 0 < ws.sum)
    (hn : (8 * ws.length + 10) * ws.length < 2 ^ p) (t : List (ℚ × Nat)) (ht : realInitRound fl old ws = some t) (v : Nat) (hv : ws[v]? = some 0)
    (i : Nat) (test : ℚ) (hi : i < ws.length) (ht0 : 0 ≤ test) (ht1 : test < 1) : realPick t i test ≠ some v := by
  have hn0 : 0 < ws.length := List.length_pos_iff.2 (by rintro rfl; simp at hs)
  have hn2 : 2 * (ws.length + 2) ≤ 2 ^ p := by nlinarith
  have hp : 1 ≤ p := by
    rcases Nat.eq_zero_or_pos p with rfl | h
    · simp at hn2; omega
    · exact h
  have hq : 2 * ((ws.length : ℚ) + 2) ≤ 2 ^ p := by exact_mod_cast hn2
  have hq2 : (8 * (ws.length : ℚ) + 10) * ws.length < 2 ^ p := by exact_mod_cast hn
  obtain ⟨t', h1, _, h3, h4, h5⟩ := realInitRound_spec (rel_of_nearest hp H) old ws
    ((Nearest.rounding H).exact _ (Representable.natCast (by omega))) (by rw [mul_one_div, div_le_one (by positivity)]; exact hq) h0 hs
  rw [ht] at h1
  obtain rfl := Option.some.inj h1
  have hz : ((List.range ws.length).map fun i => contrib (fun x : ℚ => x) (fun _ => 1) t i v).sum = 0 := by
    rcases h4 v hv with h | h
    · exact h
    · exfalso
      have := h3 v
      rw [h, List.getD_eq_getElem?_getD, hv, Option.getD_some, zero_mul, zero_div, sub_zero, abs_one] at this
      have e : (8 * (ws.length : ℚ) + 10) * (1 / 2 ^ p) * ws.length = (8 * ws.length + 10) * ws.length / 2 ^ p := by ring
      rw [e, le_div_iff₀ (by positivity)] at this
      linarith
  rw [list_sum_range_rat, sum_eq_zero_iff_of_nonneg] at hz
  · have hzi := hz i (mem_range.2 hi)
    obtain ⟨x, s, c1, c2, c3, _⟩ := h5 i hi
    intro hpick
    simp only [realPick, c1, Option.map_some, Option.some.injEq] at hpick
    unfold contrib at hzi
    simp only [c1] at hzi
    by_cases hlt : test < x
    · rw [if_pos hlt] at hpick
      rw [if_pos hpick] at hzi
      split at hzi <;> linarith
    · rw [if_neg hlt] at hpick
      rw [if_pos hpick] at hzi
      split at hzi <;> linarith
  · intro j hj
    obtain ⟨x, s, c1, c2, c3, _⟩ := h5 j (mem_range.1 hj)
    unfold contrib
    simp only [c1]
    split <;> split <;> linarith

#guard realInitRound (rn 53) [] [1/3, 0, 1/7, 0, 5] ≠ none
example : (8 * [(1 : ℚ)/3, 0, 1/7, 0, 5].length + 10) * [(1 : ℚ)/3, 0, 1/7, 0, 5].length < 2 ^ 53 := by norm_num

/-- C166, the weighted die of the examples: in `double` arithmetic, rounding to nearest in any way, every roll is a number from 1 to 6; 1 comes up
with the share 1/2 and every other face with the share 1/10, up to `59/2^53 + 1/M` (`M` is `2^32` with `mt19937`). -/
theorem c166_die {fl : ℚ → ℚ} (H : Nearest 53 fl) (old : List (ℚ × Nat)) :
    ∃ t, realInitRound fl old (weightedDie fl) = some t ∧
      (∀ i test, i < 6 → 0 ≤ test → test < 1 → ∃ v, rollWeighted t i test = some v ∧ 1 ≤ v ∧ v ≤ 6) ∧
      ∀ M : Nat, 0 < M → ∀ v, 1 ≤ v → v ≤ 6 →
        |(((range 6 ×ˢ range M).filter fun q => rollWeighted t q.1 ((q.2 : ℚ) / M) = some v).card : ℚ) / (6 * M) - (if v = 1 then 1 / 2 else 1 / 10)| ≤
          59 / 2 ^ 53 + 1 / M := by
  have R := rel_of_nearest (by norm_num) H
  have hf := R.rel (1 / 10)
  have hh : fl (1 / 2) = 1 / 2 := (Nearest.rounding H).exact _ (by simpa using Representable.inv_two_pow (digits := 53) (by norm_num) 1)
  obtain ⟨f, hfe⟩ : ∃ f, fl (1 / 10) = f := ⟨_, rfl⟩
  have hw : weightedDie fl = [1 / 2, f, f, f, f, f] := by unfold weightedDie; rw [hh, hfe]
  rw [hfe, abs_of_pos (by norm_num : (0 : ℚ) < 1 / 10), abs_le] at hf
  obtain ⟨f1, f2⟩ := hf
  have hf9 : 9 / 100 ≤ f := by linarith
  have hsum : [1 / 2, f, f, f, f, f].sum = 1 / 2 + 5 * f := by simp only [List.sum_cons, List.sum_nil]; ring
  obtain ⟨t, h1, _, h3, h4⟩ := c166_share H old [1 / 2, f, f, f, f, f] (by
      intro x hx
      simp only [List.mem_cons, List.not_mem_nil, or_false] at hx
      rcases hx with rfl | rfl | rfl | rfl | rfl | rfl <;> linarith) (by rw [hsum]; linarith) (by norm_num)
  rw [← hw] at h1
  refine ⟨t, h1, fun i test hi ht0 ht1 => ?_, fun M hM v hv1 hv6 => ?_⟩
  · obtain ⟨v, e1, e2⟩ := h3 i test hi ht0 ht1
    refine ⟨v + 1, by unfold rollWeighted; rw [e1]; rfl, by omega, ?_⟩
    simp only [List.length_cons, List.length_nil] at e2
    omega
  · have a := h4 M hM (v - 1)
    rw [hsum] at a
    simp only [List.length_cons, List.length_nil, Nat.reduceAdd, zero_add, Nat.cast_ofNat] at a
    have e : ∀ q : Nat × Nat, rollWeighted t q.1 ((q.2 : ℚ) / M) = some v ↔ realPick t q.1 ((q.2 : ℚ) / M) = some (v - 1) := by
      intro q
      unfold rollWeighted
      cases realPick t q.1 ((q.2 : ℚ) / M) with
      | none => simp
      | some y => simp only [Option.map_some, Option.some.injEq]; omega
    simp only [e]
    obtain ⟨c, hc⟩ : ∃ c : ℚ, (((range 6 ×ˢ range M).filter fun q => realPick t q.1 ((q.2 : ℚ) / M) = some (v - 1)).card : ℚ) / (6 * M) = c := ⟨_, rfl⟩
    rw [hc] at a ⊢
    have hd : 0 < 1 / 2 + 5 * f := by linarith
    have b : |[1 / 2, f, f, f, f, f].getD (v - 1) 0 / (1 / 2 + 5 * f) - (if v = 1 then 1 / 2 else 1 / 10)| ≤ 1 / 2 ^ 53 := by
      have hv : v = 1 ∨ v = 2 ∨ v = 3 ∨ v = 4 ∨ v = 5 ∨ v = 6 := by omega
      rcases hv with rfl | rfl | rfl | rfl | rfl | rfl
      · simp only [Nat.sub_self, List.getD_cons_zero, if_true]
        rw [abs_le, le_sub_iff_add_le, sub_le_iff_le_add, le_div_iff₀ hd, div_le_iff₀ hd]
        constructor <;> linarith
      all_goals
        simp only [List.getD_cons_succ, List.getD_cons_zero, Nat.reduceSub, Nat.reduceEqDiff, if_false]
        rw [abs_le, le_sub_iff_add_le, sub_le_iff_le_add, le_div_iff₀ hd, div_le_iff₀ hd]
        constructor <;> linarith
    have hb := abs_sub_le c ([1 / 2, f, f, f, f, f].getD (v - 1) 0 / (1 / 2 + 5 * f)) (if v = 1 then 1 / 2 else 1 / 10)
    linarith

#guard realInitRound (rn 53) [] (weightedDie (rn 53)) =
  some ((1, 0) :: List.replicate 5 (1351079888211149 / 2251799813685248, 0))

end Boost.Random
