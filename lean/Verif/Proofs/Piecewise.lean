import Verif.Proofs.RealDist

/-!
# `piecewise_constant_distribution`
-/

namespace Boost.Random
open Spec Finset
namespace RealDist
open Discrete

/-- A table holds the weights `ws`. -/
structure HoldsReal (ws : List ℚ) (t : List (ℚ × Nat)) : Prop where
  len : t.length = ws.length
  mass : ∀ v, ∑ i ∈ range ws.length, contrib (fun x : ℚ => x) (fun _ => 1) t i v = ws.getD v 0 * ws.length / ws.sum
  col : ∀ i, i < ws.length → ∃ x s, t[i]? = some (x, s) ∧ 0 ≤ x ∧ x ≤ 1 ∧ (s < ws.length ∨ x = 1)

theorem realInit_holds (old : List (ℚ × Nat)) (ws : List ℚ) (h0 : ∀ x ∈ ws, 0 ≤ x) (hs : 0 < ws.sum) :
    ∃ t, realInit old ws = some t ∧ HoldsReal ws t := by
  obtain ⟨t, h1, h2, h3, h4⟩ := realInit_spec old ws h0 hs
  exact ⟨t, h1, h2, h3, h4⟩

theorem sum_normalize {ws : List ℚ} (hs : 0 < ws.sum) : (realNormalize ws).sum = 1 := by
  unfold realNormalize
  rw [sum_map_div, div_self hs.ne']

theorem binsParam_holds (old : List (ℚ × Nat)) (ws : List ℚ) (h0 : ∀ x ∈ ws, 0 ≤ x) (hs : 0 < ws.sum) :
    ∃ t, binsParam old ws = some t ∧ HoldsReal ws t := by
  obtain ⟨t, h1, h2, h3, h4⟩ := realInit_spec old (realNormalize ws)
    (fun x hx => by
      obtain ⟨y, hy, rfl⟩ := List.mem_map.1 hx
      exact div_nonneg (h0 y hy) hs.le)
    (by rw [sum_normalize hs]; exact one_pos)
  have hl : (realNormalize ws).length = ws.length := by unfold realNormalize; simp
  rw [hl] at h2 h3 h4
  refine ⟨t, h1, h2, fun v => ?_, h4⟩
  rw [h3 v, sum_normalize hs, div_one]
  unfold realNormalize
  rw [List.getD_eq_getElem?_getD, List.getElem?_map, List.getD_eq_getElem?_getD]
  cases ws[v]? with
  | none => simp
  | some x =>
    simp only [Option.map_some, Option.getD_some]
    rw [div_mul_eq_mul_div]

theorem HoldsReal.pick {ws : List ℚ} {t : List (ℚ × Nat)} (H : HoldsReal ws t) {i : Nat} (hi : i < ws.length) {test : ℚ} (h0 : 0 ≤ test) (h1 : test < 1) :
    ∃ j, realPick t i test = some j ∧ j < ws.length ∧ ws.getD j 0 ≠ 0 := by
  obtain ⟨x, s, c1, c2, c3, c4⟩ := H.col i hi
  have hnn : ∀ k v, k ∈ range ws.length → 0 ≤ contrib (fun x : ℚ => x) (fun _ => 1) t k v := by
    intro k v hk
    obtain ⟨x, s, d1, d2, d3, _⟩ := H.col k (mem_range.1 hk)
    exact contrib_nonneg (φ := fun x : ℚ => x) (g := fun _ => 1) (ok := fun x => 0 ≤ x) (fun x h => h) t k v ⟨x, s, d1, d2, d3⟩
  have hpos : ∀ v, 0 < contrib (fun x : ℚ => x) (fun _ => 1) t i v → ws.getD v 0 ≠ 0 := by
    intro v hv h
    have hm := H.mass v
    rw [h, zero_mul, zero_div, sum_eq_zero_iff_of_nonneg fun k hk => hnn k v hk] at hm
    exact hv.ne' (hm i (mem_range.2 hi))
  unfold realPick
  rw [c1]
  simp only [Option.map_some]
  by_cases ht : test < x
  · rw [if_pos ht]
    refine ⟨i, rfl, hi, hpos i ?_⟩
    unfold contrib
    rw [c1]
    simp only [if_true]
    split <;> linarith
  · rw [if_neg ht]
    push Not at ht
    have hs : s < ws.length := by
      rcases c4 with c | c
      · exact c
      · linarith
    refine ⟨s, rfl, hs, hpos s ?_⟩
    unfold contrib
    rw [c1]
    simp only [if_true]
    split <;> linarith

/-- What sampling needs. -/
structure PcInv (digits : Nat) (ws : List ℚ) (d : Pc) : Prop where
  holds : HoldsReal ws d.bins
  len : d.intervals.length = ws.length + 1
  pos : 0 < ws.length
  size : ws.length ≤ 2 ^ 64
  sorted : d.intervals.Pairwise (· < ·)
  repr : ∀ x ∈ d.intervals, Representable digits x

theorem next_range {digits : Nat} {fl : ℚ → ℚ} (H : Rounding digits fl) {E : EngInfo} (hE : EngOK E) (hD : DiffOK E) {ws : List ℚ} {d : Pc}
    (I : PcInv digits ws d) (xs : List Int) (hO : Outputs E xs) : d.next fl E xs ≠ .ub ∧
      ∀ v rest, d.next fl E xs = .done v rest → rest <:+ xs ∧
        ∃ i a b, d.intervals[i]? = some a ∧ d.intervals[i + 1]? = some b ∧ ws.getD i 0 ≠ 0 ∧ a ≤ v ∧ v < b := by
  have hlen := I.holds.len
  have hpos := I.pos
  have hP : ParamOK ⟨64, false⟩ 0 ((d.bins.length : Int) - 1) := by
    refine ⟨by decide, by decide, ?_, by omega⟩
    have := I.size
    show (0 : Int) ≤ _ ∧ _ < (2 : Int) ^ 64
    have : (d.bins.length : Int) ≤ 2 ^ 64 := by rw [hlen]; exact_mod_cast this
    omega
  unfold Pc.next
  rw [UniformInt.generate_zero hE hP xs hO]
  cases hK : UniformInt.K E.b (dig E) (((d.bins.length : Int) - 1).toNat + 1) xs with
  | more => exact ⟨by rintro ⟨⟩, by rintro _ _ ⟨⟩⟩
  | ub =>
    exact absurd hK (UniformInt.core_rest (UniformInt.EngInfo.b_ge hE) _ _ xs (UniformInt.outputs_dig hE hO) (by omega)).2
  | done i r1 =>
    obtain ⟨k1, k2⟩ := UniformInt.K_done_lt hE (by omega) hO hK
    have hi : i < ws.length := by omega
    have hO1 : Outputs E r1 := fun z hz => hO z (k2.subset hz)
    simp only [Draw.map, Draw.bind, Int.toNat_natCast]
    obtain ⟨u1, u2⟩ := uniform01_range H hE hD r1 hO1
    cases hu : uniform01 fl E r1 with
    | more => exact ⟨by rintro ⟨⟩, by rintro _ _ ⟨⟩⟩
    | ub => exact absurd hu u1
    | done t r2 =>
      obtain ⟨t0, t1, _, t2⟩ := u2 t r2 hu
      obtain ⟨j, p1, p2, p3⟩ := I.holds.pick hi t0 t1
      have hO2 : Outputs E r2 := fun z hz => hO1 z (t2.subset hz)
      have hj1 : j < d.intervals.length := by have := I.len; omega
      have hj2 : j + 1 < d.intervals.length := by have := I.len; omega
      simp only
      rw [p1]
      simp only
      rw [List.getElem?_eq_getElem hj1, List.getElem?_eq_getElem hj2]
      simp only
      have hlt : d.intervals[j] < d.intervals[j + 1] := List.pairwise_iff_getElem.1 I.sorted j (j + 1) hj1 hj2 (by omega)
      obtain ⟨r1', r2'⟩ := uniformReal_range H hE hlt.le (I.repr _ (List.getElem_mem hj1)) r2 hO2
      refine ⟨r1', fun v rest h => ?_⟩
      obtain ⟨a, b, _, c⟩ := r2' v rest h
      exact ⟨c.trans (t2.trans k2), j, _, _, List.getElem?_eq_getElem hj1, List.getElem?_eq_getElem hj2, p3, a, b⟩

theorem interval_bounds {l : List ℚ} (hs : l.Pairwise (· < ·)) {i : Nat} {a b v : ℚ} (ha : l[i]? = some a) (hb : l[i + 1]? = some b) (h1 : a ≤ v) (h2 : v < b) :
    ∃ x y, l.head? = some x ∧ l.getLast? = some y ∧ x ≤ v ∧ v < y := by
  obtain ⟨hi, rfl⟩ := List.getElem?_eq_some_iff.1 ha
  obtain ⟨hi', rfl⟩ := List.getElem?_eq_some_iff.1 hb
  have mono : ∀ (j k : Nat) (hj : j < l.length) (hk : k < l.length), j ≤ k → l[j] ≤ l[k] := by
    intro j k hj hk hjk
    rcases Nat.lt_or_eq_of_le hjk with h | h
    · exact (List.pairwise_iff_getElem.1 hs j k hj hk h).le
    · subst h; exact le_refl _
  refine ⟨l[0]'(by omega), l[l.length - 1]'(by omega), ?_, ?_, le_trans (mono 0 i (by omega) hi (by omega)) h1, lt_of_lt_of_le h2 (mono (i + 1) (l.length - 1) hi' (by omega) (by omega))⟩
  · rw [List.head?_eq_getElem?, List.getElem?_eq_getElem]
  · rw [List.getLast?_eq_getElem?, List.getElem?_eq_getElem]

/-! ## The grid -/

theorem gridBounds_length (n : Nat) (xmin xmax : ℚ) : (gridBounds n xmin xmax).length = n + 1 := by unfold gridBounds; simp

theorem gridPoints_length (n : Nat) (xmin xmax : ℚ) : (gridPoints n xmin xmax).length = n := by unfold gridPoints; simp

theorem gridBounds_sorted {n : Nat} (hn : 0 < n) {xmin xmax : ℚ} (h : xmin < xmax) : (gridBounds n xmin xmax).Pairwise (· < ·) := by
  have hq : (0 : ℚ) < n := by exact_mod_cast hn
  have hd : 0 < (xmax - xmin) / n := div_pos (by linarith) hq
  unfold gridBounds
  rw [List.pairwise_append]
  refine ⟨?_, List.pairwise_singleton _ _, ?_⟩
  · rw [List.pairwise_map]
    refine List.Pairwise.imp ?_ (List.pairwise_lt_range (n := n))
    intro a b hab
    have : (a : ℚ) < b := by exact_mod_cast hab
    have := mul_lt_mul_of_pos_right this hd
    linarith
  · intro a ha b hb
    obtain ⟨k, hk, rfl⟩ := List.mem_map.1 ha
    rw [List.mem_singleton.1 hb]
    have hk' : (k : ℚ) < n := by exact_mod_cast List.mem_range.1 hk
    have h3 := mul_lt_mul_of_pos_right hk' hd
    rw [mul_div_cancel₀ _ hq.ne'] at h3
    linarith

theorem midpoints_length : ∀ l : List ℚ, (midpoints l).length = l.length - 1
  | [] => rfl
  | [_] => rfl
  | a :: b :: l => by
    unfold midpoints
    rw [List.length_cons, midpoints_length (b :: l)]
    simp

end RealDist
end Boost.Random
