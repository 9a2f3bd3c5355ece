import Verif.Proofs.Hyperexponential
import Verif.Proofs.MixtureFloat
import Verif.Proofs.Normalize

/-!
# Properties C103 to C108: mixtures
-/

namespace Boost.Random
open Spec RealDist MeasureTheory
open scoped ENNReal

/-! ## C103: the law of `piecewise_constant_distribution` -/

/-- The values follow the mixture of the uniform distributions on the intervals. -/
def PcLaw (intervals weights : List ℚ) (d : Pc) : Prop :=
  ∀ (k : Nat) (t : ℝ), chance (k + 3) (fun l => Spec.Run.Le (d.sample idealMixed l) t) = stepMeasure intervals weights (Set.Iic t)

/-- C103: with an engine, `Pc.sample` is `operator()` as modelled for C52. -/
theorem c103_same (o : RealOps ℚ) (E : EngInfo) (n : Nat) (d : Pc) (xs : List Int) :
    (d.next o.fl E xs).run = d.sample (engineMixed o E ⟨64, false⟩ n) xs := pc_sample_eq o E n d xs

/-- C103: on independent uniform numbers, in exact arithmetic, every constructor and `param(parm)` give the mixture of the uniform distributions on
the intervals, with the given weights. -/
theorem c103_law (ivs ws extra : List ℚ) (hl : ivs.length = ws.length + 1) (h0 : ∀ x ∈ ws, 0 ≤ x) (hs : 0 < ws.sum) (hp : ivs.Pairwise (· < ·)) :
    (∃ d, Pc.ofIters ivs (ws ++ extra) = some d ∧ PcLaw ivs ws d) ∧ (∃ d, Pc.ofRanges ivs ws = some d ∧ PcLaw ivs ws d) ∧
      (∃ d, Pc.ofParam ⟨ivs, ws⟩ = some d ∧ PcLaw ivs ws d) ∧ ∀ old : Pc, ∃ d, old.setParam ⟨ivs, ws⟩ = some d ∧ PcLaw ivs ws d := by
  have hn : 0 < ws.length := by
    rcases ws with _ | ⟨a, l⟩
    · exact absurd hs (by simp)
    · simp
  have L : ∀ t, HoldsReal ws t → PcLaw ivs ws ⟨t, ivs⟩ := fun t ht k x => pc_law k (d := ⟨t, ivs⟩) hl hp ht hs x
  obtain ⟨t, h1, h2⟩ := binsParam_holds [(1, 0)] ws h0 hs
  obtain ⟨t', h1', h2'⟩ := realInit_holds [] ws h0 hs
  refine ⟨⟨⟨t, ivs⟩, ?_, L t h2⟩, ⟨⟨t', ivs⟩, ?_, L t' h2'⟩, ⟨⟨t', ivs⟩, ?_, L t' h2'⟩, fun old => ?_⟩
  · unfold Pc.ofIters
    rw [if_neg (by omega), if_pos (by rw [List.length_append]; omega), show ivs.length - 1 = ws.length by omega, List.take_left, h1]
    rfl
  · unfold Pc.ofRanges
    rw [if_neg (by omega), h1']
    rfl
  · unfold Pc.ofParam
    rw [h1']
    rfl
  · obtain ⟨t, h1, h2⟩ := binsParam_holds old.bins ws h0 hs
    exact ⟨⟨t, ivs⟩, by unfold Pc.setParam; rw [h1]; rfl, L t h2⟩

/-- Three intervals, the middle one without a weight: the first has probability 1/4. -/
example : stepMeasure [0, 1, 3, 4] [1, 0, 3] (Set.Iic 2) = ENNReal.ofReal (1 / 4) := by
  unfold stepMeasure
  rw [Measure.sum_apply _ measurableSet_Iic, tsum_eq_sum (s := Finset.range 3)]
  · simp only [Finset.sum_range_succ, Finset.sum_range_zero, Measure.smul_apply, smul_eq_mul]
    norm_num [List.getD_eq_getElem?_getD]
    rw [cond_Ico (by norm_num), cond_Ico (by norm_num)]
    norm_num [part, clamp]
  · intro i hi
    rw [Finset.mem_range, not_lt] at hi
    rw [List.getD_eq_getElem?_getD (l := [1, 0, 3]), List.getElem?_eq_none (by simpa using hi)]
    simp

example : ∃ d, Pc.ofRanges [0, 1, 3, 4] [1, 0, 3] = some d ∧ PcLaw [0, 1, 3, 4] [1, 0, 3] d :=
  (c103_law [0, 1, 3, 4] [1, 0, 3] [] rfl (by simp) (by norm_num) (by norm_num)).2.1

/-! ## C104: the law of `piecewise_linear_distribution` -/

/-- The requirements on boundaries and weights. -/
structure PlValid (intervals weights : List ℚ) : Prop where
  len : intervals.length = weights.length
  two : 2 ≤ intervals.length
  nonneg : ∀ x ∈ weights, 0 ≤ x
  pos : ∃ x ∈ weights, 0 < x
  sorted : intervals.Pairwise (· < ·)

/-- The values have a density proportional to the polygon through the given points. -/
def PlLaw (intervals weights : List ℚ) (d : Pl) : Prop :=
  ∀ (k : Nat) (t : ℝ), chance (k + 4) (fun l => Spec.Run.Le (d.next idealMixed l) t) =
    polygonMeasure intervals weights (Set.Iic t) / polygonMeasure intervals weights Set.univ

theorem PlValid.init {fl : ℚ → ℚ} (h0 : ∀ x, 0 ≤ x → 0 ≤ fl x) (hpos : ∀ x, 0 < x → 0 < fl x) (hne : ∀ x, x ≠ 0 → fl x ≠ 0) {ivs ws : List ℚ}
    (V : PlValid ivs ws) (old : List (ℚ × Nat)) : ∃ W t, binWeights fl ivs ws = some W ∧ W.length = 2 * (ivs.length - 1) ∧ HoldsReal W t ∧ 0 < W.sum ∧
      Pl.init fl old ivs ws = some ⟨t, ivs, ws⟩ := by
  have htwo := V.two
  obtain ⟨W, h1, h2⟩ := binWeights_spec fl ivs ws (by rintro rfl; simp at htwo) V.len
  have hs := binWeights_pos h0 hpos hne ivs ws W htwo V.sorted V.len V.nonneg h1 V.pos
  obtain ⟨t, h3, h4⟩ := binsParam_holds old W (binWeights_nonneg h0 ivs ws W V.sorted V.nonneg h1) hs
  exact ⟨W, t, h1, h2, h4, hs, by unfold Pl.init; rw [h1, Option.bind_some, h3]; rfl⟩

theorem PlValid.law {ivs ws : List ℚ} (V : PlValid ivs ws) (old : List (ℚ × Nat)) : ∃ d, Pl.init id old ivs ws = some d ∧ PlLaw ivs ws d := by
  obtain ⟨W, t, h1, _, h2, h3, h4⟩ := V.init (fl := id) (fun _ h => h) (fun _ h => h) (fun _ h => h) old
  have htwo := V.two
  exact ⟨_, h4, fun k x => pl_law k (d := ⟨t, ivs, ws⟩) V.len V.sorted (by rintro h; rw [show ivs = [] from h] at htwo; simp at htwo) V.nonneg h1 h2 h3 x⟩

/-- C104: on independent uniform numbers, in exact arithmetic, every constructor and `param(parm)` give a density proportional to the polygon through
the given points. -/
theorem c104_law (ivs ws extra : List ℚ) (V : PlValid ivs ws) :
    (∃ d, Pl.ofIters id ivs (ws ++ extra) = some d ∧ PlLaw ivs ws d) ∧ (∃ d, Pl.ofRanges id ivs ws = some d ∧ PlLaw ivs ws d) ∧
      (∃ d, Pl.ofParam id ⟨ivs, ws⟩ = some d ∧ PlLaw ivs ws d) ∧ ∀ old : Pl, ∃ d, old.setParam id ⟨ivs, ws⟩ = some d ∧ PlLaw ivs ws d := by
  have htwo := V.two
  have hlen := V.len
  refine ⟨?_, ?_, V.law _, fun old => V.law _⟩
  · unfold Pl.ofIters
    rw [if_neg (by omega), if_pos (by rw [List.length_append]; omega), hlen, List.take_left]
    exact V.law _
  · unfold Pl.ofRanges
    rw [if_neg (by omega)]
    exact V.law _

example : PlValid [0, 1, 3] [0, 2, 1] := ⟨rfl, by simp, by simp, ⟨2, by simp, by norm_num⟩, by norm_num⟩

/-- The polygon through (0, 0), (1, 2) and (3, 1): its area is 4, that up to 1 is 1. -/
example (d : Pl) (h : PlLaw [0, 1, 3] [0, 2, 1] d) : chance 4 (fun l => Spec.Run.Le (d.next idealMixed l) 1) = ENNReal.ofReal (1 / 4) := by
  rw [h 0 1]
  unfold polygonMeasure
  rw [withDensity_apply _ measurableSet_Iic, withDensity_apply _ MeasurableSet.univ, Measure.restrict_univ, polygon_Iic 1 [0, 1, 3] [0, 2, 1] (by norm_num) rfl (by simp),
    polygon_univ [0, 1, 3] [0, 2, 1] (by norm_num) rfl (by simp), ← ENNReal.ofReal_div_of_pos]
  · congr 1
    norm_num [pieces, areaTo, part, clamp]
  · norm_num [pieces]

/-- C104, the constructor from a list and a function, and the constructor from a number of intervals and a function. -/
theorem c104_function (f : ℚ → ℚ) :
    (∀ ivs : List ℚ, PlValid ivs (ivs.map f) → ∃ d, Pl.ofList id ivs f = some d ∧ PlLaw ivs (ivs.map f) d) ∧
    ∀ (nw : Nat) (xmin xmax : ℚ), xmin < xmax → (∀ x, xmin ≤ x → x ≤ xmax → 0 ≤ f x) → 0 < f xmin →
      ∃ ivs d, ivs.length = Nat.max nw 1 + 1 ∧ (∀ i, i ≤ Nat.max nw 1 → ivs[i]? = some (xmin + i * ((xmax - xmin) / Nat.max nw 1))) ∧
        Pl.ofFunc id nw xmin xmax f = some d ∧ PlLaw ivs (ivs.map f) d := by
  refine ⟨fun ivs V => ?_, fun nw xmin xmax hx h0 hp => ?_⟩
  · have htwo := V.two
    unfold Pl.ofList
    rw [if_neg (by omega)]
    exact V.law _
  · have hn : (if nw = 0 then 1 else nw) = Nat.max nw 1 := by
      show _ = max nw 1
      split <;> omega
    have hm : 0 < Nat.max nw 1 := by
      show 0 < max nw 1
      omega
    have hget : ∀ i, i ≤ Nat.max nw 1 → (gridBounds (Nat.max nw 1) xmin xmax)[i]? = some (xmin + i * ((xmax - xmin) / Nat.max nw 1)) := by
      generalize Nat.max nw 1 = n at *
      intro i hi
      unfold gridBounds
      rcases Nat.lt_or_ge i n with h | h
      · rw [List.getElem?_append_left (by simpa using h), List.getElem?_map, List.getElem?_range h]
        rfl
      · obtain rfl : i = n := by omega
        rw [List.getElem?_append_right (by simp), List.length_map, List.length_range, Nat.sub_self, List.getElem?_cons_zero]
        have : (i : ℚ) ≠ 0 := by exact_mod_cast hm.ne'
        congr 1
        field_simp
        ring
    have hmem : ∀ x ∈ gridBounds (Nat.max nw 1) xmin xmax, xmin ≤ x ∧ x ≤ xmax := by
      intro x hx'
      obtain ⟨i, hi, rfl⟩ := List.getElem_of_mem hx'
      have hi' : i ≤ Nat.max nw 1 := by rw [gridBounds_length] at hi; omega
      have hq := hget i hi'
      rw [List.getElem?_eq_getElem hi, Option.some.injEq] at hq
      rw [hq]
      have hn0 : (0 : ℚ) < (Nat.max nw 1 : Nat) := by exact_mod_cast hm
      have hin : (i : ℚ) ≤ (Nat.max nw 1 : Nat) := by exact_mod_cast hi'
      have hd : 0 < (xmax - xmin) / (Nat.max nw 1 : Nat) := div_pos (by linarith) hn0
      have hd2 : (Nat.max nw 1 : Nat) * ((xmax - xmin) / (Nat.max nw 1 : Nat)) = xmax - xmin := by field_simp
      have := mul_le_mul_of_nonneg_right hin hd.le
      have : 0 ≤ (i : ℚ) * ((xmax - xmin) / (Nat.max nw 1 : Nat)) := by positivity
      constructor <;> linarith
    have V : PlValid (gridBounds (Nat.max nw 1) xmin xmax) ((gridBounds (Nat.max nw 1) xmin xmax).map f) := by
      refine ⟨by simp, by rw [gridBounds_length]; omega, ?_, ⟨f xmin, List.mem_map.2 ⟨xmin, ?_, rfl⟩, hp⟩, gridBounds_sorted hm hx⟩
      · intro y hy
        obtain ⟨x, hx', rfl⟩ := List.mem_map.1 hy
        exact h0 x (hmem x hx').1 (hmem x hx').2
      · have := hget 0 (Nat.zero_le _)
        exact List.mem_of_getElem? (by simpa using this)
    obtain ⟨d, h1, h2⟩ := V.law [(1, 0)]
    exact ⟨_, d, gridBounds_length _ _ _, hget, by unfold Pl.ofFunc; rw [hn]; exact h1, h2⟩

example : ∃ ivs d, ivs.length = 5 ∧ Pl.ofFunc id 4 0 2 (fun x => 1 + x ^ 2) = some d ∧ PlLaw ivs (ivs.map fun x => 1 + x ^ 2) d := by
  obtain ⟨ivs, d, h1, _, h2, h3⟩ := (c104_function fun x => 1 + x ^ 2).2 4 0 2 (by norm_num) (fun x _ _ => by positivity) (by norm_num)
  exact ⟨ivs, d, h1, h2, h3⟩

/-- C104: fewer than two boundaries give the uniform distribution on [0, 1). -/
theorem c104_short (ivs ws : List ℚ) (f : ℚ → ℚ) (h : ivs.length < 2) :
    ∃ d, Pl.ofIters id ivs ws = some d ∧ Pl.ofRanges id ivs ws = some d ∧ Pl.ofList id ivs f = some d ∧ Pl.ofParam id (PlParam.ofRanges ivs ws) = some d ∧
      ∀ (k : Nat) (t : ℝ), 0 ≤ t → t ≤ 1 → chance (k + 4) (fun l => Spec.Run.Le (d.next idealMixed l) t) = ENNReal.ofReal t := by
  have V : PlValid [0, 1] [1, 1] := ⟨rfl, by simp, by simp, ⟨1, by simp, by norm_num⟩, by norm_num⟩
  obtain ⟨d, h1, h2⟩ := V.law [(1, 0)]
  refine ⟨d, by unfold Pl.ofIters; rw [if_pos h]; exact h1, by unfold Pl.ofRanges; rw [if_pos h]; exact h1, by unfold Pl.ofList; rw [if_pos h]; exact h1,
    by unfold Pl.ofParam PlParam.ofRanges; rw [if_pos h]; exact h1, fun k t h0 h1 => ?_⟩
  rw [h2 k t]
  unfold polygonMeasure
  rw [withDensity_apply _ measurableSet_Iic, withDensity_apply _ MeasurableSet.univ, Measure.restrict_univ, polygon_Iic t [0, 1] [1, 1] V.sorted rfl V.nonneg,
    polygon_univ [0, 1] [1, 1] V.sorted rfl V.nonneg, ← ENNReal.ofReal_div_of_pos (by norm_num [pieces])]
  congr 1
  norm_num [pieces, areaTo, part, clamp, h0, h1]

example : ([5] : List ℚ).length < 2 := by decide

/-- C104: `densities()` are the weights divided by one number, so that the area under their polygon is one. -/
theorem c104_densities (ivs ws : List ℚ) (V : PlValid ivs ws) :
    ∃ c, 0 < c ∧ plDensities id ivs ws = some (ws.map (· / c)) ∧ polygonMeasure ivs (ws.map (· / c)) Set.univ = 1 := by
  have htwo := V.two
  have hne : ivs ≠ [] := by rintro rfl; simp at htwo
  obtain ⟨W, t, h1, _, _, h3, _⟩ := V.init (fl := id) (fun _ h => h) (fun _ h => h) (fun _ h => h) []
  obtain ⟨c, h4, h5⟩ := plArea_id ivs ws 0 hne V.len
  have hc : (0 : ℝ) < c := by
    rw [h5, ← sum_bins ivs ws W V.sorted V.len h1]
    exact_mod_cast h3
  have hc' : 0 < c := by exact_mod_cast hc
  refine ⟨c, hc', by unfold plDensities; rw [h4, zero_add]; rfl, ?_⟩
  unfold polygonMeasure
  rw [withDensity_apply _ MeasurableSet.univ, Measure.restrict_univ, polygon_univ _ _ V.sorted (by simpa using V.len), pieces_div, ← h5, div_self hc.ne', ENNReal.ofReal_one]
  intro w hw
  obtain ⟨x, hx, rfl⟩ := List.mem_map.1 hw
  exact div_nonneg (V.nonneg x hx) hc'.le

#guard plDensities id [0, 1, 3] [0, 2, 1] = some [0, 1 / 2, 1 / 4]

/-- C104: `param()` gives back the boundaries and the weights, and a distribution made of it is the same. -/
theorem c104_param (fl : ℚ → ℚ) (ivs ws : List ℚ) (d : Pl) (h2 : 2 ≤ ivs.length) (h : Pl.ofRanges fl ivs ws = some d) :
    d.getParam.intervals = ivs ∧ d.getParam.weights = ws ∧ Pl.ofParam fl d.getParam = some d := by
  unfold Pl.ofRanges at h
  rw [if_neg (by omega)] at h
  have hd : d.intervals = ivs ∧ d.weights = ws := by
    unfold Pl.init at h
    obtain ⟨w, _, h⟩ := Option.bind_eq_some_iff.1 h
    obtain ⟨t, _, rfl⟩ := Option.map_eq_some_iff.1 h
    exact ⟨rfl, rfl⟩
  unfold Pl.getParam PlParam.ofRanges
  rw [hd.1, hd.2, if_neg (by omega)]
  exact ⟨rfl, rfl, h⟩

example : ∃ d, Pl.ofRanges id [0, 1, 3] [0, 2, 1] = some d ∧ d.getParam.weights = [0, 2, 1] := by
  obtain ⟨d, h, _⟩ := (c104_law [0, 1, 3] [0, 2, 1] [] ⟨rfl, by simp, by simp, ⟨2, by simp, by norm_num⟩, by norm_num⟩).2.1
  exact ⟨d, h, (c104_param id _ _ d (by simp) h).2.1⟩

/-! ## C105: `piecewise_linear_distribution` with a rounding and an engine -/

/-- No undefined behaviour, and every value lies in an interval where the density is not zero, so between the first and the last boundary. -/
def PlGood (o : RealOps ℚ) (E : EngInfo) (intervals weights : List ℚ) (d : Pl) : Prop :=
  ∀ (n : Nat) (xs : List Int), Outputs E xs → d.next (engineMixed o E ⟨64, false⟩ n) xs ≠ .ub ∧
    ∀ x rest, d.next (engineMixed o E ⟨64, false⟩ n) xs = .done x rest →
      (∃ i a b v w, intervals[i]? = some a ∧ intervals[i + 1]? = some b ∧ weights[i]? = some v ∧ weights[i + 1]? = some w ∧ (0 < v ∨ 0 < w) ∧ a ≤ x ∧ x < b) ∧
      (∃ lo hi, intervals.head? = some lo ∧ intervals.getLast? = some hi ∧ lo ≤ x ∧ x < hi) ∧ rest <:+ xs

theorem PlValid.good {o : RealOps ℚ} {E : EngInfo} (H : Rounding 53 o.fl) (hE : EngOK E) (hD : DiffOK E) {ivs ws : List ℚ} (V : PlValid ivs ws)
    (hsize : ivs.length ≤ 2 ^ 63) (hr : ∀ x ∈ ivs, Representable 53 x) (old : List (ℚ × Nat)) :
    ∃ d, Pl.init o.fl old ivs ws = some d ∧ PlGood o E ivs ws d := by
  have hf0 : o.fl 0 = 0 := H.exact 0 (Representable.zero _)
  have hpos : ∀ x, 0 < x → 0 < o.fl x := fun x hx => fl_pos' o H hx
  have hne : ∀ x, x ≠ 0 → o.fl x ≠ 0 := by
    intro x hx
    rcases lt_or_gt_of_ne hx with h | h
    · obtain ⟨k, hk⟩ := exists_pow_lt_of_lt_one (neg_pos.2 h) (show (1 / 2 : ℚ) < 1 by norm_num)
      obtain ⟨m, e, hm, he⟩ := Representable.inv_two_pow (digits := 53) (by decide) k
      have h1 := H.mono x (-(1 / 2 ^ k)) (by rw [div_pow, one_pow] at hk; linarith)
      rw [H.exact (-(1 / 2 ^ k)) ⟨-m, e, by rwa [abs_neg], by rw [he]; push_cast; ring⟩] at h1
      have : (0 : ℚ) < 1 / 2 ^ k := by positivity
      linarith
    · exact (hpos x h).ne'
  obtain ⟨W, t, h1, h2, h3, h4, h5⟩ := V.init (fun x hx => fl_nonneg H hx) hpos hne old
  refine ⟨_, h5, fun n xs hO => ?_⟩
  have htwo := V.two
  have hlen := V.len
  have key : SafeRun (fun x => ∃ i a b v w, ivs[i]? = some a ∧ ivs[i + 1]? = some b ∧ ws[i]? = some v ∧ ws[i + 1]? = some w ∧ (0 < v ∨ 0 < w) ∧ a ≤ x ∧ x < b) E
      (Pl.next ⟨t, ivs, ws⟩ (engineMixed o E ⟨64, false⟩ n)) := by
    refine (draw_safe H hE hD n h3 (by omega) ⟨by decide, by decide, ?_, by omega⟩).bind fun i hi => ?_
    · show (0 : Int) ≤ _ ∧ _ < (2 : Int) ^ 64
      omega
    · have g1 : i / 2 < ivs.length := by omega
      have g2 : i / 2 + 1 < ivs.length := by omega
      have g3 : i / 2 < ws.length := by omega
      have g4 : i / 2 + 1 < ws.length := by omega
      have hab : ivs[i / 2] < ivs[i / 2 + 1] := List.pairwise_iff_getElem.1 V.sorted _ _ _ _ (by omega)
      have e1 := List.getElem?_eq_getElem g1
      have e2 := List.getElem?_eq_getElem g2
      have e3 := List.getElem?_eq_getElem g3
      have e4 := List.getElem?_eq_getElem g4
      have hvw : 0 < ws[i / 2] ∨ 0 < ws[i / 2 + 1] := by
        by_contra h
        rw [not_or, not_lt, not_lt] at h
        exact hi.2 (binWeights_zero hf0 ivs ws W i _ _ hlen h1 e3 e4 (le_antisymm h.1 (V.nonneg _ (List.getElem_mem _)))
          (le_antisymm h.2 (V.nonneg _ (List.getElem_mem _))))
      have R := real_safe H hE ⟨64, false⟩ n hab (hr _ (List.getElem_mem g1))
      simp only [e1, e2, e3, e4, if_pos hab, Rat.cast_id]
      split
      · exact R.mono fun x hx => ⟨i / 2, _, _, _, _, e1, e2, e3, e4, hvw, hx⟩
      · refine R.bind fun x hx => R.bind fun y hy => SafeRun.done ⟨i / 2, _, _, _, _, e1, e2, e3, e4, hvw, ?_⟩
        split
        · exact ⟨le_max_of_le_left hx.1, max_lt hx.2 hy.2⟩
        · exact ⟨le_min hx.1 hy.1, min_lt_of_left_lt hx.2⟩
  obtain ⟨k1, k2⟩ := key xs hO
  refine ⟨k1, fun x rest h => ?_⟩
  obtain ⟨⟨i, a, b, v, w, q1, q2, q3, q4, q5, q6, q7⟩, k3⟩ := k2 x rest h
  exact ⟨⟨i, a, b, v, w, q1, q2, q3, q4, q5, q6, q7⟩, interval_bounds V.sorted q1 q2 q6 q7, k3⟩

section C105
variable {o : RealOps ℚ} {E : EngInfo} (H : Rounding 53 o.fl) (hE : EngOK E) (hD : DiffOK E)
include H hE hD

/-- C105 (partial: the differences of engine values fit their type, see `c50_signed_false`): with any rounding, every constructor and `param(parm)`
give a distribution whose values lie where the density is not zero. -/
theorem c105_range_partial (ivs ws extra : List ℚ) (V : PlValid ivs ws) (hsize : ivs.length ≤ 2 ^ 63) (hr : ∀ x ∈ ivs, Representable 53 x) :
    (∃ d, Pl.ofIters o.fl ivs (ws ++ extra) = some d ∧ PlGood o E ivs ws d) ∧ (∃ d, Pl.ofRanges o.fl ivs ws = some d ∧ PlGood o E ivs ws d) ∧
      (∃ d, Pl.ofParam o.fl ⟨ivs, ws⟩ = some d ∧ PlGood o E ivs ws d) ∧ ∀ old : Pl, ∃ d, old.setParam o.fl ⟨ivs, ws⟩ = some d ∧ PlGood o E ivs ws d := by
  have htwo := V.two
  have hlen := V.len
  refine ⟨?_, ?_, V.good H hE hD hsize hr _, fun old => V.good H hE hD hsize hr _⟩
  · unfold Pl.ofIters
    rw [if_neg (by omega), if_pos (by rw [List.length_append]; omega), hlen, List.take_left]
    exact V.good H hE hD hsize hr _
  · unfold Pl.ofRanges
    rw [if_neg (by omega)]
    exact V.good H hE hD hsize hr _

/-- C105, the constructor from a list and a function, and fewer than two boundaries (partial as above). -/
theorem c105_function_partial (ivs : List ℚ) (f : ℚ → ℚ) :
    (PlValid ivs (ivs.map f) → ivs.length ≤ 2 ^ 63 → (∀ x ∈ ivs, Representable 53 x) → ∃ d, Pl.ofList o.fl ivs f = some d ∧ PlGood o E ivs (ivs.map f) d) ∧
      (ivs.length < 2 → ∃ d, Pl.ofList o.fl ivs f = some d ∧ PlGood o E [0, 1] [1, 1] d) := by
  refine ⟨fun V hsize hr => ?_, fun h => ?_⟩
  · have htwo := V.two
    unfold Pl.ofList
    rw [if_neg (by omega)]
    exact V.good H hE hD hsize hr _
  · unfold Pl.ofList
    rw [if_pos h]
    have V : PlValid [0, 1] [1, 1] := ⟨rfl, by simp, by simp, ⟨1, by simp, by norm_num⟩, by norm_num⟩
    refine V.good H hE hD (by norm_num) ?_ _
    intro x hx
    rcases List.mem_cons.1 hx with rfl | hx
    · exact Representable.zero _
    · rw [List.mem_singleton.1 hx]
      exact Representable.one (by norm_num)

end C105

example : EngOK engMt ∧ DiffOK engMt ∧ PlValid [0, 1, 3] [0, 2, 1] ∧ ∀ x ∈ ([0, 1, 3] : List ℚ), Representable 53 x := by
  refine ⟨engMt_ok, (fun h => by cases h), ⟨rfl, by simp, by simp, ⟨2, by simp, by norm_num⟩, by norm_num⟩, ?_⟩
  intro x hx
  simp only [List.mem_cons, List.not_mem_nil, or_false] at hx
  rcases hx with rfl | rfl | rfl
  · exact Representable.zero _
  · exact Representable.one (by norm_num)
  · exact ⟨3, 0, by norm_num, by norm_num⟩

/-! ## C106: the law of `hyperexponential_distribution` -/

namespace Hyperexponential

/-- The requirements on probabilities and rates. -/
structure Valid (probs rates : List ℚ) : Prop where
  len : probs.length = rates.length
  nonneg : ∀ x ∈ probs, 0 ≤ x
  pos : 0 < probs.sum
  rate : ∀ x ∈ rates, 0 < x

/-- The values follow the mixture of exponential distributions. -/
def Law (probs rates : List ℚ) (d : Dist) : Prop :=
  ∀ (k : Nat) (t : ℝ), chance (k + 3) (fun l => Spec.Run.Le (d.next exactOps idealMixed l) t) = hyperexponentialMeasure probs rates (Set.Iic t)

theorem Valid.check {probs rates : List ℚ} (V : Valid probs rates) : check (probs.map (· / probs.sum)) rates = true := by
  unfold Hyperexponential.check
  have h1 : ∀ x ∈ probs, x ≤ probs.sum := fun x hx => List.single_le_sum V.nonneg x hx
  simp only [List.length_map, V.len, beq_self_eq_true, Bool.true_and, Bool.and_eq_true, List.all_eq_true, List.mem_map, decide_eq_true_eq]
  refine ⟨?_, V.rate⟩
  rintro _ ⟨x, hx, rfl⟩
  exact ⟨div_nonneg (V.nonneg x hx) V.pos.le, (div_le_one V.pos).2 (h1 x hx)⟩

theorem Valid.make {probs rates : List ℚ} (V : Valid probs rates) :
    ∃ t, Dist.make probs rates = some ⟨t, rates⟩ ∧ HoldsReal probs t ∧ Discrete.realProbabilities t = some (probs.map (· / probs.sum)) := by
  obtain ⟨t, h1, h2, _, _⟩ := Discrete.realProbabilities_spec [] probs V.nonneg V.pos (by simp)
  obtain ⟨t', h3, h4⟩ := realInit_holds [] probs V.nonneg V.pos
  obtain rfl : t = t' := Option.some.inj (h1.symm.trans h3)
  have h5 : Discrete.realProbabilities t = some (probs.map (· / probs.sum)) := h2
  refine ⟨t, ?_, h4, h5⟩
  unfold Dist.make
  rw [h1, Option.bind_some, h5, Option.bind_some, if_pos V.check]

/-- C106: on independent uniform and exponential numbers, in exact arithmetic, a distribution of valid parameters follows the mixture of exponential
distributions, however it is made. -/
theorem c106_law (probs rates : List ℚ) (V : Valid probs rates) :
    (∃ d, Dist.make probs rates = some d ∧ Law probs rates d) ∧ ∀ old : Dist, ∃ d, old.setParam ⟨probs, rates⟩ = some d ∧ Law probs rates d := by
  constructor
  · obtain ⟨t, h1, h2, _⟩ := V.make
    exact ⟨_, h1, fun k x => hyper_law k (d := ⟨t, rates⟩) V.len V.rate h2 V.pos x⟩
  · intro old
    obtain ⟨t, h1, h2⟩ := binsParam_holds old.dd probs V.nonneg V.pos
    exact ⟨⟨t, rates⟩, by unfold Dist.setParam; rw [h1]; rfl, fun k x => hyper_law k (d := ⟨t, rates⟩) V.len V.rate h2 V.pos x⟩

example : Valid [1, 3] [2, 5] := ⟨rfl, by simp, by norm_num, by simp⟩

/-- One quarter of rate 2 and three quarters of rate 5. -/
example : hyperexponentialMeasure [1, 3] [2, 5] (Set.Iic 1) = ENNReal.ofReal (1 / 4 * (1 - Real.exp (-2)) + 3 / 4 * (1 - Real.exp (-5))) := by
  unfold hyperexponentialMeasure
  have e : ∀ r : ℝ, 0 < r → ProbabilityTheory.expMeasure r (Set.Iic 1) = ENNReal.ofReal (1 - Real.exp (-r)) := by
    intro r hr
    have : IsProbabilityMeasure (ProbabilityTheory.expMeasure r) := ProbabilityTheory.isProbabilityMeasure_expMeasure hr
    have h1 := ProbabilityTheory.cdf_expMeasure_eq hr 1
    rw [ProbabilityTheory.cdf_eq_real, Measure.real, if_pos zero_le_one, mul_one] at h1
    rw [← ENNReal.ofReal_toReal (measure_ne_top (ProbabilityTheory.expMeasure r) (Set.Iic 1)), h1]
  rw [Measure.sum_apply _ measurableSet_Iic, tsum_eq_sum (s := Finset.range 2)]
  · simp only [Finset.sum_range_succ, Finset.sum_range_zero, Measure.smul_apply, smul_eq_mul]
    norm_num [List.getD_eq_getElem?_getD]
    have h2 : (0 : ℝ) ≤ 1 - Real.exp (-2) := by linarith [Real.exp_le_one_iff.2 (show (-2 : ℝ) ≤ 0 by norm_num)]
    have h5 : (0 : ℝ) ≤ 1 - Real.exp (-5) := by linarith [Real.exp_le_one_iff.2 (show (-5 : ℝ) ≤ 0 by norm_num)]
    rw [e 2 (by norm_num), e 5 (by norm_num), ENNReal.ofReal_add (by positivity) (by positivity), ENNReal.ofReal_mul (by norm_num), ENNReal.ofReal_mul (by norm_num)]
  · intro i hi
    rw [Finset.mem_range, not_lt] at hi
    rw [List.getD_eq_getElem?_getD (l := [1, 3]), List.getElem?_eq_none (by simpa using hi)]
    simp

/-- C106: the rates alone give equal probabilities; without arguments the distribution is exponential of rate one. -/
theorem c106_rates (rates : List ℚ) (hne : rates ≠ []) (hr : ∀ x ∈ rates, 0 < x) :
    (∃ d, Dist.ofRates rates = some d ∧ Law (List.replicate rates.length (1 / rates.length)) rates d) ∧
      ∃ d, Dist.default = some d ∧ ∀ (k : Nat) (t : ℝ), chance (k + 3) (fun l => Spec.Run.Le (d.next exactOps idealMixed l) t) =
        ProbabilityTheory.expMeasure 1 (Set.Iic t) := by
  have hn : 0 < rates.length := List.length_pos_iff.2 hne
  have hn' : (0 : ℚ) < rates.length := by exact_mod_cast hn
  constructor
  · have V : Valid (List.replicate rates.length 1) rates := by
      refine ⟨by simp, fun x hx => ?_, by simpa using hn, hr⟩
      rw [(List.mem_replicate.1 hx).2]
      exact zero_le_one
    obtain ⟨d, h1, h2⟩ := (c106_law _ _ V).1
    refine ⟨d, h1, fun k t => ?_⟩
    rw [h2 k t]
    unfold hyperexponentialMeasure
    congr 3
    funext i
    congr 2
    rcases Nat.lt_or_ge i rates.length with h | h
    · simp only [List.getD_eq_getElem?_getD, List.getElem?_replicate, if_pos h, Option.getD_some, List.sum_replicate, nsmul_eq_mul]
      push_cast
      have : (rates.length : ℝ) ≠ 0 := by exact_mod_cast hn.ne'
      field_simp
    · simp only [List.getD_eq_getElem?_getD, List.getElem?_replicate, if_neg (not_lt.2 h), Option.getD_none]
      simp
  · have V : Valid [1] [1] := ⟨rfl, by simp, by norm_num, by simp⟩
    obtain ⟨t, h1, h2⟩ := realInit_holds [] [1] V.nonneg V.pos
    refine ⟨⟨t, [1]⟩, by unfold Dist.default; rw [h1]; rfl, fun k x => ?_⟩
    rw [hyper_law k (d := ⟨t, [1]⟩) V.len V.rate h2 V.pos x]
    unfold hyperexponentialMeasure
    rw [Measure.sum_apply _ measurableSet_Iic, tsum_eq_sum (s := {0})]
    · simp
    · intro i hi
      rw [Finset.mem_singleton] at hi
      rw [List.getD_eq_getElem?_getD (l := [1]), List.getElem?_eq_none (by simp; omega)]
      simp

example : ([2, 5, 7] : List ℚ) ≠ [] ∧ ∀ x ∈ ([2, 5, 7] : List ℚ), 0 < x := by simp

/-- C106: in exact arithmetic `param()` has the probabilities divided by their sum. -/
theorem c106_param (probs rates : List ℚ) (V : Valid probs rates) :
    ∃ d, Dist.make probs rates = some d ∧ d.getParam id = some ⟨probs.map (· / probs.sum), rates⟩ ∧
      Param.make id probs rates = some ⟨probs.map (· / probs.sum), rates⟩ := by
  obtain ⟨t, h1, _, h3⟩ := V.make
  have hs : (probs.map (· / probs.sum)).sum = 1 := sum_normalize V.pos
  refine ⟨_, h1, ?_, ?_⟩
  · unfold Dist.getParam Param.make
    rw [h3, Option.bind_some, normalize_id _ (by rw [hs]; norm_num), hs]
    simp only [div_one, List.map_id']
    rw [if_pos V.check]
  · unfold Param.make
    rw [normalize_id _ V.pos.ne']
    simp only
    rw [if_pos V.check]

#guard (Dist.make [1, 3] [2, 5]).bind (·.getParam id) = some ⟨[1 / 4, 3 / 4], [2, 5]⟩

/-! ## C107: `hyperexponential_distribution` with a rounding and an engine -/

/-- C107 (partial: the engines as in C85): with any rounding, a distribution of valid parameters gives values that are not negative, without
undefined behaviour. -/
theorem c107_range_partial {o : RealOps ℚ} {E : EngInfo} (H : Rounding 53 o.fl) (hE : EngOK E) (hD : DiffOK E)
    (hsafe : engineBits E - 8 % engineBits E < 53 → ¬ engineBits E ∣ 61) (probs rates : List ℚ) (V : Valid probs rates) (hsize : probs.length ≤ 2 ^ 31)
    (old : Option Dist) (d : Dist) (hd : (match old with | none => Dist.make probs rates | some old => old.setParam ⟨probs, rates⟩) = some d)
    (n : Nat) (xs : List Int) (hO : Outputs E xs) :
    d.next o (engineMixed o E ⟨32, true⟩ n) xs ≠ .ub ∧
      ∀ v rest, d.next o (engineMixed o E ⟨32, true⟩ n) xs = .done v rest → 0 ≤ v ∧ rest <:+ xs := by
  have hlen := V.len
  have hn : 0 < probs.length := by
    have := V.pos
    rcases probs with _ | ⟨a, l⟩
    · simp at this
    · simp
  have key : ∀ t, HoldsReal probs t → SafeRun (fun v : ℚ => 0 ≤ v) E (Dist.next o ⟨t, rates⟩ (engineMixed o E ⟨32, true⟩ n)) := by
    intro t ht
    refine (draw_safe H hE hD n ht hn ⟨by decide, by decide, ?_, by omega⟩).bind fun i hi => ?_
    · show -(2 : Int) ^ 31 ≤ _ ∧ _ < (2 : Int) ^ 31
      omega
    · have hi' : i < rates.length := by omega
      simp only [List.getElem?_eq_getElem hi', Rat.cast_id]
      exact (numbers_safe H hE hD hsafe n).2.1.bind fun v hv => SafeRun.done (fl_nonneg H (div_nonneg hv (V.rate _ (List.getElem_mem hi')).le))
  cases old with
  | none =>
    obtain ⟨t, h1, h2, _⟩ := V.make
    obtain rfl : ⟨t, rates⟩ = d := Option.some.inj (h1.symm.trans hd)
    exact key t h2 xs hO
  | some old =>
    obtain ⟨t, h1, h2⟩ := binsParam_holds old.dd probs V.nonneg V.pos
    have e : old.setParam ⟨probs, rates⟩ = some ⟨t, rates⟩ := by unfold Dist.setParam; rw [h1]; rfl
    obtain rfl : ⟨t, rates⟩ = d := Option.some.inj (e.symm.trans hd)
    exact key t h2 xs hO

example : ∃ d, Dist.make [1, 3] [2, 5] = some d :=
  let ⟨t, h, _⟩ := Valid.make (probs := [1, 3]) (rates := [2, 5]) ⟨rfl, by simp, by norm_num, by simp⟩
  ⟨_, h⟩

/-- C107: the assertion of the constructors holds for parameters just when there are as many rates as probabilities and all rates are positive. -/
theorem c107_assert (probs rates : List ℚ) (h0 : ∀ x ∈ probs, 0 ≤ x) (hs : 0 < probs.sum) :
    (∃ d, Dist.make probs rates = some d) ↔ probs.length = rates.length ∧ ∀ x ∈ rates, 0 < x := by
  constructor
  · rintro ⟨d, h⟩
    obtain ⟨t, h1, h2, _, _⟩ := Discrete.realProbabilities_spec [] probs h0 hs (by simp)
    have h5 : Discrete.realProbabilities t = some (probs.map (· / probs.sum)) := h2
    unfold Dist.make at h
    rw [h1, Option.bind_some, h5, Option.bind_some] at h
    split at h
    · rename_i hc
      unfold Hyperexponential.check at hc
      simp only [Bool.and_eq_true, List.length_map, beq_iff_eq, List.all_eq_true, decide_eq_true_eq] at hc
      exact ⟨hc.1.1, hc.2⟩
    · cases h
  · rintro ⟨h1, h2⟩
    obtain ⟨t, h, _⟩ := Valid.make ⟨h1, h0, hs, h2⟩
    exact ⟨_, h⟩

#guard (Dist.make [1, 3] [2, 0]).isNone && (Dist.make [1, 3] [2]).isNone && (Dist.make [1, 3] [2, 5]).isSome

/-! ## C108: `normalize` -/

/-- C108: in exact arithmetic each number is divided by the sum, so that the sum is one. -/
theorem c108_exact (v : List ℚ) (hs : v.sum ≠ 0) : normalize id v = v.map (· / v.sum) ∧ (normalize id v).sum = 1 := by
  have h := normalize_id v hs
  refine ⟨h, ?_⟩
  rw [h]
  have : ∀ (l : List ℚ) (c : ℚ), (l.map (· / c)).sum = l.sum / c := by
    intro l c
    induction l with
    | nil => simp
    | cons a l ih => rw [List.map_cons, List.sum_cons, ih, List.sum_cons, add_div]
  rw [this, div_self hs]

#guard normalize id [2, 4, 3, 1] = [1 / 5, 2 / 5, 3 / 10, 1 / 10]

/-- C108: with rounding to nearest, where the tie below one goes to one as with ties to even, the sum in the arithmetic of the program is one, as the
comment in the code says, and a second call changes nothing. -/
theorem c108_sum {fl : ℚ → ℚ} (H : Nearest 53 fl) (htie : fl (1 - 1 / 2 ^ 54) = 1) (v : List ℚ) (hv : ∀ x ∈ v, 0 ≤ x) (hs : 0 < v.sum)
    (hn : v.length ≤ 2 ^ 50) : accumulate fl (normalize fl v) 0 = 1 ∧ normalize fl (normalize fl v) = normalize fl v :=
  ⟨normalize_sum H htie v hv hs hn, normalize_idem H htie v hv hs hn⟩

example : Nearest 53 (rn 53) ∧ rn 53 (1 - 1 / 2 ^ 54) = 1 := by
  refine ⟨rn_nearest (by norm_num), ?_⟩
  have hl : Int.log 2 |(1 - 1 / 2 ^ 54 : ℚ)| = -1 := by
    rw [abs_of_pos (by norm_num)]
    have h1 := (Int.zpow_le_iff_le_log (b := 2) (by norm_num) (show (0 : ℚ) < 1 - 1 / 2 ^ 54 by norm_num) (x := -1)).1 (by norm_num)
    have h2 := (Int.lt_zpow_iff_log_lt (b := 2) (by norm_num) (show (0 : ℚ) < 1 - 1 / 2 ^ 54 by norm_num) (x := 0)).1 (by norm_num)
    omega
  unfold rn ulp
  rw [if_neg (by norm_num), hl]
  norm_num [round_eq]

/-- C108 (the property is false): normalized probabilities need not be probabilities, and then the assertion of the constructors fails. The
last of 7, 1, 1, 1, 2, 0 becomes -2^(-52). -/
theorem c108_assert_false {fl : ℚ → ℚ} (H : Nearest 53 fl) (rates : List ℚ) :
    (normalize fl [7, 1, 1, 1, 2, 0]).getLast? = some (-(1 / 2 ^ 52)) ∧ Param.make fl [7, 1, 1, 1, 2, 0] rates = none := by
  have R := Boost.Random.Nearest.rounding H
  have d7 : fl (7 / 12) = (5254199565265579 / 9007199254740992) := fl_round H 5254199565265579 (-53) (by norm_num) (by norm_num) (by norm_num) (by norm_num [abs_lt])
  have d1 : fl (1 / 12) = (6004799503160661 / 72057594037927936) := fl_round H 6004799503160661 (-56) (by norm_num) (by norm_num) (by norm_num) (by norm_num [abs_lt])
  have d2 : fl (2 / 12) = (6004799503160661 / 36028797018963968) := fl_round H 6004799503160661 (-55) (by norm_num) (by norm_num) (by norm_num) (by norm_num [abs_lt])
  have s0 : fl (0 + (5254199565265579 / 9007199254740992)) = (5254199565265579 / 9007199254740992) := fl_exact R 5254199565265579 (-53) (by norm_num) (by norm_num) (by norm_num)
  have s1 : fl ((5254199565265579 / 9007199254740992) + (6004799503160661 / 72057594037927936)) = (3002399751580331 / 4503599627370496) := fl_round H 6004799503160662 (-53) (by norm_num) (by norm_num) (by norm_num) (by norm_num [abs_lt])
  have s2 : fl ((3002399751580331 / 4503599627370496) + (6004799503160661 / 72057594037927936)) = (6755399441055745 / 9007199254740992) := fl_round H 6755399441055745 (-53) (by norm_num) (by norm_num) (by norm_num) (by norm_num [abs_lt])
  have s3 : fl ((6755399441055745 / 9007199254740992) + (6004799503160661 / 72057594037927936)) = (1876499844737707 / 2251799813685248) := fl_round H 7505999378950828 (-53) (by norm_num) (by norm_num) (by norm_num) (by norm_num [abs_lt])
  have s4 : fl ((1876499844737707 / 2251799813685248) + (6004799503160661 / 36028797018963968)) = (4503599627370497 / 4503599627370496) := fl_round H 4503599627370497 (-52) (by norm_num) (by norm_num) (by norm_num) (by norm_num [abs_lt])
  have l : fl (1 - (4503599627370497 / 4503599627370496)) = -(1 / 4503599627370496) := fl_exact R (-1) (-52) (by norm_num) (by norm_num) (by norm_num)
  have hS : accumulate fl [7, 1, 1, 1, 2, 0] 0 = 12 := by
    have n : ∀ k : Nat, k < 2 ^ 53 → fl (k : ℚ) = k := fun k hk => R.exact _ (Representable.natCast hk)
    have n7 := n 7 (by norm_num)
    have n8 := n 8 (by norm_num)
    have n9 := n 9 (by norm_num)
    have n10 := n 10 (by norm_num)
    have n12 := n 12 (by norm_num)
    norm_num at n7 n8 n9 n10 n12
    simp only [accumulate, List.foldl_cons, List.foldl_nil]
    norm_num [n7, n8, n9, n10, n12]
  have hN : normalize fl [7, 1, 1, 1, 2, 0] = [fl (7 / 12), fl (1 / 12), fl (1 / 12), fl (1 / 12), fl (2 / 12)] ++ [-(1 / 2 ^ 52)] := by
    unfold normalize
    rw [if_neg (by simp), hS]
    simp only [List.dropLast, List.map_cons, List.map_nil]
    congr 2
    simp only [accumulate, List.foldl_cons, List.foldl_nil]
    rw [d7, d1, d2, s0, s1, s2, s3, s4, l]
    norm_num
  refine ⟨by rw [hN]; simp, ?_⟩
  unfold Param.make
  rw [hN]
  simp only
  rw [if_neg]
  unfold Hyperexponential.check
  simp

/-- C108 (partial: the sum of the others is at most one, see `c108_assert_false`): the assertion holds just then. -/
theorem c108_assert_partial {fl : ℚ → ℚ} (H : Nearest 53 fl) (probs rates : List ℚ) (V : Valid probs rates)
    (hr : ∀ x ∈ probs, Representable 53 x) : (∃ p, Param.make fl probs rates = some p) ↔
      accumulate fl (probs.dropLast.map fun x => fl (x / accumulate fl probs 0)) 0 ≤ 1 := by
  have R := Boost.Random.Nearest.rounding H
  have hlen := V.len
  have hne : probs ≠ [] := by
    rintro rfl
    exact absurd V.pos (by simp)
  have hS : ∀ x ∈ probs, x ≤ accumulate fl probs 0 := fun x hx => (accumulate_mem R probs 0 V.nonneg hr le_rfl (Representable.zero _)).2 x hx
  have hS0 : 0 ≤ accumulate fl probs 0 := accumulate_nonneg R probs 0 V.nonneg le_rfl
  unfold Param.make normalize
  rw [if_neg hne]
  dsimp only
  generalize accumulate fl probs 0 = S at *
  have hhead : ∀ x ∈ probs.dropLast.map (fun x => fl (x / S)), 0 ≤ x ∧ x ≤ 1 := by
    intro y hy
    obtain ⟨x, hx, rfl⟩ := List.mem_map.1 hy
    have hx := List.mem_of_mem_dropLast hx
    refine ⟨RealDist.fl_nonneg R (div_nonneg (V.nonneg x hx) hS0), ?_⟩
    have := R.mono _ 1 (div_le_one_of_le₀ (hS x hx) hS0)
    rwa [R.exact 1 (Representable.one (by norm_num))] at this
  have hf0 := accumulate_nonneg R _ 0 (fun x hx => (hhead x hx).1) le_rfl
  have hlen' : (probs.dropLast.map (fun x => fl (x / S))).length + 1 = rates.length := by
    have := List.length_pos_iff.2 hne
    rw [List.length_map, List.length_dropLast]
    omega
  generalize probs.dropLast.map (fun x => fl (x / S)) = l at *
  generalize accumulate fl l 0 = f at *
  have hlast : fl (1 - f) ≤ 1 := by
    have := R.mono (1 - f) 1 (by linarith)
    rwa [R.exact 1 (Representable.one (by norm_num))] at this
  have hc : Hyperexponential.check (l ++ [fl (1 - f)]) rates = true ↔ 0 ≤ fl (1 - f) := by
    unfold Hyperexponential.check
    simp only [List.length_append, List.length_singleton, hlen', beq_self_eq_true, Bool.true_and, Bool.and_eq_true, List.all_eq_true, List.mem_append,
      List.mem_singleton, decide_eq_true_eq]
    constructor
    · intro h
      exact (h.1 _ (Or.inr rfl)).1
    · intro h
      refine ⟨?_, V.rate⟩
      rintro x (hx | rfl)
      · exact hhead x hx
      · exact ⟨h, hlast⟩
  have hsign : 0 ≤ fl (1 - f) ↔ f ≤ 1 := by
    constructor
    · intro h
      by_contra hgt
      obtain ⟨g1, g2⟩ := fl_bounds H (x := f - 1) (by linarith)
      have e := abs_le.1 (Faure.nearest_rel (by norm_num) H (1 - f))
      rw [abs_of_neg (show 1 - f < 0 by linarith)] at e
      have : -(1 - f) / 2 ^ 53 < -(1 - f) := div_lt_self (by linarith) (by norm_num)
      linarith [e.1]
    · exact fun h => RealDist.fl_nonneg R (by linarith)
  rw [← hsign, ← hc]
  constructor
  · rintro ⟨p, h⟩
    by_contra hn
    rw [if_neg hn] at h
    cases h
  · exact fun h => ⟨_, if_pos h⟩

example : accumulate id (([1, 3] : List ℚ).dropLast.map fun x => id (x / accumulate id [1, 3] 0)) 0 ≤ 1 := by norm_num [accumulate]

/-- C108 (the property is false): the iterator constructor of `param_type` from rates does not normalize: the probabilities are one each, which is not
what the range constructor makes of the same rates. -/
theorem c108_rates_false : ¬ ∀ rates : List ℚ, rates ≠ [] → (Param.ofIters rates).probs.sum = 1 ∧ Param.ofRange id rates = some (Param.ofIters rates) := by
  intro h
  have h := (h [2, 5] (by simp)).1
  norm_num [Param.ofIters] at h

/-- C108 (partial: one rate, see `c108_rates_false`): the two constructors agree only for one rate. -/
theorem c108_rates_partial (rates : List ℚ) (hr : ∀ x ∈ rates, 0 < x) (hne : rates ≠ []) :
    Param.ofRange id rates = some (Param.ofIters rates) ↔ rates.length = 1 := by
  have hn : 0 < rates.length := List.length_pos_iff.2 hne
  have V : Valid (List.replicate rates.length 1) rates := by
    refine ⟨by simp, fun x hx => ?_, by simpa using hn, hr⟩
    rw [(List.mem_replicate.1 hx).2]
    exact zero_le_one
  obtain ⟨_, _, _, h⟩ := c106_param _ _ V
  unfold Param.ofRange
  rw [h]
  unfold Param.ofIters
  rw [Option.some.injEq, Param.mk.injEq, List.map_replicate, List.sum_replicate, nsmul_eq_mul, mul_one]
  constructor
  · rintro ⟨h, _⟩
    have := List.eq_of_mem_replicate (h ▸ List.mem_replicate.2 ⟨hn.ne', rfl⟩ : (1 / (rates.length : ℚ)) ∈ List.replicate rates.length 1)
    rw [div_eq_one_iff_eq (by exact_mod_cast hn.ne')] at this
    exact_mod_cast this.symm
  · intro h
    rw [h]
    simp

#guard Param.ofRange id [2, 5] = some ⟨[1 / 2, 1 / 2], [2, 5]⟩ && (Param.ofIters [2, 5]).probs = [1, 1]

end Hyperexponential

end Boost.Random
