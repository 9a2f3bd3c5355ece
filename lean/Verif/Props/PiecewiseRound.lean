import Verif.Proofs.PiecewiseRound
import Verif.Props.RealDist
import Verif.Proofs.NearPow
import Verif.Proofs.BinomialWitness

/-!
# C167: `piecewise_constant_distribution` constructed in floating-point arithmetic
-/

namespace Boost.Random
open Spec Finset
namespace RealDist
open Discrete

/-- What is claimed of the bins: drawing column and test value uniformly, the test value among the multiples of `1/M`, the share of every bin is its
weight divided by their sum, up to `c + 1/M`. -/
def SharesOf (c : ℚ) (weights : List ℚ) (d : Pc) : Prop :=
  ∀ M : Nat, 0 < M → ∀ v,
    |(((range weights.length ×ˢ range M).filter fun q => realPick d.bins q.1 ((q.2 : ℚ) / M) = some v).card : ℚ) / (weights.length * M) -
      weights.getD v 0 / weights.sum| ≤ c + 1 / M

section
variable {digits : Nat} {fl : ℚ → ℚ} {E : EngInfo}

theorem shares_of_nearby {ws ws' : List ℚ} {c : ℚ} (hn : 0 < ws.length) {d : Pc} (hb : HoldsReal ws' d.bins) (N : Nearby ws.length c ws ws') :
    SharesOf c ws d := by
  intro M hM v
  have hM0 : (0 : ℚ) < M := by exact_mod_cast hM
  have hn1 : (0 : ℚ) < ws.length := by exact_mod_cast hn
  have a1 := pick_share (n := ws.length) (t := d.bins) (fun i hi => by have := hb.col i (by rw [N.len]; exact hi); rwa [N.len] at this) hM v
  have a2 := hb.mass v
  rw [N.len, N.sum, mul_div_assoc, div_self hn1.ne', mul_one] at a2
  rw [list_sum_range_rat, a2] at a1
  have a3 := N.close v
  obtain ⟨k, hk⟩ : ∃ k : ℚ, (((range ws.length ×ˢ range M).filter fun q => realPick d.bins q.1 ((q.2 : ℚ) / M) = some v).card : ℚ) = k := ⟨_, rfl⟩
  rw [hk] at a1 ⊢
  have b1 : |k / (ws.length * M) - ws'.getD v 0 / ws.length| ≤ 1 / M := by
    have : k / (ws.length * M) - ws'.getD v 0 / ws.length = (k - ws'.getD v 0 * M) / (ws.length * M) := by field_simp
    rw [this, abs_div, abs_of_pos (by positivity : (0 : ℚ) < ws.length * M), div_le_div_iff₀ (by positivity) hM0]
    nlinarith
  have := abs_sub_le (k / (ws.length * M)) (ws'.getD v 0 / ws.length) (ws.getD v 0 / ws.sum)
  linarith

theorem good_of_nearby (H : Nearest digits fl) (hE : EngOK E) (hD : DiffOK E) {ivs ws ws' : List ℚ} (V : PcValid digits ivs ws) {c : ℚ} {bins : List (ℚ × Nat)}
    (hb : HoldsReal ws' bins) (N : Nearby ws.length c ws ws') : PcGood fl E ivs ws ⟨bins, ivs⟩ := by
  have hn := V.nonempty
  have V' : PcValid digits ivs ws' := ⟨by rw [N.len]; exact V.len, by rw [N.len]; exact V.size, N.nonneg,
    by rw [N.sum]; exact_mod_cast hn, V.sorted, V.repr⟩
  intro xs hO
  obtain ⟨h1, h2⟩ := V'.good (Nearest.rounding H) hE hD hb xs hO
  refine ⟨h1, fun v rest h => ?_⟩
  obtain ⟨⟨i, a, b, w, i1, i2, i3, i4, i5, i6⟩, h4, h5⟩ := h2 v rest h
  refine ⟨?_, h4, h5⟩
  have hi : i < ws.length := by
    rw [← N.len]
    exact (List.getElem?_eq_some_iff.1 i3).1
  refine ⟨i, a, b, ws[i], i1, i2, List.getElem?_eq_getElem hi, fun h0 => i4 ?_, i5, i6⟩
  have := N.zero i (by rw [List.getElem?_eq_getElem hi, h0])
  rw [List.getD_eq_getElem?_getD, i3] at this
  exact this

/-- C167, the iterator constructor (partial: the differences of engine values fit their type, see `c50_signed_false`): with any rounding to nearest of
`digits` digits, in construction as well as in drawing, there is no undefined behaviour; every value lies in an interval whose weight is not zero; the bins have
the requested shares up to `(16n + 18)/2^digits`. -/
theorem c167_iters_partial (H : Nearest digits fl) (hE : EngOK E) (hD : DiffOK E) (ivs ws extra : List ℚ) (V : PcValid digits ivs ws)
    (hn : (8 * ws.length + 10) * ws.length < 2 ^ digits) :
    ∃ d, Pc.ofItersRound fl ivs (ws ++ extra) = some d ∧ PcGood fl E ivs ws d ∧ SharesOf ((16 * ws.length + 18) / 2 ^ digits) ws d := by
  obtain ⟨t, ws', h1, h2, h3⟩ := bins_nearby H [(1, 0)] ws V.nonneg V.pos hn
  have hl := V.len
  have hn := V.nonempty
  refine ⟨⟨t, ivs⟩, ?_, good_of_nearby H hE hD V h2 h3, shares_of_nearby hn h2 h3⟩
  unfold Pc.ofItersRound
  rw [if_neg (by omega), if_pos (by rw [List.length_append]; omega), show ivs.length - 1 = ws.length by omega, List.take_left, h1]
  rfl

/-- C167, the initializer-list constructor (partial as above). -/
theorem c167_list_partial (H : Nearest digits fl) (hE : EngOK E) (hD : DiffOK E) (ivs : List ℚ) (f : ℚ → ℚ)
    (V : PcValid digits ivs ((midpointsRound fl ivs).map f)) (hn : (8 * ((midpointsRound fl ivs).map f).length + 10) * ((midpointsRound fl ivs).map f).length < 2 ^ digits) :
    ∃ d, Pc.ofListRound fl ivs f = some d ∧ PcGood fl E ivs ((midpointsRound fl ivs).map f) d ∧
      SharesOf ((16 * ((midpointsRound fl ivs).map f).length + 18) / 2 ^ digits) ((midpointsRound fl ivs).map f) d := by
  obtain ⟨t, ws', h1, h2, h3⟩ := bins_nearby H [(1, 0)] _ V.nonneg V.pos hn
  have hl := V.len
  have hn := V.nonempty
  refine ⟨⟨t, ivs⟩, ?_, good_of_nearby H hE hD V h2 h3, shares_of_nearby hn h2 h3⟩
  unfold Pc.ofListRound
  rw [if_neg (by omega), h1]
  rfl

/-- C167, the range constructor (partial as above); here the weights are not normalized first. -/
theorem c167_ranges_partial (H : Nearest digits fl) (hE : EngOK E) (hD : DiffOK E) (ivs ws : List ℚ) (V : PcValid digits ivs ws)
    (hn : (8 * ws.length + 10) * ws.length < 2 ^ digits) :
    ∃ d, Pc.ofRangesRound fl ivs ws = some d ∧ PcGood fl E ivs ws d ∧ SharesOf ((8 * ws.length + 10) / 2 ^ digits) ws d := by
  obtain ⟨t, ws', h1, h2, h3⟩ := round_nearby H [] ws V.nonneg V.pos hn
  have hl := V.len
  have hn := V.nonempty
  refine ⟨⟨t, ivs⟩, ?_, good_of_nearby H hE hD V h2 h3, shares_of_nearby hn h2 h3⟩
  unfold Pc.ofRangesRound
  rw [if_neg (by omega), h1]
  rfl

/-- C167, `param(parm)`, whatever was held before (partial as above). -/
theorem c167_set_param_partial (H : Nearest digits fl) (hE : EngOK E) (hD : DiffOK E) (old : Pc) (ivs ws : List ℚ) (V : PcValid digits ivs ws)
    (hn : (8 * ws.length + 10) * ws.length < 2 ^ digits) :
    ∃ d, old.setParamRound fl ⟨ivs, ws⟩ = some d ∧ PcGood fl E ivs ws d ∧ SharesOf ((16 * ws.length + 18) / 2 ^ digits) ws d := by
  obtain ⟨t, ws', h1, h2, h3⟩ := bins_nearby H old.bins ws V.nonneg V.pos hn
  refine ⟨⟨t, ivs⟩, by unfold Pc.setParamRound; rw [h1]; rfl, good_of_nearby H hE hD V h2 h3, shares_of_nearby V.nonempty h2 h3⟩

/-- C167, the function constructor (partial as above, and the rounded boundaries increase; see `c167_func_false`). -/
theorem c167_func_partial (H : Nearest digits fl) (hE : EngOK E) (hD : DiffOK E) (nw n : Nat) (hnw : n = max nw 1) (xmin xmax : ℚ) (f : ℚ → ℚ)
    (V : PcValid digits (boundsRound fl n xmin xmax) ((pointsRound fl n xmin xmax).map f)) (hn : (8 * n + 10) * n < 2 ^ digits) :
    ∃ d, Pc.ofFuncRound fl nw xmin xmax f = some d ∧ PcGood fl E (boundsRound fl n xmin xmax) ((pointsRound fl n xmin xmax).map f) d ∧
      SharesOf ((8 * n + 10) / 2 ^ digits) ((pointsRound fl n xmin xmax).map f) d := by
  have hl : ((pointsRound fl n xmin xmax).map f).length = n := by unfold pointsRound; simp
  obtain ⟨t, ws', h1, h2, h3⟩ := round_nearby H [] _ V.nonneg V.pos (by rw [hl]; exact hn)
  refine ⟨⟨t, boundsRound fl n xmin xmax⟩, ?_, good_of_nearby H hE hD V h2 h3, ?_⟩
  · unfold Pc.ofFuncRound
    have : (if nw = 0 then 1 else nw) = n := by split <;> omega
    rw [this]
    dsimp only
    rw [h1]
    rfl
  · have := shares_of_nearby (d := ⟨t, boundsRound fl n xmin xmax⟩) V.nonempty h2 h3
    rw [hl] at this
    exact this

end

#guard (Pc.ofItersRound (rn 53) [0, 1, 4] [1, 1/3, 7]).map (·.bins) = some [(1, 0), (1/2, 0)]
#guard (Pc.ofItersRound (rn 53) [0, 1, 4] [1, 1/3, 7]).map (fun d => d.next (rn 53) engMt [2 ^ 31, 2 ^ 31, 2 ^ 30, 5]) = some (.done (1/4) [5])
example : PcValid 53 [0, 1, 4] [1, 1/3] :=
  ⟨rfl, by norm_num, by intro x hx; simp only [List.mem_cons, List.not_mem_nil, or_false] at hx; rcases hx with rfl | rfl <;> norm_num, by norm_num, by norm_num, by
    intro x hx
    simp only [List.mem_cons, List.not_mem_nil, or_false] at hx
    rcases hx with rfl | rfl | rfl
    · exact ⟨0, 0, by norm_num, by norm_num⟩
    · exact ⟨1, 0, by norm_num, by norm_num⟩
    · exact ⟨4, 0, by norm_num, by norm_num⟩⟩
#guard boundsRound (rn 53) 4 1 3 = [1, 3/2, 2, 5/2, 3]
#guard pointsRound (rn 53) 4 1 3 = [5/4, 7/4, 9/4, 11/4]

theorem uniformReal_empty {fl : ℚ → ℚ} (E : EngInfo) {a : ℚ} (h0 : fl 0 = 0) (ha : fl a = a) : ∀ (xs : List Int) (v : ℚ) (rest : List Int), uniformReal fl E a a xs ≠ .done v rest
  | [], v, rest => by unfold uniformReal; rintro ⟨⟩
  | x :: xs, v, rest => by
    unfold uniformReal
    cases E.brange with
    | none => rintro ⟨⟩
    | some r =>
      cases E.diff x with
      | none => rintro ⟨⟩
      | some d =>
        simp only [sub_self, h0, mul_zero, zero_add, ha, lt_irrefl, if_false]
        exact uniformReal_empty E h0 ha xs v rest

/-- C167 is false of the function constructor if the intervals are narrower than the spacing of the numbers: with `double` and any rounding to nearest, three
intervals between 1 and the next number have the boundaries 1, 1, 1 + 2^-52, 1 + 2^-52; with all the weight in the last no draw ends, whatever the engine
delivers. -/
theorem c167_func_false {fl : ℚ → ℚ} (H : Nearest 53 fl) {E : EngInfo} (hE : EngOK E) (hD : DiffOK E) :
    ∃ d, Pc.ofFuncRound fl 3 1 (1 + 1 / 2 ^ 52) (fun x => if x = 1 then 0 else 1) = some d ∧ d.intervals = [1, 1, 1 + 1 / 2 ^ 52, 1 + 1 / 2 ^ 52] ∧
      ∀ xs, Outputs E xs → ∀ v rest, d.next fl E xs ≠ .done v rest := by
  have R := Nearest.rounding H
  have rel := fun x => Faure.nearest_rel (by norm_num) H x
  have f0 : fl 0 = 0 := R.exact _ (Representable.zero 53)
  have f1 : fl 1 = 1 := R.exact _ (Representable.one (by norm_num))
  have f2 : fl 2 = 2 := R.exact _ ⟨2, 0, by norm_num, by norm_num⟩
  have f3 : fl 3 = 3 := R.exact _ ⟨3, 0, by norm_num, by norm_num⟩
  have fe : fl (1 / 2 ^ 52) = 1 / 2 ^ 52 := R.exact _ (Representable.inv_two_pow (by norm_num) 52)
  have ftop : fl (1 + 1 / 2 ^ 52) = 1 + 1 / 2 ^ 52 := R.exact _ ⟨2 ^ 52 + 1, -52, by norm_num, by norm_num⟩
  obtain ⟨δ, hδ⟩ : ∃ δ, fl (1 / 2 ^ 52 / 3) = δ := ⟨_, rfl⟩
  have d1 := rel (1 / 2 ^ 52 / 3)
  rw [hδ, abs_of_pos (by norm_num : (0 : ℚ) < 1 / 2 ^ 52 / 3), abs_le] at d1
  obtain ⟨d1, d2⟩ := d1
  have dl : 32 / 100 / 2 ^ 52 < δ := by norm_num at d1 d2 ⊢; linarith
  have du : δ < 34 / 100 / 2 ^ 52 := by norm_num at d1 d2 ⊢; linarith
  have d0 : 0 < δ := lt_trans (by norm_num) dl
  have fδ : fl δ = δ := by rw [← hδ]; exact R.exact _ (R.repr _)
  obtain ⟨e, he⟩ : ∃ e, fl (2 * δ) = e := ⟨_, rfl⟩
  have e1 := rel (2 * δ)
  rw [he, abs_of_pos (by linarith : (0 : ℚ) < 2 * δ), abs_le] at e1
  obtain ⟨e1, e2⟩ := e1
  have el : 6 / 10 / 2 ^ 52 < e := by norm_num at e1 e2 dl du ⊢; linarith
  have eu : e < 7 / 10 / 2 ^ 52 := by norm_num at e1 e2 dl du ⊢; linarith
  obtain ⟨h, hh⟩ : ∃ h, fl (δ / 2) = h := ⟨_, rfl⟩
  have h1 := rel (δ / 2)
  rw [hh, abs_of_pos (by linarith : (0 : ℚ) < δ / 2), abs_le] at h1
  obtain ⟨h1, h2⟩ := h1
  have hl : 1 / 10 / 2 ^ 52 < h := by norm_num at h1 h2 dl du ⊢; linarith
  have hu : h < 2 / 10 / 2 ^ 52 := by norm_num at h1 h2 dl du ⊢; linarith
  have g1 : fl (1 + δ) = 1 := by
    have := fl_near_pow (by norm_num) H (x := 1 + δ) 0 (by norm_num; linarith) (by norm_num at du ⊢; linarith)
    simpa using this
  have g2 : fl (1 + e) = 1 + 1 / 2 ^ 52 := by
    refine fl_round H (2 ^ 52 + 1) (-52) (by norm_num) (by norm_num) (by norm_num) ?_
    rw [abs_lt]
    norm_num at el eu ⊢
    constructor <;> linarith
  have g3 : fl (1 + h) = 1 := by
    have := fl_near_pow (by norm_num) H (x := 1 + h) 0 (by norm_num at hl ⊢; linarith) (by norm_num at hu ⊢; linarith)
    simpa using this
  have g4 : fl (1 + 1 / 2 ^ 52 + h) = 1 + 1 / 2 ^ 52 := by
    refine fl_round H (2 ^ 52 + 1) (-52) (by norm_num) (by norm_num) (by norm_num) ?_
    rw [abs_lt]
    norm_num at hl hu ⊢
    constructor <;> linarith
  have hb : boundsRound fl 3 1 (1 + 1 / 2 ^ 52) = [1, 1, 1 + 1 / 2 ^ 52, 1 + 1 / 2 ^ 52] := by
    unfold boundsRound
    rw [add_sub_cancel_left, show List.range 3 = [0, 1, 2] from rfl]
    simp only [List.map_cons, List.map_nil, Nat.cast_zero, Nat.cast_one, Nat.cast_ofNat, f0, f1, f2, f3, fe, hδ, zero_mul, one_mul, add_zero, fδ, he, g1, g2]
    rfl
  have hp : pointsRound fl 3 1 (1 + 1 / 2 ^ 52) = [1, 1, 1 + 1 / 2 ^ 52] := by
    unfold pointsRound
    rw [add_sub_cancel_left, show List.range 3 = [0, 1, 2] from rfl]
    simp only [List.map_cons, List.map_nil, Nat.cast_zero, Nat.cast_one, Nat.cast_ofNat, f0, f1, f2, f3, fe, hδ, zero_mul, one_mul, add_zero, fδ, he, g1, g2, hh, g3, g4]
  have hw : (pointsRound fl 3 1 (1 + 1 / 2 ^ 52)).map (fun x => if x = 1 then (0 : ℚ) else 1) = [0, 0, 1] := by
    rw [hp]; norm_num
  obtain ⟨t, ws', t1, t2, t3⟩ := round_nearby H [] [0, 0, 1] (by simp) (by simp) (by norm_num)
  refine ⟨⟨t, [1, 1, 1 + 1 / 2 ^ 52, 1 + 1 / 2 ^ 52]⟩, ?_, rfl, fun xs hO v rest => ?_⟩
  · unfold Pc.ofFuncRound
    rw [if_neg (by norm_num)]
    dsimp only
    rw [hw, t1, hb]
    rfl
  · have hlen : ws'.length = 3 := t3.len
    have hbl : t.length = 3 := t2.len.trans hlen
    unfold Pc.next
    have hP : ParamOK ⟨64, false⟩ 0 2 := by
      refine ⟨by decide, by decide, ?_, by omega⟩
      show (0 : Int) ≤ _ ∧ _ < (2 : Int) ^ 64
      omega
    simp only [hbl]
    rw [show ((3 : Nat) : Int) - 1 = 2 from rfl, UniformInt.generate_zero hE hP xs hO]
    cases hK : UniformInt.K E.b (dig E) ((2 : Int).toNat + 1) xs with
    | more => rintro ⟨⟩
    | ub => rintro ⟨⟩
    | done i r1 =>
      obtain ⟨k1, k2⟩ := UniformInt.K_done_lt hE (by decide) hO hK
      have hi : i < ws'.length := by rw [hlen]; exact k1
      have hO1 : Outputs E r1 := fun z hz => hO z (k2.subset hz)
      simp only [Draw.map, Draw.bind, Int.toNat_natCast]
      obtain ⟨u1, u2⟩ := uniform01_range R hE hD r1 hO1
      cases hu : uniform01 fl E r1 with
      | more => rintro ⟨⟩
      | ub => rintro ⟨⟩
      | done x r2 =>
        obtain ⟨x0, x1, _, _⟩ := u2 x r2 hu
        obtain ⟨j, p1, p2, p3⟩ := t2.pick hi x0 x1
        have hj : j = 2 := by
          rw [hlen] at p2
          rcases (by omega : j = 0 ∨ j = 1 ∨ j = 2) with rfl | rfl | rfl
          · exact absurd (t3.zero 0 rfl) p3
          · exact absurd (t3.zero 1 rfl) p3
          · rfl
        subst hj
        simp only
        rw [p1]
        exact uniformReal_empty E f0 ftop r2 v rest

end RealDist
end Boost.Random
