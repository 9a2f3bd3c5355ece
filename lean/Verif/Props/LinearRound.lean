import Verif.Proofs.LinearGrid
import Verif.Props.Mixture

/-!
# C169: `piecewise_linear_distribution` constructed in floating-point arithmetic
-/

namespace Boost.Random
open Spec RealDist

/-- The values have a density proportional to the polygon through the given points, up to `c` in the distribution function. -/
def PlNearLaw (c : ℝ) (intervals weights : List ℚ) (d : Pl) : Prop :=
  ∀ (k : Nat) (t : ℝ), |(chance (k + 4) (fun l => Spec.Run.Le (d.next idealMixed l) t)).toReal -
    (polygonMeasure intervals weights (Set.Iic t) / polygonMeasure intervals weights Set.univ).toReal| ≤ c

theorem PlValid.initRound {p : Nat} {fl : ℚ → ℚ} (H : Nearest p fl) {ivs ws : List ℚ} (V : PlValid ivs ws)
    (hn : (16 * ivs.length + 10) * (2 * ivs.length) < 2 ^ p) (old : List (ℚ × Nat)) :
    ∃ W W' W'' t, binWeights id ivs ws = some W ∧ binWeights fl ivs ws = some W' ∧ W.length = 2 * (ivs.length - 1) ∧ W'.length = 2 * (ivs.length - 1) ∧ 0 < W.sum ∧
      (∀ x ∈ W, 0 ≤ x) ∧ HoldsReal W'' t ∧ Nearby W'.length ((16 * W'.length + 18) / 2 ^ p) W' W'' ∧
      (∀ v, |W''.getD v 0 / W''.sum - W.getD v 0 / W.sum| ≤ (32 * ivs.length + 50) / 2 ^ p) ∧ Pl.initRound fl old ivs ws = some ⟨t, ivs, ws⟩ := by
  have htwo := V.two
  have hne : ivs ≠ [] := by rintro rfl; simp at htwo
  obtain ⟨W, a1, a2⟩ := binWeights_spec id ivs ws hne V.len
  obtain ⟨W', b1, b2⟩ := binWeights_spec fl ivs ws hne V.len
  have hs := binWeights_pos (fl := id) (fun _ h => h) (fun _ h => h) (fun _ h => h) ivs ws W htwo V.sorted V.len V.nonneg a1 V.pos
  have h0 := binWeights_nonneg (fl := id) (fun _ h => h) ivs ws W V.sorted V.nonneg a1
  have hbig : 42 * 4 < 2 ^ p := lt_of_le_of_lt (Nat.mul_le_mul (by omega) (by omega)) hn
  have hp : 1 ≤ p := by
    rcases Nat.eq_zero_or_pos p with rfl | h
    · simp at hbig
    · exact h
  have R := Discrete.rel_of_nearest hp H
  have hu : (1 : ℚ) / 2 ^ p ≤ 1 / 16 := one_div_le_one_div_of_le (by norm_num) (by
    have : 16 ≤ 2 ^ p := by omega
    exact_mod_cast this)
  have hF := Discrete.binWeights_close R (hu.trans (by norm_num)) ivs ws W W' V.sorted V.nonneg a1 b1
  have hup := R.pos
  have hc : 8 * ((1 : ℚ) / 2 ^ p) ≤ 1 / 2 := by linarith
  have hsum := (Discrete.forall2_sum hF).2
  rw [abs_le] at hsum
  have hcs : 8 * ((1 : ℚ) / 2 ^ p) * W.sum ≤ 1 / 2 * W.sum := mul_le_mul_of_nonneg_right hc hs.le
  have h0' := binWeights_nonneg (fl := fl) (fun x hx => R.nonneg hx) ivs ws W' V.sorted V.nonneg b1
  have hWn : (8 * W'.length + 10) * W'.length < 2 ^ p := lt_of_le_of_lt (Nat.mul_le_mul (by omega) (by omega)) hn
  have hW1 : 0 < W'.length := by omega
  obtain ⟨t, W'', t1, t2, t3⟩ := bins_nearby H old W' h0' (by linarith [hsum.1]) hWn
  refine ⟨W, W', W'', t, a1, b1, a2, b2, hs, h0, t2, t3, fun v => ?_, by unfold Pl.initRound; rw [b1, Option.bind_some, t1]; rfl⟩
  have c1 := t3.close v
  have c2 := Discrete.forall2_shares (by positivity) hc hF hs v
  have c3 := abs_sub_le (W''.getD v 0 / W''.sum) (W'.getD v 0 / W'.sum) (W.getD v 0 / W.sum)
  have c4 : (16 * (W'.length : ℚ) + 18) / 2 ^ p ≤ (32 * ivs.length + 18) / 2 ^ p := by
    refine div_le_div_of_nonneg_right ?_ (by positivity)
    have : W'.length ≤ 2 * ivs.length := by omega
    have : (W'.length : ℚ) ≤ 2 * ivs.length := by exact_mod_cast this
    linarith
  have e : (32 * (ivs.length : ℚ) + 50) / 2 ^ p = (32 * ivs.length + 18) / 2 ^ p + 4 * (8 * (1 / 2 ^ p)) := by ring
  rw [t3.sum] at c3 ⊢
  rw [e]
  linarith

theorem PlValid.nearLaw {p : Nat} {fl : ℚ → ℚ} (H : Nearest p fl) {ivs ws : List ℚ} (V : PlValid ivs ws)
    (hn : (16 * ivs.length + 10) * (2 * ivs.length) < 2 ^ p) (old : List (ℚ × Nat)) :
    ∃ d, Pl.initRound fl old ivs ws = some d ∧ PlNearLaw (ivs.length * (64 * ivs.length + 100) / 2 ^ p) ivs ws d := by
  obtain ⟨W, W', W'', t, a1, b1, a2, b2, hs, h0, t2, t3, t4, t5⟩ := V.initRound H hn old
  refine ⟨_, t5, fun k x => ?_⟩
  have htwo := V.two
  obtain ⟨W0, t0, g1, _, g2, g3, g4⟩ := V.init (fl := id) (fun _ h => h) (fun _ h => h) (fun _ h => h) old
  obtain rfl : W = W0 := Option.some.inj (a1.symm.trans g1)
  rw [← pl_law k (d := ⟨t0, ivs, ws⟩) V.len V.sorted (by rintro h; rw [show ivs = [] from h] at htwo; simp at htwo) V.nonneg g1 g2 g3 x]
  unfold Pl.next
  rw [chance_congr (q := fun l => ∃ v s, Discrete.draw t idealMixed l = .done v s ∧ _) fun l => runLe_bind,
    chance_congr (q := fun l => ∃ v s, Discrete.draw t0 idealMixed l = .done v s ∧ _) fun l => runLe_bind]
  have hpos : 0 < W''.sum := by
    rw [t3.sum]
    have : 0 < W'.length := by omega
    exact_mod_cast this
  refine (draw_law_close (k + 2) g2 t2 (by rw [t3.len]; omega) h0 t3.nonneg g3 hpos t4 _).trans ?_
  have hl : W.length ≤ 2 * ivs.length := by omega
  have hl' : (W.length : ℝ) ≤ 2 * ivs.length := by exact_mod_cast hl
  push_cast
  calc (W.length : ℝ) * ((32 * ivs.length + 50) / 2 ^ p) ≤ 2 * ivs.length * ((32 * ivs.length + 50) / 2 ^ p) := mul_le_mul_of_nonneg_right hl' (by positivity)
    _ = _ := by ring

/-- C169, the law: with weights of bins and alias table in floating-point arithmetic, on independent uniform numbers, every constructor and `param(parm)` give
the distribution function of the polygon through the given points, up to `n(64n + 100)/2^p`. -/
theorem c169_law {p : Nat} {fl : ℚ → ℚ} (H : Nearest p fl) (ivs ws extra : List ℚ) (V : PlValid ivs ws) (hn : (16 * ivs.length + 10) * (2 * ivs.length) < 2 ^ p) :
    let c : ℝ := ivs.length * (64 * ivs.length + 100) / 2 ^ p
    (∃ d, Pl.ofItersRound fl ivs (ws ++ extra) = some d ∧ PlNearLaw c ivs ws d) ∧ (∃ d, Pl.ofRangesRound fl ivs ws = some d ∧ PlNearLaw c ivs ws d) ∧
      (∃ d, Pl.ofParamRound fl ⟨ivs, ws⟩ = some d ∧ PlNearLaw c ivs ws d) ∧ ∀ old : Pl, ∃ d, old.setParamRound fl ⟨ivs, ws⟩ = some d ∧ PlNearLaw c ivs ws d := by
  have htwo := V.two
  have hlen := V.len
  refine ⟨?_, ?_, V.nearLaw H hn _, fun old => V.nearLaw H hn _⟩
  · unfold Pl.ofItersRound
    rw [if_neg (by omega), if_pos (by rw [List.length_append]; omega)]
    nth_rw 1 [hlen]
    rw [List.take_left]
    exact V.nearLaw H hn _
  · unfold Pl.ofRangesRound
    rw [if_neg (by omega)]
    exact V.nearLaw H hn _

/-- C169, the law for the constructors that call a function, and for fewer than two boundaries. For `nw` intervals between two numbers the rounded boundaries
must increase. -/
theorem c169_function {p : Nat} {fl : ℚ → ℚ} (H : Nearest p fl) (hp : 8 ≤ p) (f : ℚ → ℚ) :
    (∀ ivs : List ℚ, PlValid ivs (ivs.map f) → (16 * ivs.length + 10) * (2 * ivs.length) < 2 ^ p →
      ∃ d, Pl.ofListRound fl ivs f = some d ∧ PlNearLaw (ivs.length * (64 * ivs.length + 100) / 2 ^ p) ivs (ivs.map f) d) ∧
    (∀ ivs : List ℚ, ivs.length < 2 → ∃ d, Pl.ofListRound fl ivs f = some d ∧ PlNearLaw (456 / 2 ^ p) [0, 1] [1, 1] d) ∧
    ∀ (nw : Nat) (xmin xmax : ℚ) (ivs : List ℚ), ivs = boundsRound fl (if nw = 0 then 1 else nw) xmin xmax → PlValid ivs (ivs.map f) →
      (16 * ivs.length + 10) * (2 * ivs.length) < 2 ^ p →
        ∃ d, Pl.ofFuncRound fl nw xmin xmax f = some d ∧ PlNearLaw (ivs.length * (64 * ivs.length + 100) / 2 ^ p) ivs (ivs.map f) d := by
  refine ⟨fun ivs V hn => ?_, fun ivs h => ?_, fun nw xmin xmax ivs hi V hn => ?_⟩
  · have htwo := V.two
    unfold Pl.ofListRound
    rw [if_neg (by omega)]
    exact V.nearLaw H hn _
  · unfold Pl.ofListRound
    rw [if_pos h]
    have V : PlValid [0, 1] [1, 1] := ⟨rfl, by simp, by simp, ⟨1, by simp, by norm_num⟩, by norm_num⟩
    have h8 : 2 ^ 8 ≤ 2 ^ p := Nat.pow_le_pow_right (by norm_num) hp
    obtain ⟨d, h1, h2⟩ := V.nearLaw H (lt_of_lt_of_le (by norm_num) h8) [(1, 0)]
    refine ⟨d, h1, ?_⟩
    norm_num at h2
    exact h2
  · subst hi
    exact V.nearLaw H hn _

#guard (Pl.ofRangesRound (rn 53) [0, 1, 3] [0, 2, 1]).map (·.intervals) = some [0, 1, 3]
example : PlValid [0, 1/3, 3] [0, 2, 1/7] ∧ (16 * [(0 : ℚ), 1/3, 3].length + 10) * (2 * [(0 : ℚ), 1/3, 3].length) < 2 ^ 53 :=
  ⟨⟨rfl, by simp, by simp, ⟨2, by simp, by norm_num⟩, by norm_num⟩, by norm_num⟩

theorem PlValid.goodRound {o : RealOps ℚ} {E : EngInfo} (N : Nearest 53 o.fl) (hE : EngOK E) (hD : DiffOK E) {ivs ws : List ℚ} (V : PlValid ivs ws)
    (hn : (16 * ivs.length + 10) * (2 * ivs.length) < 2 ^ 53) (hr : ∀ x ∈ ivs, Representable 53 x) (old : List (ℚ × Nat)) :
    ∃ d, Pl.initRound o.fl old ivs ws = some d ∧ PlGood o E ivs ws d := by
  have H := Nearest.rounding N
  have hf0 : o.fl 0 = 0 := H.exact 0 (Representable.zero _)
  obtain ⟨W, W', W'', t, _, h1, _, h2, _, _, h3, h4, _, h5⟩ := V.initRound N hn old
  refine ⟨_, h5, fun n xs hO => ?_⟩
  have htwo := V.two
  have hlen := V.len
  have hsize : ivs.length ≤ 2 ^ 31 := by
    by_contra hc
    have h1 : 2 ^ 31 < ivs.length := by omega
    have h2 : 2 ^ 31 * 2 ^ 31 ≤ (16 * ivs.length + 10) * (2 * ivs.length) := Nat.mul_le_mul (by omega) (by omega)
    omega
  have hl'' := h4.len
  have key : SafeRun (fun x => ∃ i a b v w, ivs[i]? = some a ∧ ivs[i + 1]? = some b ∧ ws[i]? = some v ∧ ws[i + 1]? = some w ∧ (0 < v ∨ 0 < w) ∧ a ≤ x ∧ x < b) E
      (Pl.next ⟨t, ivs, ws⟩ (engineMixed o E ⟨64, false⟩ n)) := by
    refine (draw_safe H hE hD n h3 (by omega) ⟨by decide, by decide, ?_, by omega⟩).bind fun i hi => ?_
    · show (0 : Int) ≤ _ ∧ _ < (2 : Int) ^ 64
      omega
    · have g1 : i / 2 < ivs.length := by omega
      have g2 : i / 2 + 1 < ivs.length := by omega
      have g3 : i / 2 < ws.length := by omega
      have g4 : i / 2 + 1 < ws.length := by omega
      have hab : ivs[i / 2] < ivs[i / 2 + 1] := List.pairwise_iff_getElem.1 V.sorted _ _ _ _ (by omega)
      have e1 := List.getElem?_eq_getElem g1
      have e2 := List.getElem?_eq_getElem g2
      have e3 := List.getElem?_eq_getElem g3
      have e4 := List.getElem?_eq_getElem g4
      have hvw : 0 < ws[i / 2] ∨ 0 < ws[i / 2 + 1] := by
        by_contra h
        rw [not_or, not_lt, not_lt] at h
        have hz := binWeights_zero hf0 ivs ws W' i _ _ hlen h1 e3 e4 (le_antisymm h.1 (V.nonneg _ (List.getElem_mem _)))
          (le_antisymm h.2 (V.nonneg _ (List.getElem_mem _)))
        have hiW : i < W'.length := by omega
        rw [List.getD_eq_getElem?_getD, List.getElem?_eq_getElem hiW, Option.getD_some] at hz
        exact hi.2 (h4.zero i (by rw [List.getElem?_eq_getElem hiW, hz]))
      have R := real_safe H hE ⟨64, false⟩ n hab (hr _ (List.getElem_mem g1))
      simp only [e1, e2, e3, e4, if_pos hab, Rat.cast_id]
      split
      · exact R.mono fun x hx => ⟨i / 2, _, _, _, _, e1, e2, e3, e4, hvw, hx⟩
      · refine R.bind fun x hx => R.bind fun y hy => SafeRun.done ⟨i / 2, _, _, _, _, e1, e2, e3, e4, hvw, ?_⟩
        split
        · exact ⟨le_max_of_le_left hx.1, max_lt hx.2 hy.2⟩
        · exact ⟨le_min hx.1 hy.1, min_lt_of_left_lt hx.2⟩
  obtain ⟨k1, k2⟩ := key xs hO
  refine ⟨k1, fun x rest h => ?_⟩
  obtain ⟨⟨i, a, b, v, w, q1, q2, q3, q4, q5, q6, q7⟩, k3⟩ := k2 x rest h
  exact ⟨⟨i, a, b, v, w, q1, q2, q3, q4, q5, q6, q7⟩, interval_bounds V.sorted q1 q2 q6 q7, k3⟩

/-- C169, the range (partial: the differences of engine values fit their type, see `c50_signed_false`): with construction and drawing in floating-point
arithmetic, every constructor and `param(parm)` give a distribution whose values lie where the density is not zero. -/
theorem c169_range_partial {o : RealOps ℚ} {E : EngInfo} (N : Nearest 53 o.fl) (hE : EngOK E) (hD : DiffOK E) (ivs ws extra : List ℚ) (V : PlValid ivs ws)
    (hn : (16 * ivs.length + 10) * (2 * ivs.length) < 2 ^ 53) (hr : ∀ x ∈ ivs, Representable 53 x) :
    (∃ d, Pl.ofItersRound o.fl ivs (ws ++ extra) = some d ∧ PlGood o E ivs ws d) ∧ (∃ d, Pl.ofRangesRound o.fl ivs ws = some d ∧ PlGood o E ivs ws d) ∧
      (∃ d, Pl.ofParamRound o.fl ⟨ivs, ws⟩ = some d ∧ PlGood o E ivs ws d) ∧
      (∀ old : Pl, ∃ d, old.setParamRound o.fl ⟨ivs, ws⟩ = some d ∧ PlGood o E ivs ws d) ∧
      ∀ f : ℚ → ℚ, ws = ivs.map f → (∃ d, Pl.ofListRound o.fl ivs f = some d ∧ PlGood o E ivs ws d) ∧
        ∀ (nw : Nat) (xmin xmax : ℚ), ivs = boundsRound o.fl (if nw = 0 then 1 else nw) xmin xmax →
          ∃ d, Pl.ofFuncRound o.fl nw xmin xmax f = some d ∧ PlGood o E ivs ws d := by
  have htwo := V.two
  have hlen := V.len
  refine ⟨?_, ?_, V.goodRound N hE hD hn hr _, fun old => V.goodRound N hE hD hn hr _, fun f hf => ⟨?_, fun nw xmin xmax hi => ?_⟩⟩
  · unfold Pl.ofItersRound
    rw [if_neg (by omega), if_pos (by rw [List.length_append]; omega), hlen, List.take_left]
    exact V.goodRound N hE hD hn hr _
  · unfold Pl.ofRangesRound
    rw [if_neg (by omega)]
    exact V.goodRound N hE hD hn hr _
  · unfold Pl.ofListRound
    rw [if_neg (by omega), ← hf]
    exact V.goodRound N hE hD hn hr _
  · unfold Pl.ofFuncRound
    simp only
    rw [← hi, ← hf]
    exact V.goodRound N hE hD hn hr _

/-- C169, the constructor from a function (partial: the differences of engine values as above): for any numbers `xmin < xmax`, however close, the rounded
boundaries go from `xmin` to `xmax` without decreasing, intervals without width are never drawn, and so every draw is between `xmin` and `xmax`, where the
density is not zero (unlike `piecewise_constant_distribution`, `c167_func_false`). -/
theorem c169_grid_partial {o : RealOps ℚ} {E : EngInfo} (N : Nearest 53 o.fl) (hE : EngOK E) (hD : DiffOK E) (nw : Nat) (xmin xmax : ℚ) (f : ℚ → ℚ) (hx : xmin < xmax)
    (hmin : Representable 53 xmin) (hmax : Representable 53 xmax) (ivs : List ℚ) (hivs : ivs = boundsRound o.fl (if nw = 0 then 1 else nw) xmin xmax)
    (hf : ∀ x ∈ ivs, 0 ≤ f x) (hpos : ∃ x ∈ ivs, 0 < f x) (hn : (16 * ivs.length + 10) * (2 * ivs.length) < 2 ^ 53) :
    ivs.head? = some xmin ∧ ivs.getLast? = some xmax ∧ ∃ d, Pl.ofFuncRound o.fl nw xmin xmax f = some d ∧ PlGood o E ivs (ivs.map f) d := by
  have H := Nearest.rounding N
  have Q := Discrete.rel_of_nearest (by norm_num) N
  have hf0 := Q.zero
  have hu1 : (1 : ℚ) / 2 ^ 53 < 1 := by norm_num
  have hm : 0 < (if nw = 0 then 1 else nw) := by split <;> omega
  have hl : ivs.length = (if nw = 0 then 1 else nw) + 1 := by rw [hivs, boundsRound_length]
  have hsize : ivs.length ≤ 2 ^ 31 := by
    by_contra hc
    have h1 : 2 ^ 31 < ivs.length := by omega
    have h2 : 2 ^ 31 * 2 ^ 31 ≤ (16 * ivs.length + 10) * (2 * ivs.length) := Nat.mul_le_mul (by omega) (by omega)
    omega
  obtain ⟨hs, hh, hg, hr⟩ := boundsRound_spec N hm (by omega) hx hmin hmax
  have hd : Pl.ofFuncRound o.fl nw xmin xmax f = Pl.initRound o.fl [(1, 0)] ivs (ivs.map f) := by unfold Pl.ofFuncRound; rw [hivs]
  rw [← hivs] at hs hh hg hr
  refine ⟨hh, hg, ?_⟩
  rw [hd]
  obtain ⟨ws, hws⟩ : ∃ ws, ivs.map f = ws := ⟨_, rfl⟩
  have hlen : ivs.length = ws.length := by rw [← hws, List.length_map]
  have hnonneg : ∀ w ∈ ws, 0 ≤ w := by
    intro w hw
    rw [← hws] at hw
    obtain ⟨x, hx, rfl⟩ := List.mem_map.1 hw
    exact hf x hx
  obtain ⟨W', h1, h2⟩ := binWeights_spec o.fl ivs ws (by rintro h; rw [h] at hl; simp at hl) hlen
  have h0' := binWeights_nonneg_le (fl := o.fl) (fun x hx => Q.nonneg hx) ivs ws W' hs hnonneg h1
  have hsum : 0 < W'.sum := binWeights_pos_le (fl := o.fl) (fun x hx => Q.nonneg hx) (fun x hx => Q.fpos hu1 hx) (fun x hx => Q.ne hu1 hx) f ivs W' hs hf
    (by rw [hws]; exact h1) hpos ⟨xmin, List.mem_of_mem_head? hh, xmax, List.mem_of_mem_getLast? hg, hx⟩
  have hWn : (8 * W'.length + 10) * W'.length < 2 ^ 53 := lt_of_le_of_lt (Nat.mul_le_mul (by omega) (by omega)) hn
  obtain ⟨t, W'', t1, h3, h4⟩ := bins_nearby N [(1, 0)] W' h0' hsum hWn
  rw [hws]
  refine ⟨⟨t, ivs, ws⟩, by unfold Pl.initRound; rw [h1, Option.bind_some, t1]; rfl, fun n xs hO => ?_⟩
  have hl'' := h4.len
  have key : SafeRun (fun x => ∃ i a b v w, ivs[i]? = some a ∧ ivs[i + 1]? = some b ∧ ws[i]? = some v ∧ ws[i + 1]? = some w ∧ (0 < v ∨ 0 < w) ∧ a ≤ x ∧ x < b) E
      (Pl.next ⟨t, ivs, ws⟩ (engineMixed o E ⟨64, false⟩ n)) := by
    refine (draw_safe H hE hD n h3 (by omega) ⟨by decide, by decide, ?_, by omega⟩).bind fun i hi => ?_
    · show (0 : Int) ≤ _ ∧ _ < (2 : Int) ^ 64
      omega
    · have g1 : i / 2 < ivs.length := by omega
      have g2 : i / 2 + 1 < ivs.length := by omega
      have g3 : i / 2 < ws.length := by omega
      have g4 : i / 2 + 1 < ws.length := by omega
      have e1 := List.getElem?_eq_getElem g1
      have e2 := List.getElem?_eq_getElem g2
      have e3 := List.getElem?_eq_getElem g3
      have e4 := List.getElem?_eq_getElem g4
      have hiW : i < W'.length := by omega
      have zero : W'.getD i 0 = 0 → False := by
        intro hz
        rw [List.getD_eq_getElem?_getD, List.getElem?_eq_getElem hiW, Option.getD_some] at hz
        exact hi.2 (h4.zero i (by rw [List.getElem?_eq_getElem hiW, hz]))
      have hab : ivs[i / 2] < ivs[i / 2 + 1] := by
        refine lt_of_le_of_ne (List.pairwise_iff_getElem.1 hs _ _ _ _ (by omega)) fun e => zero ?_
        exact binWeights_flat hf0 ivs ws W' i _ hlen h1 e1 (e2.trans (by rw [e]))
      have hvw : 0 < ws[i / 2] ∨ 0 < ws[i / 2 + 1] := by
        by_contra h
        rw [not_or, not_lt, not_lt] at h
        exact zero (binWeights_zero hf0 ivs ws W' i _ _ hlen h1 e3 e4 (le_antisymm h.1 (hnonneg _ (List.getElem_mem _)))
          (le_antisymm h.2 (hnonneg _ (List.getElem_mem _))))
      have R := real_safe H hE ⟨64, false⟩ n hab (hr _ (List.getElem_mem g1))
      simp only [e1, e2, e3, e4, if_pos hab, Rat.cast_id]
      split
      · exact R.mono fun x hx => ⟨i / 2, _, _, _, _, e1, e2, e3, e4, hvw, hx⟩
      · refine R.bind fun x hx => R.bind fun y hy => SafeRun.done ⟨i / 2, _, _, _, _, e1, e2, e3, e4, hvw, ?_⟩
        split
        · exact ⟨le_max_of_le_left hx.1, max_lt hx.2 hy.2⟩
        · exact ⟨le_min hx.1 hy.1, min_lt_of_left_lt hx.2⟩
  obtain ⟨k1, k2⟩ := key xs hO
  refine ⟨k1, fun x rest h => ?_⟩
  obtain ⟨⟨i, a, b, v, w, q1, q2, q3, q4, q5, q6, q7⟩, k3⟩ := k2 x rest h
  exact ⟨⟨i, a, b, v, w, q1, q2, q3, q4, q5, q6, q7⟩, interval_bounds_le hs q1 q2 q6 q7, k3⟩

-- three intervals between neighbouring numbers, two of them without width
#guard boundsRound (rn 53) 3 1 (1 + 1 / 2 ^ 52) = [1, 1, 1 + 1 / 2 ^ 52, 1 + 1 / 2 ^ 52]
#guard (Pl.ofFuncRound (rn 53) 3 1 (1 + 1 / 2 ^ 52) fun _ => 1).map (·.bins) =
  some [(0, 2), (0, 2), (1, 0), (0, 2), (0, 2), (0, 2)]
#guard boundsRound (rn 53) 4 0 1 = [0, 1/4, 1/2, 3/4, 1]
#guard (Pl.ofFuncRound (rn 53) 4 0 1 fun x => x * x).isSome
example : PlValid [0, 1/4, 1/2, 3/4, 1] ([0, 1/4, 1/2, 3/4, 1].map fun x => x * x) := ⟨rfl, by simp, by norm_num, ⟨1, by norm_num, by norm_num⟩, by norm_num⟩

end Boost.Random
