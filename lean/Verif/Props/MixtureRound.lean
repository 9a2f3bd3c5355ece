import Verif.Proofs.GridRound
import Verif.Props.PiecewiseRound
import Verif.Props.HyperRound

/-!
# C167 and C168: the distribution functions, with construction in floating-point arithmetic
-/

namespace Boost.Random
open Spec RealDist

/-- The values follow the mixture of the uniform distributions on the intervals, up to `c` in the distribution function. -/
def PcNearLaw (c : ℝ) (intervals weights : List ℚ) (d : Pc) : Prop :=
  ∀ (k : Nat) (t : ℝ), |(chance (k + 3) (fun l => Spec.Run.Le (d.sample idealMixed l) t)).toReal - (stepMeasure intervals weights (Set.Iic t)).toReal| ≤ c

theorem pc_near {ivs ws ws' : List ℚ} {t : List (ℚ × Nat)} {c : ℚ} (hl : ivs.length = ws.length + 1) (h0 : ∀ x ∈ ws, 0 ≤ x) (hs : 0 < ws.sum)
    (hp : ivs.Pairwise (· < ·)) (H : HoldsReal ws' t) (N : Nearby ws.length c ws ws') : PcNearLaw (ws.length * c) ivs ws ⟨t, ivs⟩ := by
  have hn : 0 < ws.length := List.length_pos_iff.2 (by rintro rfl; simp at hs)
  obtain ⟨t0, _, g2⟩ := realInit_holds [] ws h0 hs
  intro k x
  rw [← pc_law k (d := ⟨t0, ivs⟩) hl hp g2 hs x]
  unfold RealDist.Pc.sample
  rw [chance_congr (q := fun l => ∃ v s, Discrete.draw t idealMixed l = .done v s ∧ _) fun l => runLe_bind,
    chance_congr (q := fun l => ∃ v s, Discrete.draw t0 idealMixed l = .done v s ∧ _) fun l => runLe_bind]
  exact draw_law_close (k + 1) g2 H N.len h0 N.nonneg hs (by rw [N.sum]; exact_mod_cast hn) (fun v => by rw [N.sum]; exact N.close v) _

/-- C167, the law: with the alias table in floating-point arithmetic, on independent uniform numbers, every constructor and `param(parm)` give the
distribution function of the mixture asked for, up to `n(16n + 18)/2^p`. -/
theorem c167_law {p : Nat} {fl : ℚ → ℚ} (H : Nearest p fl) (ivs ws extra : List ℚ) (hl : ivs.length = ws.length + 1) (h0 : ∀ x ∈ ws, 0 ≤ x) (hs : 0 < ws.sum)
    (hp : ivs.Pairwise (· < ·)) (hn : (8 * ws.length + 10) * ws.length < 2 ^ p) :
    let c : ℝ := ws.length * (16 * ws.length + 18) / 2 ^ p
    (∃ d, Pc.ofItersRound fl ivs (ws ++ extra) = some d ∧ PcNearLaw c ivs ws d) ∧ (∃ d, Pc.ofRangesRound fl ivs ws = some d ∧ PcNearLaw c ivs ws d) ∧
      ∀ old : Pc, ∃ d, old.setParamRound fl ⟨ivs, ws⟩ = some d ∧ PcNearLaw c ivs ws d := by
  intro c
  have hn0 : 0 < ws.length := List.length_pos_iff.2 (by rintro rfl; simp at hs)
  have hc : ((ws.length : ℝ) * ((16 * ws.length + 18) / 2 ^ p : ℚ)) = c := by
    push_cast
    show _ = (ws.length : ℝ) * (16 * ws.length + 18) / 2 ^ p
    ring
  have B : ∀ old, ∃ t, binsRound fl old ws = some t ∧ PcNearLaw c ivs ws ⟨t, ivs⟩ := by
    intro old
    obtain ⟨t, ws', t1, t2, t3⟩ := bins_nearby H old ws h0 hs hn
    exact ⟨t, t1, hc ▸ pc_near hl h0 hs hp t2 t3⟩
  refine ⟨?_, ?_, fun old => ?_⟩
  · obtain ⟨t, t1, t2⟩ := B [(1, 0)]
    refine ⟨_, ?_, t2⟩
    unfold Pc.ofItersRound
    rw [if_neg (by omega), if_pos (by rw [List.length_append]; omega), show ivs.length - 1 = ws.length by omega, List.take_left, t1]
    rfl
  · obtain ⟨t, ws', t1, t2, t3⟩ := round_nearby H [] ws h0 hs hn
    refine ⟨⟨t, ivs⟩, ?_, fun k x => (pc_near hl h0 hs hp t2 t3 k x).trans ?_⟩
    · unfold Pc.ofRangesRound
      rw [t1, if_neg (by omega)]
      rfl
    · rw [← hc]
      refine mul_le_mul_of_nonneg_left ?_ (by positivity)
      have : (8 * (ws.length : ℚ) + 10) / 2 ^ p ≤ (16 * ws.length + 18) / 2 ^ p := div_le_div_of_nonneg_right (by linarith [(Nat.cast_nonneg ws.length : (0 : ℚ) ≤ _)]) (by positivity)
      exact_mod_cast this
  · obtain ⟨t, t1, t2⟩ := B old.bins
    exact ⟨_, by unfold Pc.setParamRound; rw [t1]; rfl, t2⟩

example : [(0 : ℚ), 1/3, 3].Pairwise (· < ·) ∧ (8 * [(2 : ℚ), 1/7].length + 10) * [(2 : ℚ), 1/7].length < 2 ^ 53 := ⟨by norm_num, by norm_num⟩
#guard (Pc.ofRangesRound (rn 53) [0, 1/3, 3] [2, 1/7]).isSome

/-- C167, where the initializer-list constructor calls the function: between neighbouring boundaries, at their midpoint up to one rounding. -/
theorem c167_midpoints {p : Nat} {fl : ℚ → ℚ} (hp : 1 ≤ p) (H : Nearest p fl) (ivs : List ℚ) (hr : ∀ x ∈ ivs, Representable p x) (i : Nat) (a b : ℚ)
    (ha : ivs[i]? = some a) (hb : ivs[i + 1]? = some b) (hab : a ≤ b) :
    ∃ m, (midpointsRound fl ivs)[i]? = some m ∧ a ≤ m ∧ m ≤ b ∧ |m - (a + b) / 2| ≤ |a + b| / 2 / 2 ^ p :=
  ⟨_, midpointsRound_get ivs i a b ha hb, midpoint_round hp H (hr a (List.mem_of_getElem? ha)) (hr b (List.mem_of_getElem? hb)) hab⟩

#guard midpointsRound (rn 53) [0, 1, 4] = [1/2, 5/2]

/-- C167, the grid of the function constructor: it goes from `xmin` to `xmax`, and boundaries and points where the function is called are those of `n` equal
intervals up to `16M/2^p` and `24M/2^p`, `M` the larger of the absolute values of `xmin` and `xmax`. -/
theorem c167_grid {p : Nat} {fl : ℚ → ℚ} (H : Nearest p fl) (n : Nat) (hn : 0 < n) (hnp : 4 * n ≤ 2 ^ p) (xmin xmax : ℚ) (h : xmin < xmax)
    (hmin : Representable p xmin) (hmax : Representable p xmax) :
    (boundsRound fl n xmin xmax).length = n + 1 ∧ (boundsRound fl n xmin xmax).head? = some xmin ∧ (boundsRound fl n xmin xmax).getLast? = some xmax ∧
      (boundsRound fl n xmin xmax).Pairwise (· ≤ ·) ∧ (pointsRound fl n xmin xmax).length = n ∧
      ∀ k < n, (∃ x, (boundsRound fl n xmin xmax)[k]? = some x ∧ |x - (xmin + k * ((xmax - xmin) / n))| ≤ 16 * max |xmin| |xmax| / 2 ^ p) ∧
        ∃ x, (pointsRound fl n xmin xmax)[k]? = some x ∧ |x - (xmin + (k + 1 / 2) * ((xmax - xmin) / n))| ≤ 24 * max |xmin| |xmax| / 2 ^ p := by
  obtain ⟨a1, a2, a3, _⟩ := boundsRound_spec H hn hnp h hmin hmax
  refine ⟨boundsRound_length _ _ _ _, a2, a3, a1, by unfold pointsRound; simp, fun k hk => ?_⟩
  have G := grid_round H hk hnp h (le_max_left _ _) (le_max_right |xmin| |xmax|)
  refine ⟨⟨_, ?_, G.1⟩, ⟨_, ?_, G.2⟩⟩
  · unfold boundsRound
    rw [List.getElem?_append_left (by simpa using hk), List.getElem?_map, List.getElem?_range hk, Option.map_some]
  · unfold pointsRound
    rw [List.getElem?_map, List.getElem?_range hk, Option.map_some]

example : (0 : Nat) < 3 ∧ 4 * 3 ≤ 2 ^ 53 ∧ (1 : ℚ) < 3 ∧ Representable 53 1 ∧ Representable 53 3 :=
  ⟨by norm_num, by norm_num, by norm_num, ⟨1, 0, by norm_num, by norm_num⟩, ⟨3, 0, by norm_num, by norm_num⟩⟩

namespace Hyperexponential

/-- The values follow the mixture of exponential distributions, up to `c` in the distribution function. -/
def NearLaw (c : ℝ) (probs rates : List ℚ) (d : Dist) : Prop :=
  ∀ (k : Nat) (t : ℝ), |(chance (k + 3) (fun l => Spec.Run.Le (d.next exactOps idealMixed l) t)).toReal - (hyperexponentialMeasure probs rates (Set.Iic t)).toReal| ≤ c

theorem hyper_near {probs rates ps' : List ℚ} {t : List (ℚ × Nat)} {c : ℚ} (V : Valid probs rates) (H : HoldsReal ps' t)
    (N : Nearby probs.length c probs ps') : NearLaw (probs.length * c) probs rates ⟨t, rates⟩ := by
  have hs := V.pos
  have hn : 0 < probs.length := List.length_pos_iff.2 (by rintro rfl; simp at hs)
  obtain ⟨t0, _, g2⟩ := realInit_holds [] probs V.nonneg hs
  intro k x
  rw [← hyper_law k (d := ⟨t0, rates⟩) V.len V.rate g2 hs x]
  unfold Dist.next
  rw [chance_congr (q := fun l => ∃ v s, Discrete.draw t idealMixed l = .done v s ∧ _) fun l => runLe_bind,
    chance_congr (q := fun l => ∃ v s, Discrete.draw t0 idealMixed l = .done v s ∧ _) fun l => runLe_bind]
  exact draw_law_close (k + 1) g2 H N.len V.nonneg N.nonneg hs (by rw [N.sum]; exact_mod_cast hn) (fun v => by rw [N.sum]; exact N.close v) _

/-- C168, the distribution function: that of the mixture asked for, up to `n(8n + 10)/2^p`, or `n(16n + 18)/2^p` if set by `param`. -/
theorem c168_distribution {p : Nat} {fl : ℚ → ℚ} (H : Nearest p fl) (probs rates : List ℚ) (V : Valid probs rates) (hn : (8 * probs.length + 10) * probs.length < 2 ^ p) :
    (∃ d, Dist.makeRound fl probs rates = some d ∧ NearLaw (probs.length * (8 * probs.length + 10) / 2 ^ p) probs rates d) ∧
      ∀ old : Dist, ∃ d, old.setParamRound fl ⟨probs, rates⟩ = some d ∧ NearLaw (probs.length * (16 * probs.length + 18) / 2 ^ p) probs rates d := by
  constructor
  · obtain ⟨t, ps', h1, h2, h3⟩ := make_round H probs rates V.nonneg V.pos hn
    rw [if_pos ⟨V.len, V.rate⟩] at h3
    have := hyper_near V h1 h2
    push_cast at this
    rw [← mul_div_assoc] at this
    exact ⟨_, h3, this⟩
  · intro old
    obtain ⟨t, ps', h1, h2, h3⟩ := bins_nearby H old.dd probs V.nonneg V.pos hn
    have := hyper_near V h2 h3
    push_cast at this
    rw [← mul_div_assoc] at this
    exact ⟨⟨t, rates⟩, by unfold Dist.setParamRound; rw [h1]; rfl, this⟩

#guard (Dist.makeRound (rn 53) [1, 3, 1/7] [2, 5, 1/9]).isSome

end Hyperexponential
end Boost.Random
