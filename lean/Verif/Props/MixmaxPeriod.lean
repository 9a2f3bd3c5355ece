import Verif.Proofs.MixmaxSequence

/-!
# The period of mixmax, and that different seeds give different sequences (C159)
-/

namespace Boost.Random
open Spec Mixmax

/-- C159: after `(p^17 - 1)/(p - 1)` applications of the matrix every vector is back. -/
theorem c159_returns (x : Fin 17 → ZMod mixP) : (mixA17 ^ mixPhi 17).mulVec x = x := by
  rw [matA_pow, Matrix.one_mulVec]

/-- The published period is about `10^294`. -/
example : 10 ^ 293 < mixPhi 17 ∧ mixPhi 17 < 10 ^ 294 := by decide +kernel

/-- C159: no vector other than zero is back after a number of applications that is not a multiple of
`336688632201494597573`. -/
theorem c159_fixed (x : Fin 17 → ZMod mixP) (hx : x ≠ 0) (k : Nat) (h : (mixA17 ^ k).mulVec x = x) :
    336688632201494597573 ∣ k := by
  have := dvd_of_fixed x hx k h
  rwa [show mixQ1 * mixQ2 = 336688632201494597573 by decide] at this

example : mixE0 ≠ 0 ∧ (mixA17 ^ mixPhi 17).mulVec mixE0 = mixE0 ∧ 336688632201494597573 ∣ mixPhi 17 := by
  refine ⟨fun h => ?_, c159_returns _, by decide +kernel⟩
  have := congrFun h 0
  revert this
  decide

/-- C159 (partial): from every well-formed state whose vector is not zero modulo `p`, calls are never undefined,
the values repeat modulo `p` after `16 · (p^17 - 1)/(p - 1)` calls, and whenever they repeat, from whatever call
on, it is after a multiple of `336688632201494597573 > 2^68` calls. Missing: that no shorter period than the
published one exists; it rests on the other prime factors of `(p^17 - 1)/(p - 1)`. -/
theorem c159_period_partial (S : State) (h : MixOK 17 S) (hne : mixVec 17 S.V ≠ 0) : ∃ V : Nat → Nat,
    (∀ n, ∃ S', run (Mixmax.next 36) n S = some ((List.range n).map V, S')) ∧ MixRepeats V (16 * mixPhi 17) ∧
      ∀ P, MixRepeats V P → 336688632201494597573 ∣ P := by
  obtain ⟨V, hrun, hV⟩ := mix_values S h
  refine ⟨V, hrun, ⟨0, fun n _ => ?_⟩, ?_⟩
  · rw [mix_cast, hV, hV]
    have e1 : (n + 16 * mixPhi 17 + (S.counter - 1)) / 16 = (n + (S.counter - 1)) / 16 + mixPhi 17 := by
      generalize mixPhi 17 = F
      omega
    have e2 : (n + 16 * mixPhi 17 + (S.counter - 1)) % 16 = (n + (S.counter - 1)) % 16 := by
      generalize mixPhi 17 = F
      omega
    rw [e1, pow_add, ← Matrix.mulVec_mulVec, c159_returns]
    congr 1
    exact Fin.ext (congrArg (1 + ·) e2)
  · rintro P ⟨n0, hP⟩
    refine c159_fixed _ hne P (vec_eq _ _ (n0 + 2) fun k hk i hi => ?_)
    rw [Matrix.mulVec_mulVec, ← pow_add, ← mix_at h.counter_le hV (k + P) i hi (by omega),
      ← mix_at h.counter_le hV k i hi (by omega), ← mix_cast]
    have hi2 := i.2
    have hc := h.counter_le
    rw [show 16 * (k + P) + ((i : Nat) - 1) - (S.counter - 1) = 16 * k + (i - 1) - (S.counter - 1) + P * 16 by omega]
    exact repeats_mul hP 16 _ (by omega)

/-- A state that meets the hypotheses: the one `seed_vielbein` makes. -/
example : MixOK 17 { Mixmax.seedVielbein 17 0 with counter := 1 } ∧
    mixVec 17 ({ Mixmax.seedVielbein 17 0 with counter := 1 } : State).V ≠ 0 :=
  ⟨mix_unit_ok 17 (by decide), by
    show mixVec 17 (1 :: List.replicate 16 0) ≠ 0
    rw [mixE0_eq]
    exact mixE0_ne⟩

/-- C159: the values returned from some call on determine the vector: two engines at the same
place of their vectors agree modulo `p` from some call on exactly if they hold the same vector modulo `p`. -/
theorem c159_determined (S T : State) (hS : MixOK 17 S) (hT : MixOK 17 T) (hc : S.counter = T.counter) :
    ∃ V W : Nat → Nat, (∀ n, ∃ S', run (Mixmax.next 36) n S = some ((List.range n).map V, S')) ∧
      (∀ n, ∃ T', run (Mixmax.next 36) n T = some ((List.range n).map W, T')) ∧
      (MixAgree V W ↔ mixVec 17 S.V = mixVec 17 T.V) := by
  obtain ⟨V, hrun, hV⟩ := mix_values S hS
  obtain ⟨W, hrun', hW⟩ := mix_values T hT
  refine ⟨V, W, hrun, hrun', ?_, fun e => ⟨0, fun n _ => ?_⟩⟩
  · rintro ⟨n0, h⟩
    refine vec_eq _ _ (n0 + 2) fun k hk i hi => ?_
    rw [← mix_at hS.counter_le hV k i hi (by omega), ← mix_at hT.counter_le hW k i hi (by omega), ← mix_cast, hc]
    have hi2 := i.2
    have := hT.counter_le
    exact h _ (by omega)
  · rw [mix_cast, hV, hW, e]
    simp only [hc]

/-- C159: two different 64-bit seeds never give sequences that agree from some call on: after any number of
calls there is a call at which the values of the two engines differ, even modulo `p`. -/
theorem c159_seeds (a b : Nat) (ha : a < 2 ^ 64) (hb : b < 2 ^ 64) (hab : a ≠ b) :
    ∃ S T : State, seed 36 skipMat17 17 a = some S ∧ seed 36 skipMat17 17 b = some T ∧
      ∃ V W : Nat → Nat, (∀ n, ∃ S', run (Mixmax.next 36) n S = some ((List.range n).map V, S')) ∧
        (∀ n, ∃ T', run (Mixmax.next 36) n T = some ((List.range n).map W, T')) ∧ ¬ MixAgree V W := by
  obtain ⟨S, e1, ok1, c1, v1⟩ := c62_seed a ha
  obtain ⟨T, e2, ok2, c2, v2⟩ := c62_seed b hb
  obtain ⟨V, W, r1, r2, h⟩ := c159_determined S T ok1 ok2 (c1.trans c2.symm)
  refine ⟨S, T, e1, e2, V, W, r1, r2, fun hag => hab ?_⟩
  rw [h, v1, v2] at hag
  have := powers_ne a b hag
  have hQ : mixQ1 * mixQ2 = 336688632201494597573 := by decide
  rw [hQ] at this
  exact Nat.ModEq.eq_of_lt_of_lt this (by omega) (by omega)

/-- The seeds 1 and 2. -/
example : (1 : Nat) < 2 ^ 64 ∧ (2 : Nat) < 2 ^ 64 ∧ seed 36 skipMat17 17 1 ≠ seed 36 skipMat17 17 2 :=
  ⟨by decide, by decide, by decide +kernel⟩

/-- C159 (partial): the same for two sets of identifiers of `seed_uniquestream`, unless the 128-bit numbers they
make differ by a multiple of `336688632201494597573`. Missing: the remaining pairs of identifiers, and that the sequences do not overlap. -/
theorem c159_streams_partial (c1 m1 r1 s1 c2 m2 r2 s2 : Nat) (hc1 : c1 < 2 ^ 32) (hm1 : m1 < 2 ^ 32) (hr1 : r1 < 2 ^ 32)
    (hs1 : s1 < 2 ^ 32) (hc2 : c2 < 2 ^ 32) (hm2 : m2 < 2 ^ 32) (hr2 : r2 < 2 ^ 32) (hs2 : s2 < 2 ^ 32)
    (hne : ¬ s1 + 2 ^ 32 * r1 + 2 ^ 64 * m1 + 2 ^ 96 * c1 ≡ s2 + 2 ^ 32 * r2 + 2 ^ 64 * m2 + 2 ^ 96 * c2
      [MOD 336688632201494597573]) :
    ∃ S T : State, seedUniquestream 36 skipMat17 17 c1 m1 r1 s1 = some S ∧
      seedUniquestream 36 skipMat17 17 c2 m2 r2 s2 = some T ∧
      ∃ V W : Nat → Nat, (∀ n, ∃ S', run (Mixmax.next 36) n S = some ((List.range n).map V, S')) ∧
        (∀ n, ∃ T', run (Mixmax.next 36) n T = some ((List.range n).map W, T')) ∧ ¬ MixAgree V W := by
  obtain ⟨S, e1, ok1, c1, v1⟩ := c62_uniquestream c1 m1 r1 s1 hc1 hm1 hr1 hs1
  obtain ⟨T, e2, ok2, c2, v2⟩ := c62_uniquestream c2 m2 r2 s2 hc2 hm2 hr2 hs2
  obtain ⟨V, W, r1, r2, h⟩ := c159_determined S T ok1 ok2 (c1.trans c2.symm)
  refine ⟨S, T, e1, e2, V, W, r1, r2, fun hag => hne ?_⟩
  rw [h, v1, v2] at hag
  have := powers_ne _ _ hag
  rwa [show mixQ1 * mixQ2 = 336688632201494597573 by decide] at this

/-- The `clusterID` alone tells two streams apart as well: `2^96 · d` is no multiple of the odd number. -/
example : ¬ (5 : Nat) + 2 ^ 32 * 6 + 2 ^ 64 * 7 + 2 ^ 96 * 8 ≡ 5 + 2 ^ 32 * 6 + 2 ^ 64 * 7 + 2 ^ 96 * 9
    [MOD 336688632201494597573] := by decide

/-- C159: in particular two streams of the same cluster and machine with another `runID` or `streamID`. -/
theorem c159_streams (c m r1 s1 r2 s2 : Nat) (hc : c < 2 ^ 32) (hm : m < 2 ^ 32) (hr1 : r1 < 2 ^ 32)
    (hs1 : s1 < 2 ^ 32) (hr2 : r2 < 2 ^ 32) (hs2 : s2 < 2 ^ 32) (hne : (r1, s1) ≠ (r2, s2)) :
    ∃ S T : State, seedUniquestream 36 skipMat17 17 c m r1 s1 = some S ∧
      seedUniquestream 36 skipMat17 17 c m r2 s2 = some T ∧
      ∃ V W : Nat → Nat, (∀ n, ∃ S', run (Mixmax.next 36) n S = some ((List.range n).map V, S')) ∧
        (∀ n, ∃ T', run (Mixmax.next 36) n T = some ((List.range n).map W, T')) ∧ ¬ MixAgree V W := by
  refine c159_streams_partial c m r1 s1 c m r2 s2 hc hm hr1 hs1 hc hm hr2 hs2 fun h => hne ?_
  rw [Nat.add_assoc, Nat.add_assoc _ _ (2 ^ 96 * c)] at h
  have h1 := Nat.ModEq.add_right_cancel' _ h
  have h2 := Nat.ModEq.eq_of_lt_of_lt h1 (by omega) (by omega)
  have : r1 = r2 ∧ s1 = s2 := by omega
  rw [this.1, this.2]

example : ((3 : Nat), (7 : Nat)) ≠ (4, 7) := by decide

end Boost.Random
