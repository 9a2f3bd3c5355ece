import Verif.Proofs.HyperRound
import Verif.Props.Mixture

/-!
# C168: `hyperexponential_distribution` constructed in floating-point arithmetic
-/

namespace Boost.Random
open Spec RealDist
namespace Hyperexponential

/-- What is claimed of the probabilities `probs'` the object stands for: as many as asked for, none negative, not all zero, each share as asked for up to `c`,
and zero where zero was asked for. -/
structure CloseTo (c : ℚ) (probs probs' : List ℚ) : Prop where
  len : probs'.length = probs.length
  nonneg : ∀ x ∈ probs', 0 ≤ x
  pos : 0 < probs'.sum
  share : ∀ v, |probs'.getD v 0 / probs'.sum - probs.getD v 0 / probs.sum| ≤ c
  zero : ∀ v, probs[v]? = some 0 → probs'.getD v 0 = 0

theorem CloseTo.ofNearby {probs probs' : List ℚ} {c : ℚ} (hn : 0 < probs.length) (N : Nearby probs.length c probs probs') : CloseTo c probs probs' :=
  ⟨N.len, N.nonneg, by rw [N.sum]; exact_mod_cast hn, fun v => by rw [N.sum]; exact N.close v, N.zero⟩

section
variable {p : Nat} {fl : ℚ → ℚ}

theorem make_round (H : Nearest p fl) (probs rates : List ℚ) (h0 : ∀ x ∈ probs, 0 ≤ x) (hs : 0 < probs.sum) (hn : (8 * probs.length + 10) * probs.length < 2 ^ p) :
    ∃ t probs', HoldsReal probs' t ∧ Nearby probs.length ((8 * probs.length + 10) / 2 ^ p) probs probs' ∧
      Dist.makeRound fl probs rates = if probs.length = rates.length ∧ ∀ x ∈ rates, 0 < x then some ⟨t, rates⟩ else none := by
  have hn0 : 0 < probs.length := List.length_pos_iff.2 (by rintro rfl; simp at hs)
  have hn2 : 2 * (probs.length + 2) ≤ 2 ^ p := by nlinarith
  have hp : 1 ≤ p := by
    rcases Nat.eq_zero_or_pos p with rfl | h
    · simp at hn2; omega
    · exact h
  have hq : 2 * ((probs.length : ℚ) + 2) ≤ 2 ^ p := by exact_mod_cast hn2
  obtain ⟨t, probs', h1, h2, h3⟩ := round_nearby H [] probs h0 hs hn
  obtain ⟨t', g1, g2, _, _, g5⟩ := Discrete.realInitRound_full (Discrete.rel_of_nearest hp H) [] probs
    ((Nearest.rounding H).exact _ (Representable.natCast (by omega))) (by rw [mul_one_div, div_le_one (by positivity)]; exact hq) h0 hs
  obtain rfl : t = t' := Option.some.inj (h1.symm.trans g1)
  have ht : ∀ e ∈ t, 0 ≤ e.1 ∧ e.1 ≤ 1 ∧ e.2 < t.length := by
    intro e he
    obtain ⟨i, hi, rfl⟩ := List.mem_iff_getElem.1 he
    obtain ⟨x, s, c1, c2, c3, c4⟩ := g5 i (by rw [← g2]; exact hi)
    rw [List.getElem?_eq_getElem hi] at c1
    rw [Option.some.inj c1]
    refine ⟨c2, c3, ?_⟩
    rw [g2]
    rcases c4 with c | ⟨_, y, c⟩
    · exact c
    · unfold Discrete.resize at c
      have hm := List.mem_of_getElem? c
      simp only [List.take_nil, List.nil_append, List.length_nil, Nat.sub_zero] at hm
      have := List.eq_of_mem_replicate hm
      rw [(Prod.mk.inj this).2]
      exact hn0
  obtain ⟨q, q1, q2, q3⟩ := Discrete.probabilitiesRound_spec hp H (t := t) (by rintro rfl; simp at g2; omega) ht
  refine ⟨t, probs', h2, h3, ?_⟩
  unfold Dist.makeRound
  rw [h1, Option.bind_some, q1, Option.bind_some]
  congr 1
  unfold Hyperexponential.check
  simp only [Bool.and_eq_true, beq_iff_eq, List.all_eq_true, decide_eq_true_eq, q2, g2, eq_iff_iff]
  exact ⟨fun h => ⟨h.1.1, h.2⟩, fun h => ⟨⟨h.1, q3⟩, h.2⟩⟩

/-- C168, the assertion of the constructors: whatever the rounding to nearest, the probabilities read back from the table are between 0 and 1, so that the
assertion holds just when there are as many rates as probabilities and all rates are positive (unlike that of `param_type`, `c108_assert_false`). -/
theorem c168_assert (H : Nearest p fl) (probs rates : List ℚ) (h0 : ∀ x ∈ probs, 0 ≤ x) (hs : 0 < probs.sum) (hn : (8 * probs.length + 10) * probs.length < 2 ^ p) :
    (∃ d, Dist.makeRound fl probs rates = some d) ↔ probs.length = rates.length ∧ ∀ x ∈ rates, 0 < x := by
  obtain ⟨t, probs', _, _, h⟩ := make_round H probs rates h0 hs hn
  rw [h]
  split
  · rename_i hc
    exact ⟨fun _ => hc, fun _ => ⟨_, rfl⟩⟩
  · rename_i hc
    exact ⟨fun ⟨d, hd⟩ => absurd hd (by simp), fun h => absurd h hc⟩

#guard (Dist.makeRound (rn 53) [7, 1, 1, 1, 2, 0] [1, 2, 3, 4, 5, 6]).isSome
#guard Param.make (rn 53) [7, 1, 1, 1, 2, 0] [1, 2, 3, 4, 5, 6] = none

/-- C168, the law: with the table built in floating-point arithmetic, on independent uniform and exponential numbers, a distribution of valid parameters follows
the mixture of exponential distributions with probabilities as asked for up to `(8n + 10)/2^p`, or `(16n + 18)/2^p` if set by `param`. -/
theorem c168_law (H : Nearest p fl) (probs rates : List ℚ) (V : Valid probs rates) (hn : (8 * probs.length + 10) * probs.length < 2 ^ p) :
    (∃ d probs', Dist.makeRound fl probs rates = some d ∧ Law probs' rates d ∧ CloseTo ((8 * probs.length + 10) / 2 ^ p) probs probs') ∧
      ∀ old : Dist, ∃ d probs', old.setParamRound fl ⟨probs, rates⟩ = some d ∧ Law probs' rates d ∧ CloseTo ((16 * probs.length + 18) / 2 ^ p) probs probs' := by
  have hn0 : 0 < probs.length := List.length_pos_iff.2 (by rintro rfl; exact absurd V.pos (by simp))
  constructor
  · obtain ⟨t, probs', h1, h2, h3⟩ := make_round H probs rates V.nonneg V.pos hn
    rw [if_pos ⟨V.len, V.rate⟩] at h3
    have C := CloseTo.ofNearby hn0 h2
    exact ⟨_, probs', h3, fun k x => hyper_law k (d := ⟨t, rates⟩) (C.len.trans V.len) V.rate h1 C.pos x, C⟩
  · intro old
    obtain ⟨t, probs', h1, h2, h3⟩ := bins_nearby H old.dd probs V.nonneg V.pos hn
    have C := CloseTo.ofNearby hn0 h3
    exact ⟨⟨t, rates⟩, probs', by unfold Dist.setParamRound; rw [h1]; rfl,
      fun k x => hyper_law k (d := ⟨t, rates⟩) (C.len.trans V.len) V.rate h2 C.pos x, C⟩

example : Valid [1, 3, 1/7] [2, 5, 1/9] ∧ (8 * [(1 : ℚ), 3, 1/7].length + 10) * [(1 : ℚ), 3, 1/7].length < 2 ^ 53 :=
  ⟨⟨rfl, by simp, by norm_num, by simp⟩, by norm_num⟩

/-- C168, the rates alone: equal probabilities up to `(8n + 10)/2^p`. -/
theorem c168_rates (H : Nearest p fl) (rates : List ℚ) (hne : rates ≠ []) (hr : ∀ x ∈ rates, 0 < x) (hn : (8 * rates.length + 10) * rates.length < 2 ^ p) :
    ∃ d probs', Dist.ofRatesRound fl rates = some d ∧ Law probs' rates d ∧
      CloseTo ((8 * rates.length + 10) / 2 ^ p) (List.replicate rates.length (1 : ℚ)) probs' := by
  have hl : (List.replicate rates.length (1 : ℚ)).length = rates.length := List.length_replicate
  have V : Valid (List.replicate rates.length 1) rates := by
    refine ⟨hl, fun x hx => ?_, ?_, hr⟩
    · rw [(List.mem_replicate.1 hx).2]; exact zero_le_one
    · simpa using List.length_pos_iff.2 hne
  obtain ⟨d, probs', h⟩ := (c168_law H _ _ V (by rw [hl]; exact hn)).1
  rw [hl] at h
  exact ⟨d, probs', h⟩

#guard (Dist.ofRatesRound (rn 53) [2, 5, 7]).map (·.dd) = some [(1, 0), (1, 0), (1, 0)]

/-- C168 (partial: the engines as in C85): with any rounding to nearest, in construction as well as in drawing, a distribution of valid parameters gives
values that are not negative, without undefined behaviour. -/
theorem c168_range_partial {o : RealOps ℚ} {E : EngInfo} (H : Nearest 53 o.fl) (hE : EngOK E) (hD : DiffOK E)
    (hsafe : engineBits E - 8 % engineBits E < 53 → ¬ engineBits E ∣ 61) (probs rates : List ℚ) (V : Valid probs rates)
    (hsize : (8 * probs.length + 10) * probs.length < 2 ^ 53)
    (old : Option Dist) (d : Dist) (hd : (match old with | none => Dist.makeRound o.fl probs rates | some old => old.setParamRound o.fl ⟨probs, rates⟩) = some d)
    (n : Nat) (xs : List Int) (hO : Outputs E xs) :
    d.next o (engineMixed o E ⟨32, true⟩ n) xs ≠ .ub ∧
      ∀ v rest, d.next o (engineMixed o E ⟨32, true⟩ n) xs = .done v rest → 0 ≤ v ∧ rest <:+ xs := by
  have R := Nearest.rounding H
  have hlen := V.len
  have hn : 0 < probs.length := List.length_pos_iff.2 (by rintro rfl; exact absurd V.pos (by simp))
  have hsz : probs.length ≤ 2 ^ 31 := by
    by_contra hc
    have h1 : 2 ^ 31 < probs.length := by omega
    have h2 : 2 ^ 31 * 2 ^ 31 ≤ probs.length * probs.length := Nat.mul_le_mul h1.le h1.le
    have h3 : (8 * probs.length + 10) * probs.length = 8 * (probs.length * probs.length) + 10 * probs.length := by ring
    omega
  have key : ∀ t probs', probs'.length = probs.length → HoldsReal probs' t →
      SafeRun (fun v : ℚ => 0 ≤ v) E (Dist.next o ⟨t, rates⟩ (engineMixed o E ⟨32, true⟩ n)) := by
    intro t probs' hl ht
    refine (draw_safe R hE hD n ht (by omega) ⟨by decide, by decide, ?_, by omega⟩).bind fun i hi => ?_
    · show -(2 : Int) ^ 31 ≤ _ ∧ _ < (2 : Int) ^ 31
      omega
    · have hi' : i < rates.length := by omega
      simp only [List.getElem?_eq_getElem hi', Rat.cast_id]
      exact (numbers_safe R hE hD hsafe n).2.1.bind fun v hv => SafeRun.done (fl_nonneg R (div_nonneg hv (V.rate _ (List.getElem_mem hi')).le))
  cases old with
  | none =>
    obtain ⟨t, probs', h1, h2, h3⟩ := make_round H probs rates V.nonneg V.pos hsize
    rw [if_pos ⟨V.len, V.rate⟩] at h3
    obtain rfl : ⟨t, rates⟩ = d := Option.some.inj (h3.symm.trans hd)
    exact key t probs' h2.len h1 xs hO
  | some old =>
    obtain ⟨t, probs', h1, h2, h3⟩ := bins_nearby H old.dd probs V.nonneg V.pos hsize
    have e : old.setParamRound o.fl ⟨probs, rates⟩ = some ⟨t, rates⟩ := by unfold Dist.setParamRound; rw [h1]; rfl
    obtain rfl : ⟨t, rates⟩ = d := Option.some.inj (e.symm.trans hd)
    exact key t probs' h3.len h2 xs hO

example : engineBits engMt - 8 % engineBits engMt < 53 → ¬ engineBits engMt ∣ 61 := by decide +kernel

end
end Hyperexponential
end Boost.Random
