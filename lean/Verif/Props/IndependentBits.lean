import Verif.Proofs.IndependentBits
import Verif.Props.UniformInt

/-!
# Properties C28 and C29: `independent_bits_engine`
-/

namespace Boost.Random
open Spec IndependentBits

/-- an engine with three values -/
def eng3 : EngInfo := ⟨⟨32, false⟩, 0, 2⟩
/-- an engine with all 32-bit values -/
def engFull : EngInfo := ⟨⟨32, false⟩, 0, 2 ^ 32 - 1⟩

theorem eng3_ok : EngOK eng3 := ⟨by decide, by decide, by decide, by decide⟩
theorem engFull_ok : EngOK engFull := ⟨by decide, by decide, by decide, by decide⟩

/-- **C28 (algorithm).** For every base engine, every number of bits and every sequence of base values the code computes
what the algorithm of the C++ standard computes, unless the base has exactly three values and `w >= 3`. -/
theorem c28_algorithm_partial (E : EngInfo) (hE : EngOK E) (D w : Nat) (hw : 1 ≤ w) (hwD : w ≤ D)
    (hex : ¬ (E.b = 3 ∧ 3 ≤ w)) (xs : List Int) (hO : Outputs E xs) :
    next E D w xs = ibRun E xs (ibStages E.b w (ibCount E.b w)) 0 := next_spec hE D w hw hwD hex xs hO

/-- 7 bits of a die: one roll gives one bit, three rolls two bits each, of which the values 5 and 6 are rejected -/
example : EngOK die ∧ ¬ (die.b = 3 ∧ 3 ≤ 7) ∧ ibCount die.b 7 = 4 ∧
    next die 32 7 [2, 2, 3, 5, 6, 4, 1, 1] = .done 0b1011011 [1, 1] ∧
    ibStages die.b 7 4 = [(6, 1), (4, 2), (4, 2), (4, 2)] := ⟨die_ok, by decide, by decide, by decide, by decide⟩

/-- **C28 (range).** No undefined behaviour; the result is a `w`-bit number; a suffix of the base values stays unread. -/
theorem c28_range_partial (E : EngInfo) (hE : EngOK E) (D w : Nat) (hw : 1 ≤ w) (hwD : w ≤ D)
    (hex : ¬ (E.b = 3 ∧ 3 ≤ w)) (xs : List Int) (hO : Outputs E xs) :
    next E D w xs ≠ .ub ∧
    ∀ v rest, next E D w xs = .done v rest → minv ≤ v ∧ v ≤ maxv w ∧ rest <:+ xs := by
  rw [next_spec hE D w hw hwD hex xs hO]
  refine ⟨ibRun_no_ub E xs _ 0, fun v rest h => ?_⟩
  have hm : 1 ≤ Nat.log2 E.b := (Nat.le_log2 (by have := UniformInt.EngInfo.b_ge hE; omega)).2
    (by have := UniformInt.EngInfo.b_ge hE; omega)
  have hn1 : 1 ≤ ibCount E.b w := le_trans ((Nat.one_le_div_iff (by omega)).2 (by omega)) (ibCount_ge E.b w)
  obtain ⟨h1, pre, h2⟩ := ibRun_bound E xs _ 0 0 v rest (by norm_num) h
  rw [stages_bits _ _ _ hn1, Nat.zero_add] at h1
  exact ⟨Nat.zero_le _, by unfold maxv; omega, pre, h2.symm⟩

/-- all 32 bits at once, and 64 bits from two values -/
example : EngOK engFull ∧ next engFull 32 32 [4294967295, 5] = .done 4294967295 [5] ∧
    next engFull 64 64 [1, 2, 5] = .done 4294967298 [5] ∧ maxv 64 = 18446744073709551615 := ⟨engFull_ok, by decide, by decide, by decide⟩

/-- The number of base values used is at least one, at most `w`, and every one carries at least one bit. -/
theorem ibStages_facts (E : EngInfo) (hE : EngOK E) (w : Nat) (hw : 1 ≤ w) :
    1 ≤ ibCount E.b w ∧ ((ibStages E.b w (ibCount E.b w)).map Prod.snd).sum = w ∧
    ∀ s ∈ ibStages E.b w (ibCount E.b w), 2 ^ s.2 ∣ s.1 ∧ 2 ^ s.2 ≤ s.1 ∧ s.1 ≤ E.b ∧ E.b < 2 * s.1 := by
  have hb2 := UniformInt.EngInfo.b_ge hE
  have hm : 1 ≤ Nat.log2 E.b := (Nat.le_log2 (by omega)).2 (by omega)
  have hn1 : 1 ≤ ibCount E.b w := le_trans ((Nat.one_le_div_iff (by omega)).2 (by omega)) (ibCount_ge E.b w)
  obtain ⟨c1, c2⟩ := div_bounds w _ _ hn1 (ceil_le w _ _ hm (ibCount_ge E.b w) hn1)
  have hlo : 2 ^ Nat.log2 E.b ≤ E.b := Nat.log2_self_le (by omega)
  have key : ∀ b, b ≤ Nat.log2 E.b → 2 ^ b ∣ 2 ^ b * (E.b / 2 ^ b) ∧ 2 ^ b ≤ 2 ^ b * (E.b / 2 ^ b) ∧
      2 ^ b * (E.b / 2 ^ b) ≤ E.b ∧ E.b < 2 * (2 ^ b * (E.b / 2 ^ b)) := by
    intro b hb
    have h1 : 2 ^ b ≤ E.b := le_trans (Nat.pow_le_pow_right (by norm_num) hb) hlo
    have h2 : 1 ≤ E.b / 2 ^ b := Nat.div_pos h1 (Nat.two_pow_pos _)
    have h3 : 2 ^ b * 1 ≤ 2 ^ b * (E.b / 2 ^ b) := Nat.mul_le_mul_left _ h2
    have h4 := Nat.div_add_mod E.b (2 ^ b)
    have h5 := Nat.mod_lt E.b (Nat.two_pow_pos b)
    exact ⟨Nat.dvd_mul_right _ _, by omega, Nat.mul_div_le _ _, by omega⟩
  refine ⟨hn1, stages_bits _ _ _ hn1, fun s hs => ?_⟩
  unfold ibStages at hs
  rw [List.mem_append] at hs
  rcases hs with h | h
  · rw [List.eq_of_mem_replicate h]
    exact key _ c1
  · rw [List.eq_of_mem_replicate h]
    exact key _ (c2 (by intro h0; rw [h0] at h; simp at h))

/-- **C29.** For every length `N`, equally many sequences of `N` base values make the engine return `v`, for all
`w`-bit values `v` (and none for other values). The common number is positive if `N` is the number of base values
that the algorithm uses. In each round more than half
of the base values are accepted. -/
theorem c29_uniform_partial (E : EngInfo) (hE : EngOK E) (D w : Nat) (hw : 1 ≤ w) (hwD : w ≤ D)
    (hex : ¬ (E.b = 3 ∧ 3 ≤ w)) (N : Nat) :
    (∀ v v', v ≤ maxv w → v' ≤ maxv w → count E (next E D w) N v = count E (next E D w) N v') ∧
    (∀ v, maxv w < v → count E (next E D w) N v = 0) ∧
    (∀ v, v ≤ maxv w → 0 < count E (next E D w) (ibCount E.b w) v) ∧
    (∀ s ∈ ibStages E.b w (ibCount E.b w), E.b < 2 * s.1) := by
  obtain ⟨hn1, hbits, hst⟩ := ibStages_facts E hE w hw
  have hp := Nat.two_pow_pos w
  have key : ∀ N v, count E (next E D w) N v =
      if v / 2 ^ w = 0 then ibTuples E.b N (ibStages E.b w (ibCount E.b w)) else 0 := by
    intro N v
    rw [count_eq_cnt, cnt_congr_outputs E (le_of_lt hE.lt) (fun xs hO => next_spec hE D w hw hwD hex xs hO),
      cnt_ibRun E N _ 0 v (stages_ok _ _ _), hbits]
  have hin : ∀ v, v ≤ maxv w → v / 2 ^ w = 0 := fun v hv => Nat.div_eq_of_lt (by unfold maxv at hv; omega)
  refine ⟨fun v v' hv hv' => ?_, fun v hv => ?_, fun v hv => ?_, fun s hs => (hst s hs).2.2.2⟩
  · rw [key, key, if_pos (hin v hv), if_pos (hin v' hv')]
  · rw [key, if_neg]
    have : 1 ≤ v / 2 ^ w := Nat.div_pos (by unfold maxv at hv; omega) hp
    omega
  · rw [key, if_pos (hin v hv)]
    have hlen : (ibStages E.b w (ibCount E.b w)).length = ibCount E.b w := by
      unfold ibStages
      have := Nat.mod_lt w (show 0 < ibCount E.b w by omega)
      rw [List.length_append, List.length_replicate, List.length_replicate]; omega
    have h := ibTuples_pos E.b (ibStages E.b w (ibCount E.b w)) (fun s hs => (hst s hs).2.1)
    rw [hlen] at h
    exact h

/-- 3 bits of a die: each of the 8 values from 3 of the 36 pairs, and from 6 of the 216 triples -/
example : ibCount die.b 3 = 2 ∧ count die (next die 32 3) 2 0 = 3 ∧ count die (next die 32 3) 2 7 = 3 ∧
    count die (next die 32 3) 3 0 = 6 ∧ count die (next die 32 3) 3 7 = 6 ∧
    count die (next die 32 3) 3 8 = 0 := by decide

/-- C28 is false as claimed: with a base engine of three values the parameters of every request for three or more
bits are undefined (the second attempt has more rounds than bits, a shift by `-1`). -/
theorem c28_three_values_false (D w : Nat) (hw : 3 ≤ w) (xs : List Int) : next eng3 D w xs = .ub := by
  have hb : eng3.brange = some 2 := by decide
  have hl : Nat.log2 3 = 1 := by decide
  have hc : w < ibCount 3 w := by
    unfold ibCount
    simp only [hl]
    rw [Nat.add_sub_cancel, Nat.div_one, Nat.div_self (by omega), pow_one,
      if_neg (by rw [show 2 * (3 / 2) = 2 from rfl, Nat.div_eq_of_lt (by omega)]; norm_num)]
    omega
  have h := (choose_spec 32 w 3 (by norm_num) (by norm_num) (by norm_num) (by omega)).2 hc
  unfold next
  rw [hb]
  simp only
  rw [show eng3.ty.bits = 32 from rfl]
  rw [show (3 : Nat) - 1 = 2 from rfl] at h
  rw [h]

/-- C28: one or two bits are fine with three values. -/
example : EngOK eng3 ∧ next eng3 32 2 [2, 1, 0] = .done 2 [] ∧ next eng3 32 3 [2, 1, 0] = .ub := ⟨eng3_ok, by decide, by decide⟩

end Boost.Random
