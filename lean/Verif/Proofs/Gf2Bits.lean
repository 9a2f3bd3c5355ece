import Verif.Proofs.Gf2Sqr

/-!
# Bits of digit arrays: `copy_bits`, `shift_left`
-/

namespace Boost.Random
namespace Gf2
open Spec Polynomial

/-- Bit `j` of an array. -/
def dbit (B : Nat) (x : List Nat) (j : Nat) : Bool := (x.getD (j / B) 0).testBit (j % B)

section
variable {B : Nat}

theorem coeff_dbit (hB : 0 < B) {x : List Nat} (h : IsDigits B x) (j : Nat) : (ofDigits B x).coeff j = if dbit B x j then 1 else 0 := coeff_ofDigits hB x h j

theorem dbit_iff (hB : 0 < B) {x : List Nat} (h : IsDigits B x) (j : Nat) : dbit B x j = true ↔ (ofDigits B x).coeff j = 1 := by
  rw [coeff_dbit hB h]; cases dbit B x j <;> simp

theorem dbit_false_iff (hB : 0 < B) {x : List Nat} (h : IsDigits B x) (j : Nat) : dbit B x j = false ↔ (ofDigits B x).coeff j = 0 := by
  rw [coeff_dbit hB h]; cases dbit B x j <;> simp

theorem dbit_drop (hB : 0 < B) (x : List Nat) (o j : Nat) : dbit B (x.drop o) j = dbit B x (o * B + j) := by
  unfold dbit
  rw [Nat.mul_comm, Nat.mul_add_div hB, Nat.mul_add_mod, List.getD_eq_getElem?_getD, List.getD_eq_getElem?_getD, List.getElem?_drop]

theorem dbit_at (x : List Nat) (i : Nat) {t : Nat} (ht : t < B) : dbit B x (i * B + t) = (x.getD i 0).testBit t := by
  unfold dbit
  rw [Nat.mul_comm, Nat.mul_add_div (by omega), Nat.mul_add_mod, Nat.div_eq_of_lt ht, Nat.mod_eq_of_lt ht, Nat.add_zero]

theorem getD_lt {x : List Nat} (h : IsDigits B x) (i : Nat) : x.getD i 0 < 2 ^ B := by
  rw [List.getD_eq_getElem?_getD]
  cases e : x[i]? with
  | none => exact Nat.two_pow_pos _
  | some v => exact h v (List.mem_of_getElem? e)

/-- One word at a bit offset. -/
def wordAt (B : Nat) (x : List Nat) (low i : Nat) : Nat :=
  if low = 0 then x.getD i 0 else (x.getD i 0 >>> low) ||| ((x.getD (i + 1) 0 <<< (B - low)) % 2 ^ B)

theorem wordAt_testBit {x : List Nat} (h : IsDigits B x) {low : Nat} (hl : low < B) (i : Nat) {t : Nat} (ht : t < B) :
    (wordAt B x low i).testBit t = dbit B x (low + (i * B + t)) := by
  unfold wordAt
  split
  · next h0 => subst h0; rw [Nat.zero_add, dbit_at x i ht]
  · next h0 =>
    rw [Nat.testBit_or, Nat.testBit_shiftRight, Nat.testBit_mod_two_pow, Nat.testBit_shiftLeft]
    by_cases hc : low + t < B
    · have : ¬ B - low ≤ t := by omega
      rw [show low + (i * B + t) = i * B + (low + t) by omega, dbit_at x i hc]
      simp [this]
    · have h1 : B - low ≤ t := by omega
      have h2 : (x.getD i 0).testBit (low + t) = false :=
        Nat.testBit_lt_two_pow (lt_of_lt_of_le (getD_lt h i) (Nat.pow_le_pow_right (by omega) (by omega)))
      rw [show low + (i * B + t) = (i + 1) * B + (t - (B - low)) by rw [Nat.add_mul, Nat.one_mul]; omega, dbit_at x (i + 1) (by omega), h2]
      simp [h1, ht]

theorem wordAt_lt {x : List Nat} (h : IsDigits B x) (low i : Nat) : wordAt B x low i < 2 ^ B := by
  unfold wordAt
  split
  · exact getD_lt h i
  · exact Nat.or_lt_two_pow (lt_of_le_of_lt (Nat.shiftRight_le _ _) (getD_lt h i)) (Nat.mod_lt _ (Nat.two_pow_pos _))

theorem mapM_some {α β : Type} (f : α → Option β) (g : α → β) : ∀ (l : List α), (∀ a ∈ l, f a = some (g a)) → l.mapM f = some (l.map g)
  | [], _ => rfl
  | a :: l, h => by
    rw [List.mapM_cons, h a (by simp), mapM_some f g l fun b hb => h b (by simp [hb])]
    rfl

theorem getElem?_getD {x : List Nat} {i : Nat} (h : i < x.length) : x[i]? = some (x.getD i 0) := by
  rw [List.getD_eq_getElem?_getD, List.getElem?_eq_getElem h]; rfl

theorem copyBits_core {x : List Nat} (hx : IsDigits B x) {low high : Nat} (hlB : low < B) (hlh : low ≤ high) (hh : high ≤ B * x.length) :
    ∃ q, (((List.range ((high - low) / B)).mapM fun i =>
        if low = 0 then x[i]? else x[i]?.bind fun a => x[i + 1]?.map fun b => (a >>> low) ||| ((b <<< (B - low)) % 2 ^ B)).bind fun out =>
      if (high - low) % B ≠ 0 then
        x[(high - low) / B]?.bind fun a =>
          (if low ≠ 0 ∧ ((high - low) / B + 1) * B < high then
            x[(high - low) / B + 1]?.map fun b => (a >>> low) ||| ((b <<< (B - low)) % 2 ^ B) else some (a >>> low)).map fun r =>
            out ++ [r &&& (2 ^ ((high - low) % B) - 1)]
      else some out) = some q ∧ q.length = (high - low + B - 1) / B ∧ IsDigits B q ∧
      ∀ j, dbit B q j = (decide (j < high - low) && dbit B x (low + j)) := by
  have hB : 0 < B := by omega
  obtain ⟨n, hn⟩ : ∃ n, n = (high - low) / B := ⟨_, rfl⟩
  obtain ⟨e, he⟩ : ∃ e, e = (high - low) % B := ⟨_, rfl⟩
  have hd : high - low = n * B + e := by rw [hn, he, Nat.mul_comm]; exact (Nat.div_add_mod _ _).symm
  have heB : e < B := he ▸ Nat.mod_lt _ hB
  have idx : ∀ i, i * B < high → i < x.length := by
    intro i hi
    have : i * B < x.length * B := by rw [Nat.mul_comm x.length]; omega
    exact Nat.lt_of_mul_lt_mul_right this
  rw [← hn, ← he]
  have hmap : ((List.range n).mapM fun i =>
        if low = 0 then x[i]? else x[i]?.bind fun a => x[i + 1]?.map fun b => (a >>> low) ||| ((b <<< (B - low)) % 2 ^ B)) =
      some ((List.range n).map (wordAt B x low)) := by
    apply mapM_some
    intro i hi
    have hi := List.mem_range.1 hi
    have hi2 : i * B + B ≤ n * B := by
      have := Nat.mul_le_mul_right B (show i + 1 ≤ n by omega)
      rwa [Nat.add_mul, Nat.one_mul] at this
    unfold wordAt
    by_cases h0 : low = 0
    · rw [if_pos h0, if_pos h0, getElem?_getD (idx i (by omega))]
    · rw [if_neg h0, if_neg h0, getElem?_getD (idx i (by omega)), Option.bind_some, getElem?_getD (idx (i + 1) (by rw [Nat.add_mul, Nat.one_mul]; omega))]
      rfl
  have hlen0 : ((List.range n).map (wordAt B x low)).length = n := by simp
  have hdig : IsDigits B ((List.range n).map (wordAt B x low)) := by
    intro d hd
    obtain ⟨i, _, rfl⟩ := List.mem_map.1 hd
    exact wordAt_lt hx _ _
  have hget : ∀ i, i < n → ((List.range n).map (wordAt B x low))[i]? = some (wordAt B x low i) := by
    intro i hi
    rw [List.getElem?_map, List.getElem?_range hi]; rfl
  rw [hmap, Option.bind_some]
  by_cases h0 : e = 0
  · rw [if_neg (not_not.2 h0)]
    refine ⟨_, rfl, ?_, hdig, ?_⟩
    · rw [hlen0, hd, h0, show n * B + 0 + B - 1 = B * n + (B - 1) by rw [Nat.mul_comm]; omega, Nat.mul_add_div hB, Nat.div_eq_of_lt (by omega)]
      rfl
    · intro j
      have hj := Nat.div_add_mod j B
      have hjm := Nat.mod_lt j hB
      by_cases hlt : j / B < n
      · have h1 : j < high - low := by
          rw [hd]
          have := Nat.mul_le_mul_left B (show j / B + 1 ≤ n by omega)
          rw [Nat.mul_add, Nat.mul_one, Nat.mul_comm B n] at this
          omega
        rw [dbit, List.getD_eq_getElem?_getD, hget _ hlt, Option.getD_some, wordAt_testBit hx hlB _ hjm, decide_eq_true h1, Bool.true_and]
        rw [Nat.mul_comm (j / B), hj]
      · have h1 : ¬ j < high - low := by
          rw [hd, h0]
          have := Nat.mul_le_mul_left B (show n ≤ j / B by omega)
          rw [Nat.mul_comm B n] at this
          omega
        rw [decide_eq_false h1, Bool.false_and, dbit, List.getD_eq_getElem?_getD, List.getElem?_eq_none (by rw [hlen0]; omega)]
        simp
  · rw [if_pos h0, getElem?_getD (idx n (by omega)), Option.bind_some]
    -- the last word
    obtain ⟨r, hr, hrb⟩ : ∃ r, (if low ≠ 0 ∧ (n + 1) * B < high then
        x[n + 1]?.map fun b => (x.getD n 0 >>> low) ||| ((b <<< (B - low)) % 2 ^ B) else some (x.getD n 0 >>> low)) = some r ∧
        ∀ t, t < e → r.testBit t = dbit B x (low + (n * B + t)) := by
      by_cases hc : low ≠ 0 ∧ (n + 1) * B < high
      · rw [if_pos hc, getElem?_getD (idx (n + 1) hc.2)]
        refine ⟨_, rfl, fun t ht => ?_⟩
        rw [← wordAt_testBit hx hlB n (show t < B by omega)]
        unfold wordAt
        rw [if_neg hc.1]
      · rw [if_neg hc]
        refine ⟨_, rfl, fun t ht => ?_⟩
        have : low + t < B := by
          by_cases hl0 : low = 0
          · omega
          · have : ¬ (n + 1) * B < high := fun h => hc ⟨hl0, h⟩
            rw [Nat.add_mul, Nat.one_mul] at this
            omega
        rw [Nat.testBit_shiftRight, show low + (n * B + t) = n * B + (low + t) by omega, dbit_at x n this]
    rw [hr, Option.map_some]
    refine ⟨_, rfl, ?_, ?_, ?_⟩
    · rw [List.length_append, hlen0, hd, show n * B + e + B - 1 = B * (n + 1) + (e - 1) by rw [Nat.mul_add, Nat.mul_comm]; omega, Nat.mul_add_div hB,
        Nat.div_eq_of_lt (by omega)]
      rfl
    · refine hdig.append (IsDigits.cons ?_ IsDigits.nil)
      rw [Nat.and_two_pow_sub_one_eq_mod]
      exact lt_of_lt_of_le (Nat.mod_lt _ (Nat.two_pow_pos _)) (Nat.pow_le_pow_right (by omega) (by omega))
    · intro j
      have hj := Nat.div_add_mod j B
      have hjm := Nat.mod_lt j hB
      rcases Nat.lt_trichotomy (j / B) n with hlt | heq | hgt
      · have h1 : j < high - low := by
          rw [hd]
          have := Nat.mul_le_mul_left B (show j / B + 1 ≤ n by omega)
          rw [Nat.mul_add, Nat.mul_one, Nat.mul_comm B n] at this
          omega
        rw [dbit, List.getD_eq_getElem?_getD, List.getElem?_append_left (by rw [hlen0]; exact hlt), hget _ hlt, Option.getD_some, wordAt_testBit hx hlB _ hjm, decide_eq_true h1,
          Bool.true_and]
        rw [Nat.mul_comm (j / B), hj]
      · rw [dbit, List.getD_eq_getElem?_getD, heq, List.getElem?_append_right (by rw [hlen0]), hlen0, Nat.sub_self, List.getElem?_cons_zero, Option.getD_some]
        rw [Nat.and_two_pow_sub_one_eq_mod, Nat.testBit_mod_two_pow]
        rw [heq, Nat.mul_comm] at hj
        have hiff : j < high - low ↔ j % B < e := by rw [hd]; omega
        by_cases hlt : j % B < e
        · rw [decide_eq_true hlt, decide_eq_true (hiff.2 hlt), Bool.true_and, Bool.true_and, hrb _ hlt, hj]
        · rw [decide_eq_false hlt, decide_eq_false (fun h => hlt (hiff.1 h)), Bool.false_and, Bool.false_and]
      · have h1 : ¬ j < high - low := by
          rw [hd]
          have := Nat.mul_le_mul_left B (show n + 1 ≤ j / B by omega)
          rw [Nat.mul_add, Nat.mul_one, Nat.mul_comm B n] at this
          omega
        rw [decide_eq_false h1, Bool.false_and, dbit, List.getD_eq_getElem?_getD, List.getElem?_eq_none (by rw [List.length_append, hlen0]; simp; omega)]
        simp

theorem copyBits_spec (hB : 0 < B) {x : List Nat} (hx : IsDigits B x) {low high : Nat} (hh : high ≤ B * x.length) (hlt : low < high) :
    ∃ q, copyBits B x low high = some q ∧ q.length = (high - low + B - 1) / B ∧ IsDigits B q ∧
      ∀ j, dbit B q j = (decide (j < high - low) && dbit B x (low + j)) := by
  have hm := Nat.div_add_mod low B
  have hml := Nat.mod_lt low hB
  have e1 : low - low / B * B = low % B := by rw [Nat.mul_comm (low / B)]; omega
  have e2 : high - low / B * B - low % B = high - low := by rw [Nat.mul_comm (low / B)]; omega
  have hlen : high - low / B * B ≤ B * (x.drop (low / B)).length := by
    rw [List.length_drop, Nat.mul_sub, Nat.mul_comm (low / B)]; omega
  obtain ⟨q, h1, h2, h3, h4⟩ := copyBits_core (hx.drop (low / B)) hml (show low % B ≤ high - low / B * B by rw [Nat.mul_comm (low / B)]; omega) hlen
  rw [e2] at h1 h2 h4
  refine ⟨q, ?_, h2, h3, fun j => ?_⟩
  · unfold copyBits
    simp only [e1, e2]
    exact h1
  · rw [h4, dbit_drop hB, Nat.mul_comm (low / B), ← Nat.add_assoc, hm]

theorem shiftLeft_spec {s : Nat} (hs : s ≤ B) : ∀ (size prev : Nat) (val : List Nat), prev < 2 ^ B → IsDigits B val → size ≤ val.length →
    ∃ o, shiftLeft B s size prev val = some o ∧ o.length = val.length ∧ IsDigits B o ∧ o.drop size = val.drop size ∧
      ∃ top, top < 2 ^ B ∧ ofDigits B (o.take size) + X ^ (B * size) * ofNat (top >>> (B - s)) = X ^ s * ofDigits B (val.take size) + ofNat (prev >>> (B - s))
  | 0, prev, val, hp, hv, _ => ⟨val, by unfold shiftLeft; rfl, rfl, hv, rfl, prev, hp, by simp⟩
  | k + 1, prev, [], _, _, h => by simp at h
  | k + 1, prev, t :: val, hp, hv, h => by
    obtain ⟨o, e1, e2, e3, e4, top, e5, e6⟩ := shiftLeft_spec hs k t val hv.head hv.tail (by simpa using h)
    refine ⟨(prev >>> (B - s) ||| (t <<< s) % 2 ^ B) :: o, by unfold shiftLeft; rw [e1]; rfl, by simp [e2], ?_, by simpa using e4, top, e5, ?_⟩
    · refine IsDigits.cons ?_ e3
      rw [Nat.or_comm]
      exact funnel_lt hp
    · have hsp := ofNat_split (t <<< s) B
      rw [shr_top hs, ofNat_shiftLeft] at hsp
      rw [List.take_succ_cons, List.take_succ_cons, ofDigits_cons, ofDigits_cons, Nat.or_comm, ofNat_funnel hs hp, Nat.mul_add, Nat.mul_one, pow_add]
      linear_combination X ^ B * e6 + hsp

end
end Gf2
end Boost.Random
