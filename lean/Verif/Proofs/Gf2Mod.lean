import Verif.Proofs.Gf2Bits

/-!
# Reduction modulo a polynomial, and powers of X
-/

namespace Boost.Random
namespace Gf2
open Spec Polynomial

/-- All coefficients from `n` on are zero. -/
def Low (n : Nat) (p : (ZMod 2)[X]) : Prop := ∀ j, n ≤ j → p.coeff j = 0

theorem Low.mono {n m : Nat} {p : (ZMod 2)[X]} (h : Low n p) (hm : n ≤ m) : Low m p := fun j hj => h j (by omega)

theorem Low.add {n : Nat} {p q : (ZMod 2)[X]} (hp : Low n p) (hq : Low n q) : Low n (p + q) := by
  intro j hj; rw [coeff_add, hp j hj, hq j hj, add_zero]

theorem Low.zero (n : Nat) : Low n 0 := fun j _ => coeff_zero j

theorem Low.X_mul {n : Nat} {p : (ZMod 2)[X]} (hp : Low n p) (k : Nat) : Low (n + k) (X ^ k * p) := by
  intro j hj
  rw [coeff_X_pow_mul', if_pos (by omega), hp _ (by omega)]

theorem Low.X_pow (k : Nat) : Low (k + 1) (X ^ k) := by
  intro j hj
  rw [coeff_X_pow, if_neg (by omega)]

theorem Low.degree {n : Nat} {p : (ZMod 2)[X]} : Low n p ↔ p.degree < (n : WithBot ℕ) := (degree_lt_iff_coeff_zero p n).symm

theorem Low.sq {n : Nat} {p : (ZMod 2)[X]} (hp : Low (n + 1) p) : Low (2 * n + 1) (p ^ 2) := by
  have h1 : p.natDegree ≤ n := natDegree_le_iff_coeff_eq_zero.2 fun j hj => hp j hj
  have h2 : (p ^ 2).natDegree ≤ 2 * n := le_trans natDegree_pow_le (by omega)
  intro j hj
  exact coeff_eq_zero_of_natDegree_lt (by omega)

section
variable {B : Nat}

theorem low_ofDigits (hB : 0 < B) {x : List Nat} (hx : IsDigits B x) : Low (B * x.length) (ofDigits B x) := by
  intro j hj
  rw [coeff_dbit hB hx, dbit, List.getD_eq_getElem?_getD, List.getElem?_eq_none (by rw [Nat.le_div_iff_mul_le hB, Nat.mul_comm]; exact hj)]
  simp

/-- The quotient block is what lies above its start. -/
theorem copyBits_top (hB : 0 < B) {x : List Nat} (hx : IsDigits B x) {low high : Nat} (hh : high ≤ B * x.length) (hlt : low < high)
    (hL : Low high (ofDigits B x)) :
    ∃ q, copyBits B x low high = some q ∧ q.length = (high - low + B - 1) / B ∧ IsDigits B q ∧ Low (high - low) (ofDigits B q) ∧
      Low low (ofDigits B x + X ^ low * ofDigits B q) := by
  obtain ⟨q, h1, h2, h3, h4⟩ := copyBits_spec hB hx hh hlt
  refine ⟨q, h1, h2, h3, fun j hj => ?_, fun j hj => ?_⟩
  · rw [← dbit_false_iff hB h3, h4, decide_eq_false (by omega), Bool.false_and]
  · rw [coeff_add, coeff_X_pow_mul', if_pos hj, coeff_dbit hB h3, h4]
    by_cases hc : j - low < high - low
    · rw [decide_eq_true hc, Bool.true_and, show low + (j - low) = j by omega, coeff_dbit hB hx]
      exact CharTwo.add_self_eq_zero _
    · rw [decide_eq_false hc, Bool.false_and, hL j (by omega)]
      simp

/-- One block fits in the array. -/
def BlockFits (B len lo hi : Nat) : Prop := lo % B ≠ 0 → lo / B + (hi - lo + B - 1) / B < len

theorem addAt_spec (hB : 0 < B) {q x : List Nat} (hq : IsDigits B q) (hx : IsDigits B x) {pos : Nat} (h1 : pos / B + q.length ≤ x.length)
    (h2 : pos % B ≠ 0 → pos / B + q.length < x.length) :
    ∃ o, onTail (pos / B) (fun o => addShiftedInplace B q.length q o (pos % B)) x = some o ∧ o.length = x.length ∧ IsDigits B o ∧
      ofDigits B o = ofDigits B x + X ^ pos * ofDigits B q := by
  have hs := addShiftedInplace_spec (Nat.mod_lt pos hB) q.length q (x.drop (pos / B)) hq (hx.drop _) le_rfl (by rw [List.length_drop]; omega)
    (by rw [List.length_drop]; intro h; have := h2 h; omega)
  obtain ⟨o, e1, e2, e3, e4⟩ := onTail_spec (f := fun o => addShiftedInplace B q.length q o (pos % B)) (show pos / B ≤ x.length by omega) hx hs
  refine ⟨o, e1, e2, e3, ?_⟩
  rw [e4, List.take_length, ← mul_assoc, ← pow_add, Nat.div_add_mod]

theorem div_cases {pos bs : Nat} (h : pos ≤ bs) : pos / B < bs / B ∨ (pos / B = bs / B ∧ (pos % B ≠ 0 → bs % B ≠ 0)) := by
  rcases Nat.lt_or_eq_of_le (Nat.div_le_div_right (c := B) h) with h1 | h1
  · exact Or.inl h1
  · refine Or.inr ⟨h1, fun h2 h3 => h2 ?_⟩
    have a := Nat.div_add_mod pos B
    have b := Nat.div_add_mod bs B
    rw [h1] at a
    omega

theorem addAll_spec (hB : 0 < B) (m : SparseMod) {q : List Nat} (hq : IsDigits B q) {bs : Nat} (hbs : m.remainderBits ≤ bs) {len : Nat}
    (h1 : bs / B + q.length ≤ len) (h2 : bs % B ≠ 0 → bs / B + q.length < len) :
    ∀ (L : List Nat), (∀ i ∈ L, i ≤ m.remainderBits) → ∀ (x : List Nat), IsDigits B x → x.length = len →
    ∃ o, L.foldlM (fun dividend i =>
        let pos := i + bs - m.remainderBits
        onTail (pos / B) (fun o => addShiftedInplace B q.length q o (pos % B)) dividend) x = some o ∧ o.length = len ∧ IsDigits B o ∧
      ofDigits B o = ofDigits B x + X ^ (bs - m.remainderBits) * (L.map fun i => (X : (ZMod 2)[X]) ^ i).sum * ofDigits B q
  | [], _, x, hx, hl => ⟨x, rfl, hl, hx, by simp⟩
  | i :: L, hi, x, hx, hl => by
    have hi0 := hi i (by simp)
    obtain ⟨o, e1, e2, e3, e4⟩ := addAt_spec hB hq hx (pos := i + bs - m.remainderBits)
      (by rw [hl]; rcases div_cases (B := B) (show i + bs - m.remainderBits ≤ bs by omega) with h | h <;> omega)
      (by
        intro hp
        rw [hl]
        rcases div_cases (B := B) (show i + bs - m.remainderBits ≤ bs by omega) with h | ⟨h, h'⟩
        · omega
        · have := h2 (h' hp); omega)
    obtain ⟨o', f1, f2, f3, f4⟩ := addAll_spec hB m hq hbs h1 h2 L (fun j hj => hi j (by simp [hj])) o e3 (e2.trans hl)
    refine ⟨o', ?_, f2, f3, ?_⟩
    · rw [List.foldlM_cons]
      simp only [e1]
      exact f1
    · rw [f4, e4, List.map_cons, List.sum_cons, show i + bs - m.remainderBits = (bs - m.remainderBits) + i by omega, pow_add]
      ring

/-- What the constructor of `sparse_mod` establishes. -/
structure IsSparse (B : Nat) (m : SparseMod) (M : (ZMod 2)[X]) : Prop where
  eq : M = X ^ m.remainderBits + (m.indices.map fun i => (X : (ZMod 2)[X]) ^ i).sum
  gap : ∀ i ∈ m.indices, i + m.blockBits ≤ m.remainderBits
  pos : 1 ≤ m.blockBits
  le : m.blockBits ≤ m.remainderBits + 1
  quot : m.quotientSize = (m.blockBits + B - 1) / B

theorem low_sum {n : Nat} : ∀ (L : List Nat), (∀ i ∈ L, i < n) → Low n (L.map fun i => (X : (ZMod 2)[X]) ^ i).sum
  | [], _ => by simpa using Low.zero n
  | i :: L, h => by
    rw [List.map_cons, List.sum_cons]
    exact ((Low.X_pow i).mono (h i (by simp))).add (low_sum L fun j hj => h j (by simp [hj]))

/-- All blocks, from `db` down to the remainder, fit. -/
def AllFit (B len rb bb : Nat) : (fuel db : Nat) → Prop
  | 0, _ => True
  | f + 1, db => db > rb → BlockFits B len (max (db - bb) rb) db ∧ AllFit B len rb bb f (max (db - bb) rb)

theorem mul_low {n k : Nat} {p q : (ZMod 2)[X]} (hp : Low n p) (hq : Low (k + 1) q) : Low (n + k) (p * q) := by
  intro j hj
  rw [coeff_mul]
  refine Finset.sum_eq_zero fun x hx => ?_
  have := Finset.mem_antidiagonal.1 hx
  by_cases h : n ≤ x.1
  · rw [hp _ h, zero_mul]
  · rw [hq _ (by omega), mul_zero]

theorem low_sum_mul {n c : Nat} {q : (ZMod 2)[X]} (hq : Low c q) : ∀ (L : List Nat), (∀ i ∈ L, i + c ≤ n) → Low n ((L.map fun i => (X : (ZMod 2)[X]) ^ i).sum * q)
  | [], _ => by simpa using Low.zero n
  | i :: L, h => by
    rw [List.map_cons, List.sum_cons, add_mul]
    exact ((hq.X_mul i).mono (by have := h i (by simp); omega)).add (low_sum_mul hq L fun j hj => h j (by simp [hj]))

theorem run_spec (hB : 0 < B) {m : SparseMod} {M : (ZMod 2)[X]} (hm : IsSparse B m M) : ∀ (f : Nat) (x : List Nat) (db : Nat), IsDigits B x →
    db ≤ B * x.length → 0 < f → db < f + m.remainderBits → Low db (ofDigits B x) → AllFit B x.length m.remainderBits m.blockBits f db →
    ∃ o, m.run B f x db = some o ∧ o.length = x.length ∧ IsDigits B o ∧ M ∣ ofDigits B o + ofDigits B x ∧
      Low (min db m.remainderBits) (ofDigits B o)
  | 0, x, db, hx, _, h, _, hL, _ => absurd h (by omega)
  | f + 1, x, db, hx, hlen, _, h, hL, hF => by
    unfold SparseMod.run
    by_cases hc : db > m.remainderBits
    · rw [if_pos hc]
      obtain ⟨hF1, hF2⟩ := hF hc
      have hp := hm.pos
      obtain ⟨bs, hbs⟩ : ∃ bs, bs = max (db - m.blockBits) m.remainderBits := ⟨_, rfl⟩
      rw [← hbs] at hF1 hF2
      simp only [← hbs]
      have hb1 : m.remainderBits ≤ bs := by omega
      have hb2 : bs < db := by omega
      have hb3 : db ≤ bs + m.blockBits := by omega
      obtain ⟨q, q1, q2, q3, q4, q5⟩ := copyBits_top hB hx hlen hb2 hL
      rw [q1, Option.bind_some]
      have hql : q.length ≤ m.quotientSize := by
        rw [q2, hm.quot]
        exact Nat.div_le_div_right (by omega)
      rw [if_pos hql, ← q2]
      rw [BlockFits, ← q2] at hF1
      have hfit : bs / B + q.length ≤ x.length := by
        by_cases h0 : bs % B = 0
        · have hd := Nat.div_add_mod bs B
          rw [h0] at hd
          rw [q2]
          have : (db - bs + B - 1) / B < x.length - bs / B + 1 := by
            rw [Nat.div_lt_iff_lt_mul hB, Nat.add_mul, Nat.sub_mul, Nat.mul_comm x.length, Nat.mul_comm (bs / B)]
            omega
          have : bs / B ≤ x.length := by
            apply Nat.div_le_of_le_mul
            omega
          omega
        · have := hF1 h0; omega
      obtain ⟨o1, a1, a2, a3, a4⟩ := addAll_spec hB m q3 hb1 hfit hF1 m.indices (fun i hi => by have := hm.gap i hi; omega) x hx rfl
      unfold SparseMod.addAll
      rw [a1, Option.bind_some]
      obtain ⟨o2, c1, c2, c3, c4⟩ := addAt_spec hB q3 a3 (pos := bs) (by rw [a2]; exact hfit) (by rw [a2]; exact hF1)
      rw [c1, Option.bind_some]
      have hval : ofDigits B o2 = ofDigits B x + X ^ (bs - m.remainderBits) * ofDigits B q * M := by
        rw [c4, a4, hm.eq]
        have : (X : (ZMod 2)[X]) ^ bs = X ^ (bs - m.remainderBits) * X ^ m.remainderBits := by rw [← pow_add, Nat.sub_add_cancel hb1]
        rw [this]
        ring
      have hlow : Low bs (ofDigits B o2) := by
        have : ofDigits B o2 = (ofDigits B x + X ^ bs * ofDigits B q) +
            X ^ (bs - m.remainderBits) * ((m.indices.map fun i => (X : (ZMod 2)[X]) ^ i).sum * ofDigits B q) := by
          rw [c4, a4]; ring
        rw [this]
        refine q5.add (((low_sum_mul (n := m.remainderBits) q4 m.indices ?_).X_mul _).mono (by omega))
        intro i hi
        have := hm.gap i hi
        omega
      have l2 : o2.length = x.length := c2.trans a2
      obtain ⟨o, d1, d2, d3, d4, d5⟩ := run_spec hB hm f o2 bs c3 (by rw [l2]; omega) (by omega) (by omega) hlow (by rw [l2]; exact hF2)
      refine ⟨o, d1, d2.trans l2, d3, ?_, d5.mono (by omega)⟩
      have : ofDigits B o + ofDigits B x = (ofDigits B o + ofDigits B o2) + X ^ (bs - m.remainderBits) * ofDigits B q * M := by
        rw [hval]
        linear_combination - add_self (X ^ (bs - m.remainderBits) * ofDigits B q * M)
      rw [this]
      exact dvd_add d4 (Dvd.intro_left _ rfl)
    · rw [if_neg hc]
      exact ⟨x, rfl, rfl, hx, by rw [add_self]; exact dvd_zero _, hL.mono (by omega)⟩

theorem filter_sum_coeff (f : Nat → Bool) (k j : Nat) : ((((List.range k).filter f).map fun i => (X : (ZMod 2)[X]) ^ i).sum).coeff j = if j < k ∧ f j = true then 1 else 0 := by
  induction k with
  | zero => simp
  | succ k ih =>
    rw [List.range_succ, List.filter_append, List.map_append, List.sum_append, coeff_add, ih]
    by_cases hk : f k = true
    · rw [List.filter_cons_of_pos hk]
      by_cases hj : j = k
      · subst hj; simp [hk]
      · have : j < k + 1 ↔ j < k := by omega
        simp [coeff_X_pow, hj, this]
    · rw [List.filter_cons_of_neg hk]
      by_cases hj : j = k
      · subst hj; simp [hk]
      · have : j < k + 1 ↔ j < k := by omega
        simp [this]

theorem getLast?_filter_range (f : Nat → Bool) (k : Nat) : match ((List.range k).filter f).getLast? with
    | none => ∀ i < k, f i = false
    | some i => i < k ∧ f i = true ∧ ∀ j < k, i < j → f j = false := by
  induction k with
  | zero => simp
  | succ k ih =>
    rw [List.range_succ, List.filter_append]
    by_cases hk : f k = true
    · rw [List.filter_cons_of_pos hk, List.filter_nil, List.getLast?_concat]
      exact ⟨by omega, hk, fun j h1 h2 => by omega⟩
    · rw [List.filter_cons_of_neg hk, List.filter_nil, List.append_nil]
      have hk' : f k = false := by simpa using hk
      revert ih
      cases ((List.range k).filter f).getLast? with
      | none =>
        intro ih i hi
        rcases Nat.lt_succ_iff_lt_or_eq.1 hi with h | rfl
        · exact ih i h
        · exact hk'
      | some a =>
        rintro ⟨h1, h2, h3⟩
        refine ⟨by omega, h2, fun j hj hj2 => ?_⟩
        rcases Nat.lt_succ_iff_lt_or_eq.1 hj with h | rfl
        · exact h3 j h hj2
        · exact hk'

theorem make_spec (hB : 0 < B) {d : List Nat} (hd : IsDigits B d) {rb : Nat} (hlen : rb < B * d.length) (hl : Low (rb + 1) (ofDigits B d))
    (htop : (ofDigits B d).coeff rb = 1) :
    ∃ m, SparseMod.make B d (rb + 1) = some m ∧ IsSparse B m (ofDigits B d) ∧ m.remainderBits = rb ∧
      ∀ g, IsGap (ofDigits B d) rb g → m.blockBits = g := by
  have hc : (rb + 1 + B - 1) / B ≤ d.length := by
    rw [← Nat.lt_succ_iff, Nat.div_lt_iff_lt_mul hB, Nat.succ_mul, Nat.mul_comm]
    omega
  have hall : (List.range (rb + 1)).filter (dbit B d) = (List.range rb).filter (dbit B d) ++ [rb] := by
    rw [List.range_succ, List.filter_append, List.filter_cons_of_pos ((dbit_iff hB hd rb).2 htop), List.filter_nil]
  have hdb : (fun i => (d.getD (i / B) 0).testBit (i % B)) = dbit B d := rfl
  unfold SparseMod.make
  simp only [hdb]
  rw [if_pos hc, hall, if_neg (by simp), List.dropLast_concat]
  have hlast := getLast?_filter_range (dbit B d) rb
  refine ⟨_, rfl, ?_, by simp, ?_⟩
  · refine ⟨?_, ?_, ?_, ?_, rfl⟩
    · ext j
      simp only [Nat.add_sub_cancel]
      rw [coeff_add, filter_sum_coeff, coeff_X_pow]
      rcases Nat.lt_trichotomy j rb with h | h | h
      · rw [coeff_dbit hB hd, if_neg (show ¬ j = rb by omega)]
        simp [h]
      · subst h
        rw [htop]; simp
      · rw [hl j (by omega), if_neg (by omega), if_neg (by omega), add_zero]
    · intro i hi
      obtain ⟨hi1, hi2⟩ := List.mem_filter.1 hi
      have hi1 := List.mem_range.1 hi1
      revert hlast
      simp only [Nat.add_sub_cancel]
      cases ((List.range rb).filter (dbit B d)).getLast? with
      | none => intro hlast; rw [hlast i hi1] at hi2; simp at hi2
      | some a =>
        rintro ⟨h1, h2, h3⟩
        simp only
        by_cases hia : a < i
        · rw [h3 i hi1 hia] at hi2; simp at hi2
        · omega
    · revert hlast
      cases ((List.range rb).filter (dbit B d)).getLast? with
      | none => intro _; simp
      | some a => rintro ⟨h1, -⟩; simp only; omega
    · cases ((List.range rb).filter (dbit B d)).getLast? with
      | none => simp
      | some a => simp only; omega
  · intro g hg
    have g1 := hg.pos
    revert hlast
    cases ((List.range rb).filter (dbit B d)).getLast? with
    | none =>
      intro hlast
      rcases hg.last with h | ⟨h, h'⟩
      · exact h.symm
      · have := (dbit_false_iff hB hd _).1 (hlast (rb - g) (by omega))
        rw [h'] at this
        exact absurd this (by decide)
    | some a =>
      rintro ⟨h1, h2, h3⟩
      simp only
      have ha := (dbit_iff hB hd a).1 h2
      have hna : ¬ rb < a + g := fun h => by
        rw [hg.zero a h1 h] at ha; exact absurd ha (by decide)
      rcases hg.last with h | ⟨h, h'⟩
      · omega
      · by_cases hlt : a < rb - g
        · have := (dbit_false_iff hB hd _).1 (h3 (rb - g) (by omega) hlt)
          rw [h'] at this
          exact absurd this (by decide)
        · omega

end
end Gf2
end Boost.Random
