import Verif.Spec.Mixmax
import Verif.Proofs.Run
import Mathlib.Tactic.Ring
import Mathlib.Tactic.LinearCombination
import Mathlib.Algebra.BigOperators.Fin

namespace Boost.Random.Mixmax
open Spec

theorem mod_eq (k : Nat) (hk : k < 2 ^ 64) : modMersenne k = k % 2 ^ 61 + k / 2 ^ 61 := by
  unfold modMersenne M61
  rw [show (2305843009213693951 : Nat) = 2 ^ 61 - 1 by decide, Nat.and_two_pow_sub_one_eq_mod, Nat.shiftRight_eq_div_pow]
  omega

theorem p61 : ((2 ^ 61 : Nat) : ZMod mixP) = 1 := by
  have : (2 ^ 61 : Nat) = mixP + 1 := by decide
  rw [this, Nat.cast_add, ZMod.natCast_self, Nat.cast_one, zero_add]

theorem mod_castZ (k : Nat) (hk : k < 2 ^ 64) : (modMersenne k : ZMod mixP) = (k : ZMod mixP) := by
  rw [mod_eq k hk]
  conv_rhs => rw [← Nat.div_add_mod k (2 ^ 61)]
  rw [Nat.cast_add, Nat.cast_add, Nat.cast_mul, p61]
  ring

theorem modadd_eq (a b : Nat) (h : a + b < 2 ^ 64) : modadd a b = (a + b) % 2 ^ 61 + (a + b) / 2 ^ 61 := by
  unfold modadd
  rw [Nat.mod_eq_of_lt h, mod_eq _ h]

theorem modadd_cast (a b : Nat) (h : a + b < 2 ^ 64) : (modadd a b : ZMod mixP) = a + b := by
  unfold modadd
  rw [Nat.mod_eq_of_lt h, mod_castZ _ h, Nat.cast_add]

theorem mul_xor {m a b : Nat} (hb : b < 2 ^ m) : 2 ^ m * a ^^^ b = 2 ^ m * a + b := by
  rw [Nat.two_pow_add_eq_or_of_lt hb]
  apply Nat.eq_of_testBit_eq
  intro i
  rw [Nat.testBit_xor, Nat.testBit_or, Nat.testBit_two_pow_mul]
  by_cases h : m ≤ i
  · rw [Nat.testBit_lt_two_pow (lt_of_lt_of_le hb (Nat.pow_le_pow_right (by omega) h))]; simp
  · simp [h]

/-- `MULWU` is a rotation of 61 bits. -/
theorem mulwu_eq (mul k : Nat) (hm : 1 ≤ mul) (hm' : mul ≤ 60) (hk : k ≤ 2 ^ 61) :
    mulwu mul k = (k % 2 ^ (61 - mul)) * 2 ^ mul + k / 2 ^ (61 - mul) ∧ k / 2 ^ (61 - mul) ≤ 2 ^ mul := by
  have hpp : 2 ^ 61 = 2 ^ (61 - mul) * 2 ^ mul := by rw [← Nat.pow_add]; congr 1; omega
  have hmask : ∀ x, x % 2 ^ 64 &&& M61 = x % 2 ^ 61 := by
    intro x
    unfold M61
    rw [show (2305843009213693951 : Nat) = 2 ^ 61 - 1 by decide, Nat.and_two_pow_sub_one_eq_mod,
      Nat.mod_mod_of_dvd _ (by decide)]
  have h1 : (k <<< mul) % 2 ^ 61 = (k % 2 ^ (61 - mul)) * 2 ^ mul := by
    rw [Nat.shiftLeft_eq, hpp, Nat.mul_mod_mul_right]
  have hle : k / 2 ^ (61 - mul) ≤ 2 ^ mul := by
    apply Nat.div_le_of_le_mul
    rwa [← hpp]
  refine ⟨?_, hle⟩
  unfold mulwu
  rw [hmask, h1, Nat.shiftRight_eq_div_pow]
  rcases Nat.lt_or_ge (k / 2 ^ (61 - mul)) (2 ^ mul) with h | h
  · rw [Nat.mul_comm, mul_xor h]
  · have hk2 : k = 2 ^ 61 := by
      have := Nat.div_add_mod k (2 ^ (61 - mul))
      have h3 : 2 ^ (61 - mul) * 2 ^ mul ≤ 2 ^ (61 - mul) * (k / 2 ^ (61 - mul)) := Nat.mul_le_mul_left _ h
      rw [← hpp] at h3
      omega
    rw [hk2, hpp, Nat.mul_mod_right, Nat.zero_mul, Nat.zero_xor, Nat.zero_add]

theorem mulwu_cast (mul k : Nat) (hm : 1 ≤ mul) (hm' : mul ≤ 60) (hk : k ≤ 2 ^ 61) :
    (mulwu mul k : ZMod mixP) = 2 ^ mul * k := by
  have hpp : (2 : ZMod mixP) ^ (61 - mul) * 2 ^ mul = 1 := by
    rw [← pow_add, show 61 - mul + mul = 61 by omega]
    exact_mod_cast p61
  rw [(mulwu_eq mul k hm hm' hk).1]
  conv_rhs => rw [← Nat.div_add_mod k (2 ^ (61 - mul))]
  push_cast
  linear_combination (- (k / 2 ^ (61 - mul) : Nat) : ZMod mixP) * hpp

/-- Bounds on `MULWU`: below `2^61`, equal to `2^61 - 1` only for `2^61 - 1`, and small for `2^61`. -/
theorem mulwu_bound (mul k : Nat) (hm : 1 ≤ mul) (hm' : mul ≤ 60) (hk : k ≤ 2 ^ 61) :
    mulwu mul k ≤ 2 ^ 61 - 1 ∧ (k = 2 ^ 61 → mulwu mul k ≤ 2 ^ 60) := by
  have hpp : 2 ^ 61 = 2 ^ (61 - mul) * 2 ^ mul := by rw [← Nat.pow_add]; congr 1; omega
  obtain ⟨h1, h2⟩ := mulwu_eq mul k hm hm' hk
  have h60 : 2 ^ mul ≤ 2 ^ 60 := Nat.pow_le_pow_right (by omega) hm'
  have hk2 : k = 2 ^ 61 → mulwu mul k ≤ 2 ^ 60 := by
    intro e
    have : k % 2 ^ (61 - mul) = 0 := by rw [e, hpp, Nat.mul_mod_right]
    rw [h1, this, Nat.zero_mul, Nat.zero_add]; omega
  refine ⟨?_, hk2⟩
  by_cases e : k = 2 ^ 61
  · have := hk2 e; omega
  · have h3 : k / 2 ^ (61 - mul) < 2 ^ mul := by
      rw [Nat.div_lt_iff_lt_mul (Nat.two_pow_pos _), Nat.mul_comm, ← hpp]; omega
    have h4 : k % 2 ^ (61 - mul) + 1 ≤ 2 ^ (61 - mul) := Nat.mod_lt _ (Nat.two_pow_pos _)
    have h5 := Nat.mul_le_mul_right (2 ^ mul) h4
    rw [← hpp, Nat.add_mul, Nat.one_mul] at h5
    omega

/-! ### one refill -/

/-- The recurrence on the elements after the first, modulo `p`. -/
def specLoop (c : ZMod mixP) : List (ZMod mixP) → ZMod mixP → ZMod mixP → List (ZMod mixP)
  | [], _, _ => []
  | y :: Y, P, V => (V + c * P + (P + y)) :: specLoop c Y (P + y) (V + c * P + (P + y))

theorem specLoop_length (c : ZMod mixP) (Y : List (ZMod mixP)) (P V : ZMod mixP) : (specLoop c Y P V).length = Y.length := by
  induction Y generalizing P V with
  | nil => rfl
  | cons y Y ih => simp [specLoop, ih]

theorem iterLoop_spec (mul : Nat) (hm : 1 ≤ mul) (hm' : mul ≤ 60) (Y : List Nat) (hY : ∀ y ∈ Y, y ≤ 2 ^ 61 + 1) :
    ∀ (P V S o : Nat), P ≤ 2 ^ 61 → V ≤ 2 ^ 61 + 1 → (V = 2 ^ 61 + 1 → P = 2 ^ 61) → S < 2 ^ 64 →
      o + Y.length < 2 ^ 32 →
      (∀ v ∈ (iterLoop mul Y P V S o).1, v ≤ 2 ^ 61 + 1) ∧ (iterLoop mul Y P V S o).1.length = Y.length ∧
      (iterLoop mul Y P V S o).2.1 < 2 ^ 64 ∧ (iterLoop mul Y P V S o).2.2 ≤ o + Y.length ∧
      (iterLoop mul Y P V S o).2.1 + 2 ^ 64 * (iterLoop mul Y P V S o).2.2 =
        S + 2 ^ 64 * o + (iterLoop mul Y P V S o).1.sum ∧
      (iterLoop mul Y P V S o).1.map (Nat.cast : Nat → ZMod mixP) = specLoop (2 ^ mul) (Y.map Nat.cast) P V := by
  induction Y with
  | nil => intro P V S o _ _ _ hS _
           exact ⟨by simp [iterLoop], rfl, hS, le_refl _, by simp only [iterLoop, List.sum_nil, Nat.add_zero], rfl⟩
  | cons y Y ih =>
    intro P V S o hP hV hVP hS ho
    have hy : y ≤ 2 ^ 61 + 1 := hY y (by simp)
    obtain ⟨b1, b2⟩ := mulwu_bound mul P hm hm' hP
    have e1 : (V + mulwu mul P) % 2 ^ 64 = V + mulwu mul P := Nat.mod_eq_of_lt (by omega)
    have c1 := mulwu_cast mul P hm hm' hP
    have e2 := modadd_eq P y (by omega)
    have c2 := modadd_cast P y (by omega)
    have bP : modadd P y ≤ 2 ^ 61 := by omega
    have e3 := modadd_eq (V + mulwu mul P) (modadd P y) (by omega)
    have c3 := modadd_cast (V + mulwu mul P) (modadd P y) (by omega)
    have bV : modadd (V + mulwu mul P) (modadd P y) ≤ 2 ^ 61 + 1 := by
      by_cases h : V = 2 ^ 61 + 1
      · have := b2 (hVP h); omega
      · omega
    have bVP : modadd (V + mulwu mul P) (modadd P y) = 2 ^ 61 + 1 → modadd P y = 2 ^ 61 := by
      intro h
      by_cases h' : V = 2 ^ 61 + 1
      · have := b2 (hVP h'); omega
      · omega
    simp only [iterLoop, e1]
    rw [List.length_cons] at ho
    rw [Nat.mod_eq_of_lt (show o + 1 < 2 ^ 64 by omega)]
    generalize mulwu mul P = PO at *
    generalize modadd P y = P' at *
    generalize modadd (V + PO) P' = V' at *
    have key : ∃ o', (if (S + V') % 2 ^ 64 < V' then o + 1 else o) = o' ∧ o' ≤ o + 1 ∧
        (S + V') % 2 ^ 64 + 2 ^ 64 * o' = S + 2 ^ 64 * o + V' := by
      split
      · exact ⟨_, rfl, by omega, by omega⟩
      · exact ⟨_, rfl, by omega, by omega⟩
    obtain ⟨o', ho', ho1, hsum⟩ := key
    rw [ho']
    obtain ⟨i1, i2, i3, i4, i5, i6⟩ := ih (fun z hz => hY z (by simp [hz])) P' V' ((S + V') % 2 ^ 64) o' bP bV bVP
      (Nat.mod_lt _ (by decide)) (by omega)
    refine ⟨?_, by rw [List.length_cons, List.length_cons, i2], i3, by rw [List.length_cons]; omega, ?_, ?_⟩
    · intro v hv
      rcases List.mem_cons.1 hv with rfl | hv
      · exact bV
      · exact i1 v hv
    · rw [List.sum_cons]; omega
    · simp only [List.map_cons, specLoop]
      rw [i6, c3, c2]
      push_cast
      rw [c1]

theorem specLoop_get (c : ZMod mixP) (Y : List (ZMod mixP)) (P V : ZMod mixP) (t : Nat) (ht : t < Y.length) :
    (specLoop c Y P V).getD t 0 = V + (t + 1) * (1 + c) * P +
      ∑ j ∈ Finset.range (t + 1), (((t - j : Nat) : ZMod mixP) * (c + 1) + 1) * Y.getD j 0 := by
  induction Y generalizing P V t with
  | nil => simp at ht
  | cons y Y ih =>
    cases t with
    | zero => simp [specLoop]; ring
    | succ t =>
      rw [specLoop, List.getD_cons_succ, ih _ _ t (by simpa using ht), Finset.sum_range_succ' _ (t + 1)]
      simp only [List.getD_cons_succ, List.getD_cons_zero, Nat.add_sub_add_right, Nat.sub_zero]
      push_cast
      ring

theorem cast_sum (V : List Nat) : ((V.sum : Nat) : ZMod mixP) = ∑ j ∈ Finset.range V.length, ((V.getD j 0 : Nat) : ZMod mixP) := by
  induction V with
  | nil => simp
  | cons v V ih =>
    rw [List.sum_cons, List.length_cons, Finset.sum_range_succ']
    simp only [List.getD_cons_succ, List.getD_cons_zero]
    rw [Nat.cast_add, ih, add_comm]

theorem getD_map_cast (V : List Nat) (j : Nat) : (V.map (Nat.cast : Nat → ZMod mixP)).getD j 0 = ((V.getD j 0 : Nat) : ZMod mixP) := by
  rw [List.getD_eq_getElem?_getD, List.getD_eq_getElem?_getD, List.getElem?_map]
  cases V[j]? <;> simp

/-- One refill: bounds, the new sum, and the matrix product. -/
theorem iterate_spec (mul : Nat) (hm : 1 ≤ mul) (hm' : mul ≤ 60) (N : Nat) (hN : 1 ≤ N) (hN' : N < 2 ^ 31) (Y : List Nat) (s : Nat)
    (hl : Y.length = N) (hY : ∀ y ∈ Y, y ≤ 2 ^ 61 + 1) (hs : s ≤ 2 ^ 61)
    (hsum : (s : ZMod mixP) = ((Y.sum : Nat) : ZMod mixP)) :
    (iterateRawVec mul Y s).1.length = N ∧ (∀ v ∈ (iterateRawVec mul Y s).1, v ≤ 2 ^ 61 + 1) ∧
    (iterateRawVec mul Y s).2 ≤ 2 ^ 61 - 1 ∧
    ((iterateRawVec mul Y s).2 : ZMod mixP) = (((iterateRawVec mul Y s).1.sum : Nat) : ZMod mixP) ∧
    ((iterateRawVec mul Y s).2 = 0 ↔ (iterateRawVec mul Y s).1.sum = 0) ∧
    mixVec N (iterateRawVec mul Y s).1 = (mixMatrix N (2 ^ mul + 1)).mulVec (mixVec N Y) := by
  obtain ⟨y0, Y', rfl⟩ : ∃ y0 Y', Y = y0 :: Y' := by
    cases Y with
    | nil => simp at hl; omega
    | cons a b => exact ⟨a, b, rfl⟩
  rw [List.length_cons] at hl
  obtain ⟨i1, i2, i3, i4, i5, i6⟩ := iterLoop_spec mul hm hm' Y' (fun y hy => hY y (by simp [hy])) 0 s s 0
    (by omega) (by omega) (by omega) (by omega) (by omega)
  unfold iterateRawVec
  rw [List.tail_cons]
  dsimp only
  generalize hr : iterLoop mul Y' 0 s s 0 = r at *
  have e1 := mod_eq r.2.1 i3
  have c1 := mod_castZ r.2.1 i3
  have e2 : (r.2.2 <<< 3) % 2 ^ 64 = 8 * r.2.2 := by rw [Nat.shiftLeft_eq]; omega
  rw [e2, Nat.mod_eq_of_lt (show modMersenne r.2.1 + 8 * r.2.2 < 2 ^ 64 by omega)]
  have e3 := mod_eq (modMersenne r.2.1 + 8 * r.2.2) (by omega)
  have c3 := mod_castZ (modMersenne r.2.1 + 8 * r.2.2) (by omega)
  refine ⟨by simp [i2, hl], ?_, by omega, ?_, ?_, ?_⟩
  · intro v hv
    rcases List.mem_cons.1 hv with rfl | hv
    · omega
    · exact i1 v hv
  · rw [c3, Nat.cast_add, c1, List.sum_cons]
    have := congrArg (Nat.cast : Nat → ZMod mixP) i5
    push_cast at this ⊢
    have h64 : (18446744073709551616 : ZMod mixP) = 8 := by
      have := p61
      push_cast at this
      linear_combination 8 * this
    rw [h64] at this
    linear_combination this
  · rw [List.sum_cons]
    omega
  · funext i
    unfold mixVec Matrix.mulVec mixMatrix dotProduct
    rw [Fin.sum_univ_eq_sum_range (fun j => ((mixEntry (2 ^ mul + 1) i j : Nat) : ZMod mixP) * (((y0 :: Y').getD j 0 : Nat) : ZMod mixP)) N]
    rw [cast_sum, List.length_cons, hl] at hsum
    have hsplit : ∀ t, t < N → ∀ g : Nat → ZMod mixP, ∑ j ∈ Finset.range N, g j =
        g 0 + ∑ j ∈ Finset.range t, g (j + 1) + ∑ j ∈ Finset.range (N - 1 - t), g (j + (t + 1)) := by
      intro t ht g
      obtain ⟨d, rfl⟩ : ∃ d, N = t + 1 + d := ⟨N - 1 - t, by omega⟩
      rw [Finset.sum_range_add, Finset.sum_range_succ', show t + 1 + d - 1 - t = d by omega, add_comm (∑ j ∈ Finset.range t, g (j + 1))]
      congr 1
      exact Finset.sum_congr rfl fun j _ => by rw [add_comm]
    obtain ⟨i, hi⟩ := i
    cases i with
    | zero =>
      show ((s : Nat) : ZMod mixP) = _
      rw [hsum]
      refine Finset.sum_congr rfl fun j _ => ?_
      have : mixEntry (2 ^ mul + 1) 0 j = 1 := by unfold mixEntry; rw [if_pos (by omega)]
      rw [this]; simp
    | succ t =>
      show ((((s :: r.1).getD (t + 1) 0 : Nat)) : ZMod mixP) = _
      rw [List.getD_cons_succ, ← getD_map_cast, i6, specLoop_get _ _ _ _ _ (by simp; omega), hsum,
        hsplit (t + 1) hi, hsplit (t + 1) hi]
      have hA : ∀ j, mixEntry (2 ^ mul + 1) (t + 1) (j + (t + 1 + 1)) = 1 := fun j => by
        unfold mixEntry; rw [if_pos (by omega)]
      have hB : ∀ j ∈ Finset.range (t + 1), ((mixEntry (2 ^ mul + 1) (t + 1) (j + 1) : Nat) : ZMod mixP) =
          ((t - j : Nat) : ZMod mixP) * (2 ^ mul + 1) + 2 := fun j hj => by
        have := Finset.mem_range.1 hj
        unfold mixEntry
        rw [if_neg (by omega), Nat.add_sub_add_right]
        push_cast
        ring
      have hC : mixEntry (2 ^ mul + 1) (t + 1) 0 = 1 := rfl
      simp only [hA, hC, Nat.cast_one, one_mul, List.getD_cons_zero, Nat.cast_zero, mul_zero, add_zero]
      rw [Finset.sum_congr rfl (fun j hj => by rw [hB j hj] :
        ∀ j ∈ Finset.range (t + 1), ((mixEntry (2 ^ mul + 1) (t + 1) (j + 1) : Nat) : ZMod mixP) * (((y0 :: Y').getD (j + 1) 0 : Nat) : ZMod mixP) = _)]
      simp only [List.getD_cons_succ, getD_map_cast]
      have : ∑ j ∈ Finset.range (t + 1), (((t - j : Nat) : ZMod mixP) * (2 ^ mul + 1) + 2) * ((Y'.getD j 0 : Nat) : ZMod mixP) =
          ∑ j ∈ Finset.range (t + 1), ((Y'.getD j 0 : Nat) : ZMod mixP) +
          ∑ j ∈ Finset.range (t + 1), (((t - j : Nat) : ZMod mixP) * (2 ^ mul + 1) + 1) * ((Y'.getD j 0 : Nat) : ZMod mixP) := by
        rw [← Finset.sum_add_distrib]
        exact Finset.sum_congr rfl fun j _ => by ring
      rw [this]
      ring

/-! ### calls -/

theorem ok_getElem {N : Nat} {S : State} (h : MixOK N S) {i : Nat} (hi : i < N) :
    ∃ v, S.V[i]? = some v ∧ v ≤ 2 ^ 61 + 1 ∧ (v : ZMod mixP) = mixVec N S.V ⟨i, hi⟩ := by
  have hl : i < S.V.length := by rw [h.len]; exact hi
  refine ⟨S.V[i], List.getElem?_eq_getElem hl, h.bound _ (List.getElem_mem hl), ?_⟩
  simp [mixVec, List.getElem?_eq_getElem hl]

/-- A call in the middle of the vector. -/
theorem next_mid (mul N : Nat) (S : State) (h : MixOK N S) (hc : S.counter < N) :
    ∃ v, next mul S = some (v, { S with counter := S.counter + 1 }) ∧ S.V[S.counter]? = some v ∧ v ≤ 2 ^ 61 + 1 ∧
      (v : ZMod mixP) = mixVec N S.V ⟨S.counter, hc⟩ ∧ MixOK N { S with counter := S.counter + 1 } := by
  obtain ⟨v, hv, hb, he⟩ := ok_getElem h hc
  refine ⟨v, ?_, hv, hb, he, ⟨h.len, h.bound, h.sum_le, h.sum_eq, by simp, by simp; omega⟩⟩
  unfold next
  rw [if_pos (by rw [h.len]; omega), hv]
  rfl

/-- A call that refills the vector. -/
theorem next_refill (mul N : Nat) (hm : 1 ≤ mul) (hm' : mul ≤ 60) (hN : 2 ≤ N) (hN' : N < 2 ^ 31) (S : State)
    (h : MixOK N S) (hc : S.counter = N) :
    ∃ v S', next mul S = some (v, S') ∧ S'.V[1]? = some v ∧ v ≤ 2 ^ 61 + 1 ∧ S'.counter = 2 ∧
      (v : ZMod mixP) = mixVec N S'.V ⟨1, by omega⟩ ∧ MixOK N S' ∧ S'.V = (iterateRawVec mul S.V S.sumtot).1 ∧
      S'.sumtot = (iterateRawVec mul S.V S.sumtot).2 ∧
      mixVec N S'.V = (mixMatrix N (2 ^ mul + 1)).mulVec (mixVec N S.V) := by
  obtain ⟨i1, i2, i3, i4, i5, i6⟩ := iterate_spec mul hm hm' N (by omega) hN' S.V S.sumtot h.len h.bound h.sum_le h.sum_eq
  have hOK : MixOK N ⟨(iterateRawVec mul S.V S.sumtot).1, (iterateRawVec mul S.V S.sumtot).2, 2⟩ :=
    ⟨i1, i2, by dsimp only; omega, i4, by simp, hN⟩
  obtain ⟨v, hv, hb, he⟩ := ok_getElem hOK (show 1 < N by omega)
  refine ⟨v, ⟨(iterateRawVec mul S.V S.sumtot).1, (iterateRawVec mul S.V S.sumtot).2, 2⟩, ?_, hv, hb, rfl, he, hOK, rfl, rfl, i6⟩
  unfold next
  rw [if_neg (by rw [h.len]; omega)]
  simp only at hv
  dsimp only
  rw [hv]
  rfl

/-- The matrix is injective. -/
theorem specLoop_zero (c : ZMod mixP) (Y : List (ZMod mixP)) (h : ∀ v ∈ specLoop c Y 0 0, v = 0) : ∀ y ∈ Y, y = 0 := by
  induction Y with
  | nil => simp
  | cons y Y ih =>
    have h0 : y = 0 := by
      have := h _ (by rw [specLoop]; exact List.mem_cons_self)
      simpa using this
    subst h0
    intro z hz
    rcases List.mem_cons.1 hz with rfl | hz
    · rfl
    · refine ih (fun v hv => h v ?_) z hz
      rw [specLoop]
      simp only [mul_zero, add_zero]
      exact List.mem_cons_of_mem _ hv

theorem matrix_inj (mul : Nat) (hm : 1 ≤ mul) (hm' : mul ≤ 60) (N : Nat) (hN : 1 ≤ N) (hN' : N < 2 ^ 31)
    (x : Fin N → ZMod mixP) (h : (mixMatrix N (2 ^ mul + 1)).mulVec x = 0) : x = 0 := by
  have : NeZero mixP := ⟨by decide⟩
  set Y := (List.ofFn x).map ZMod.val with hYdef
  have hlen : Y.length = N := by simp [hYdef]
  have hval : ∀ y ∈ Y, y ≤ 2 ^ 61 + 1 := by
    intro y hy
    obtain ⟨z, _, rfl⟩ := List.mem_map.1 hy
    have := ZMod.val_lt z
    have : mixP = 2 ^ 61 - 1 := rfl
    omega
  have hget : ∀ i (hi : i < N), ((Y.getD i 0 : Nat) : ZMod mixP) = x ⟨i, hi⟩ := by
    intro i hi
    simp [hYdef, hi]
  have hx : mixVec N Y = x := by
    funext ⟨i, hi⟩
    exact hget i hi
  set s := ((Y.sum : Nat) : ZMod mixP).val with hs
  have hsc : (s : ZMod mixP) = ((Y.sum : Nat) : ZMod mixP) := by rw [hs, ZMod.natCast_zmod_val]
  have hsb : s ≤ 2 ^ 61 := by
    have := ZMod.val_lt ((Y.sum : Nat) : ZMod mixP)
    have : mixP = 2 ^ 61 - 1 := rfl
    omega
  obtain ⟨i1, i2, i3, i4, i5, i6⟩ := iterate_spec mul hm hm' N hN hN' Y s hlen hval hsb hsc
  rw [hx, h] at i6
  obtain ⟨y0, Y', hY'⟩ : ∃ y0 Y', Y = y0 :: Y' := by
    cases hY : Y with
    | nil => rw [hY] at hlen; simp at hlen; omega
    | cons a b => exact ⟨a, b, rfl⟩
  have hs0 : (s : ZMod mixP) = 0 := by
    have := congrFun i6 ⟨0, by omega⟩
    simpa [mixVec, iterateRawVec] using this
  have hl' : Y'.length + 1 = N := by rw [← hlen, hY', List.length_cons]
  obtain ⟨j1, j2, j3, j4, j5, j6⟩ := iterLoop_spec mul hm hm' Y' (fun y hy => hval y (by rw [hY']; simp [hy])) 0 s s 0
    (by omega) (by omega) (by omega) (by omega) (by omega)
  have hz : ∀ v ∈ specLoop (2 ^ mul) (Y'.map (Nat.cast : Nat → ZMod mixP)) 0 0, v = 0 := by
    have e : specLoop (2 ^ mul) (Y'.map (Nat.cast : Nat → ZMod mixP)) 0 0 =
        (iterLoop mul Y' 0 s s 0).1.map (Nat.cast : Nat → ZMod mixP) := by rw [j6, hs0, Nat.cast_zero]
    rw [e]
    intro v hv
    obtain ⟨k, hk, rfl⟩ := List.mem_iff_getElem.1 hv
    rw [List.length_map] at hk
    have := congrFun i6 ⟨k + 1, by omega⟩
    simpa [mixVec, iterateRawVec, hY', List.getElem?_eq_getElem hk] using this
  have hY0 := specLoop_zero _ _ hz
  have htail : ∀ j, ((Y'.getD j 0 : Nat) : ZMod mixP) = 0 := by
    intro j
    rw [← getD_map_cast]
    by_cases hj : j < Y'.length
    · apply hY0
      rw [List.getD_eq_getElem?_getD, List.getElem?_eq_getElem (by simpa using hj)]
      exact List.getElem_mem _
    · rw [List.getD_eq_getElem?_getD, List.getElem?_eq_none (by simpa using hj)]; rfl
  have hhead : (y0 : ZMod mixP) = 0 := by
    rw [hs0, hY', cast_sum, List.length_cons, Finset.sum_range_succ'] at hsc
    simp only [List.getD_cons_succ, List.getD_cons_zero, htail, Finset.sum_const_zero, zero_add] at hsc
    exact hsc.symm
  funext ⟨i, hi⟩
  rw [← hget i hi, hY']
  cases i with
  | zero => simpa using hhead
  | succ i => rw [List.getD_cons_succ, htail]; rfl

/-! ### text -/

theorem checkSum_spec (vec : List Nat) (acc : Nat) (ha : acc ≤ 2 ^ 61 - 1) (hv : ∀ v ∈ vec, v ≤ 2 ^ 61 - 1) :
    vec.foldl (fun sum v => modMersenne ((sum + v) % 2 ^ 64)) acc ≤ 2 ^ 61 - 1 ∧
    ((vec.foldl (fun sum v => modMersenne ((sum + v) % 2 ^ 64)) acc : Nat) : ZMod mixP) = acc + ((vec.sum : Nat) : ZMod mixP) ∧
    (vec.foldl (fun sum v => modMersenne ((sum + v) % 2 ^ 64)) acc = 0 ↔ acc + vec.sum = 0) := by
  induction vec generalizing acc with
  | nil => exact ⟨ha, by simp, by simp⟩
  | cons v vec ih =>
    have hvb := hv v (by simp)
    have e := modadd_eq acc v (by omega)
    have c := modadd_cast acc v (by omega)
    obtain ⟨h1, h2, h3⟩ := ih (modadd acc v) (by omega) (fun z hz => hv z (by simp [hz]))
    rw [List.foldl_cons, show modMersenne ((acc + v) % 2 ^ 64) = modadd acc v from rfl]
    refine ⟨h1, ?_, ?_⟩
    · rw [h2, c, List.sum_cons, Nat.cast_add, add_assoc]
    · rw [h3, List.sum_cons]; omega

theorem eq_of_cast {a b : Nat} (ha : a ≤ 2 ^ 61 - 1) (hb : b ≤ 2 ^ 61 - 1) (h : (a : ZMod mixP) = b) (hz : a = 0 ↔ b = 0) :
    a = b := by
  rw [ZMod.natCast_eq_natCast_iff'] at h
  have : mixP = 2 ^ 61 - 1 := rfl
  rw [this] at h
  omega

end Boost.Random.Mixmax
