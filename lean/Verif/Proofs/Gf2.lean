import Verif.Spec.Polynomial
import Verif.Model.Polynomial
import Mathlib.Algebra.CharP.Two
import Mathlib.Tactic.Ring
import Mathlib.Tactic.LinearCombination

/-!
# Numbers and digit arrays as polynomials over GF(2)
-/

namespace Boost.Random
namespace Gf2
open Spec Polynomial

theorem add_self (p : (ZMod 2)[X]) : p + p = 0 := CharTwo.add_self_eq_zero p

theorem coeff_ofNat (n k : Nat) : (ofNat n).coeff k = if n.testBit k then 1 else 0 := by
  unfold ofNat
  rw [finsetSum_coeff]
  have h : ∀ i ∈ Finset.range n, (if n.testBit i = true then (X ^ i : (ZMod 2)[X]) else 0).coeff k = if i = k then (if n.testBit k then 1 else 0) else 0 := by
    intro i _
    by_cases hik : i = k
    · subst hik
      by_cases ht : n.testBit i <;> simp [ht]
    · rw [if_neg hik]
      by_cases ht : n.testBit i
      · simp only [ht, if_true, coeff_X_pow]
        rw [if_neg (Ne.symm hik)]
      · simp [ht]
  rw [Finset.sum_congr rfl h, Finset.sum_ite_eq']
  split
  · rfl
  · rename_i hk
    rw [Finset.mem_range, not_lt] at hk
    have : n.testBit k = false := Nat.testBit_lt_two_pow (lt_of_le_of_lt hk Nat.lt_two_pow_self)
    rw [this]; rfl

theorem ite_xor (a b : Bool) : (if (a ^^ b) = true then (1 : ZMod 2) else 0) = (if a = true then 1 else 0) + (if b = true then 1 else 0) := by
  cases a <;> cases b <;> decide

@[simp] theorem ofNat_zero : ofNat 0 = 0 := by unfold ofNat; simp

theorem ofNat_xor (a b : Nat) : ofNat (a ^^^ b) = ofNat a + ofNat b := by
  ext k
  rw [coeff_add, coeff_ofNat, coeff_ofNat, coeff_ofNat, Nat.testBit_xor, ite_xor]

theorem ofNat_shiftLeft (a k : Nat) : ofNat (a <<< k) = X ^ k * ofNat a := by
  ext i
  rw [coeff_X_pow_mul', coeff_ofNat, Nat.testBit_shiftLeft]
  by_cases h : k ≤ i
  · rw [if_pos h, coeff_ofNat]
    simp [h]
  · rw [if_neg h]
    simp [h]

theorem ofNat_two_pow (k : Nat) : ofNat (2 ^ k) = X ^ k := by
  ext i
  rw [coeff_ofNat, Nat.testBit_two_pow, coeff_X_pow]
  by_cases h : k = i <;> simp [h, eq_comm]

theorem ofNat_split (a k : Nat) : ofNat (a % 2 ^ k) + X ^ k * ofNat (a >>> k) = ofNat a := by
  rw [← ofNat_shiftLeft, ← ofNat_xor]
  congr 1
  apply Nat.eq_of_testBit_eq
  intro i
  rw [Nat.testBit_xor, Nat.testBit_mod_two_pow, Nat.testBit_shiftLeft, Nat.testBit_shiftRight]
  by_cases h : i < k
  · simp [h, Nat.not_le.2 h]
  · have h' : k ≤ i := by omega
    simp [h, h', Nat.add_sub_cancel' h']

/-- Disjoint numbers: `|` is `^`. -/
theorem or_eq_xor {a b : Nat} (h : ∀ i, a.testBit i = true → b.testBit i = true → False) : a ||| b = a ^^^ b := by
  apply Nat.eq_of_testBit_eq
  intro i
  rw [Nat.testBit_or, Nat.testBit_xor]
  have := h i
  cases ha : a.testBit i <;> cases hb : b.testBit i <;> simp_all

/-- `(t << s) | (prev >> (B - s))`. -/
theorem ofNat_funnel {B s t prev : Nat} (hs : s ≤ B) (hp : prev < 2 ^ B) :
    ofNat ((t <<< s) % 2 ^ B ||| prev >>> (B - s)) = ofNat ((t <<< s) % 2 ^ B) + ofNat (prev >>> (B - s)) := by
  rw [or_eq_xor, ofNat_xor]
  intro i h1 h2
  rw [Nat.testBit_mod_two_pow, Nat.testBit_shiftLeft] at h1
  rw [Nat.testBit_shiftRight] at h2
  simp only [Bool.and_eq_true, decide_eq_true_eq] at h1
  have : prev.testBit (B - s + i) = false := Nat.testBit_lt_two_pow (lt_of_lt_of_le hp (Nat.pow_le_pow_right (by omega) (by omega)))
  rw [this] at h2
  cases h2

theorem coeff_ofNat_of_lt {n k j : Nat} (h : n < 2 ^ k) (hj : k ≤ j) : (ofNat n).coeff j = 0 := by
  rw [coeff_ofNat, Nat.testBit_lt_two_pow (lt_of_lt_of_le h (Nat.pow_le_pow_right (by omega) hj))]
  rfl

section
variable {B : Nat}

@[simp] theorem ofDigits_nil : ofDigits B [] = 0 := rfl
@[simp] theorem ofDigits_cons (d : Nat) (ds : List Nat) : ofDigits B (d :: ds) = ofNat d + X ^ B * ofDigits B ds := rfl

theorem ofDigits_append (l r : List Nat) : ofDigits B (l ++ r) = ofDigits B l + X ^ (B * l.length) * ofDigits B r := by
  induction l with
  | nil => simp
  | cons d l ih => rw [List.cons_append, ofDigits_cons, ih, ofDigits_cons, List.length_cons]; ring

theorem ofDigits_take_drop (l : List Nat) (k : Nat) (h : k ≤ l.length) : ofDigits B l = ofDigits B (l.take k) + X ^ (B * k) * ofDigits B (l.drop k) := by
  conv_lhs => rw [← List.take_append_drop k l]
  rw [ofDigits_append, List.length_take, Nat.min_eq_left h]

theorem ofDigits_replicate_zero (k : Nat) : ofDigits B (List.replicate k 0) = 0 := by
  induction k with
  | zero => rfl
  | succ k ih => rw [List.replicate_succ, ofDigits_cons, ih]; simp

theorem coeff_ofDigits (hB : 0 < B) (ds : List Nat) (h : IsDigits B ds) (i : Nat) : (ofDigits B ds).coeff i = if (ds.getD (i / B) 0).testBit (i % B) then 1 else 0 := by
  induction ds generalizing i with
  | nil => simp
  | cons d ds ih =>
    rw [ofDigits_cons, coeff_add, coeff_X_pow_mul']
    by_cases hi : B ≤ i
    · rw [if_pos hi, coeff_ofNat_of_lt (h d (by simp)) hi, zero_add, ih (fun x hx => h x (by simp [hx]))]
      have e1 : i / B = (i - B) / B + 1 := by rw [Nat.div_eq_sub_div hB hi]
      have e2 : i % B = (i - B) % B := by rw [Nat.mod_eq_sub_mod hi]
      rw [e1, e2, List.getD_cons_succ]
    · rw [if_neg hi, add_zero, coeff_ofNat, Nat.div_eq_of_lt (by omega), Nat.mod_eq_of_lt (by omega)]
      rfl

theorem _root_.Boost.Random.Spec.IsDigits.nil : IsDigits B [] := by intro d hd; simp at hd
theorem _root_.Boost.Random.Spec.IsDigits.head {d : Nat} {ds : List Nat} (h : IsDigits B (d :: ds)) : d < 2 ^ B := h d (by simp)
theorem _root_.Boost.Random.Spec.IsDigits.tail {d : Nat} {ds : List Nat} (h : IsDigits B (d :: ds)) : IsDigits B ds := fun x hx => h x (by simp [hx])
theorem _root_.Boost.Random.Spec.IsDigits.cons {d : Nat} {ds : List Nat} (h : d < 2 ^ B) (h' : IsDigits B ds) : IsDigits B (d :: ds) := by
  intro x hx
  rcases List.mem_cons.1 hx with rfl | hx
  · exact h
  · exact h' x hx
theorem _root_.Boost.Random.Spec.IsDigits.append {l r : List Nat} (h : IsDigits B l) (h' : IsDigits B r) : IsDigits B (l ++ r) := by
  intro x hx
  rcases List.mem_append.1 hx with hx | hx
  · exact h x hx
  · exact h' x hx
theorem _root_.Boost.Random.Spec.IsDigits.take {l : List Nat} (h : IsDigits B l) (k : Nat) : IsDigits B (l.take k) := fun x hx => h x (List.mem_of_mem_take hx)
theorem _root_.Boost.Random.Spec.IsDigits.drop {l : List Nat} (h : IsDigits B l) (k : Nat) : IsDigits B (l.drop k) := fun x hx => h x (List.mem_of_mem_drop hx)
theorem _root_.Boost.Random.Spec.IsDigits.zeros (k : Nat) : IsDigits B (List.replicate k 0) := by
  intro x hx; rw [List.eq_of_mem_replicate hx]; positivity
theorem _root_.Boost.Random.Spec.IsDigits.set {l : List Nat} (h : IsDigits B l) (k : Nat) {d : Nat} (hd : d < 2 ^ B) : IsDigits B (l.set k d) := by
  intro x hx
  rcases List.mem_or_eq_of_mem_set hx with hx | rfl
  · exact h x hx
  · exact hd

/-! ## Sums -/

/-- What every function that writes `out` keeps. -/
structure Same (B : Nat) (out out' : List Nat) : Prop where
  len : out'.length = out.length
  digits : IsDigits B out → IsDigits B out'

theorem add_spec : ∀ (size : Nat) (l r o : List Nat), IsDigits B l → IsDigits B r → size ≤ l.length → size ≤ r.length → size ≤ o.length →
    ∃ o', add size l r o = some o' ∧ Same B o o' ∧ ofDigits B (o'.take size) = ofDigits B (l.take size) + ofDigits B (r.take size) ∧
      o'.drop size = o.drop size
  | 0, _, _, o, _, _, _, _, _ => ⟨o, rfl, ⟨rfl, id⟩, by simp, rfl⟩
  | k + 1, [], _, _, _, _, h, _, _ => by simp at h
  | k + 1, _ :: _, [], _, _, _, _, h, _ => by simp at h
  | k + 1, _ :: _, _ :: _, [], _, _, _, _, h => by simp at h
  | k + 1, a :: l, b :: r, x :: o, hl, hr, h1, h2, h3 => by
    obtain ⟨o', e1, e2, e3, e4⟩ := add_spec k l r o hl.tail hr.tail (by simpa using h1) (by simpa using h2) (by simpa using h3)
    refine ⟨(a ^^^ b) :: o', by rw [add, e1]; rfl, ⟨by simp [e2.len], fun h => IsDigits.cons (Nat.xor_lt_two_pow hl.head hr.head) (e2.digits h.tail)⟩, ?_, ?_⟩
    · simp only [List.take_succ_cons, ofDigits_cons, e3, ofNat_xor]; ring
    · simpa using e4

theorem ofDigits_le {l : List Nat} {k : Nat} (h : k ≤ l.length) : ofDigits B l = ofDigits B (l.take k) + X ^ (B * k) * ofDigits B (l.drop k) := ofDigits_take_drop l k h

/-- `add` where the output is an operand. -/
theorem add_self_spec (size : Nat) (l o : List Nat) (hl : IsDigits B l) (ho : IsDigits B o) (h1 : size ≤ l.length) (h2 : size ≤ o.length) :
    ∃ o', add size l o o = some o' ∧ o'.length = o.length ∧ IsDigits B o' ∧ ofDigits B o' = ofDigits B o + ofDigits B (l.take size) ∧
      o'.drop size = o.drop size := by
  obtain ⟨o', e1, e2, e3, e4⟩ := add_spec size l o o hl ho h1 h2 h2
  refine ⟨o', e1, e2.len, e2.digits ho, ?_, e4⟩
  rw [ofDigits_take_drop o' size (by rw [e2.len]; exact h2), e3, e4, ofDigits_take_drop o size h2]; ring

theorem add_self_spec' (size : Nat) (l o : List Nat) (hl : IsDigits B l) (ho : IsDigits B o) (h1 : size ≤ l.length) (h2 : size ≤ o.length) :
    ∃ o', add size o l o = some o' ∧ o'.length = o.length ∧ IsDigits B o' ∧ ofDigits B o' = ofDigits B o + ofDigits B (l.take size) ∧
      o'.drop size = o.drop size := by
  obtain ⟨o', e1, e2, e3, e4⟩ := add_spec size o l o ho hl h2 h1 h2
  refine ⟨o', e1, e2.len, e2.digits ho, ?_, e4⟩
  rw [ofDigits_take_drop o' size (by rw [e2.len]; exact h2), e3, e4, ofDigits_take_drop o size h2]; ring

theorem funnel_lt {s t prev : Nat} (hp : prev < 2 ^ B) : (t <<< s) % 2 ^ B ||| prev >>> (B - s) < 2 ^ B :=
  Nat.or_lt_two_pow (Nat.mod_lt _ (Nat.two_pow_pos _)) (lt_of_le_of_lt (Nat.shiftRight_le _ _) hp)

theorem shr_top {s t : Nat} (hs : s ≤ B) : (t <<< s) >>> B = t >>> (B - s) := by
  apply Nat.eq_of_testBit_eq
  intro i
  rw [Nat.testBit_shiftRight, Nat.testBit_shiftRight, Nat.testBit_shiftLeft]
  have : s ≤ B + i := by omega
  simp [this, show B + i - s = B - s + i by omega]

theorem addShiftedLoop_spec {s : Nat} (hs : s ≤ B) : ∀ (size : Nat) (l : List Nat) (prev : Nat) (o : List Nat), IsDigits B l → prev < 2 ^ B → IsDigits B o →
    size ≤ l.length → size < o.length →
    ∃ o', addShiftedLoop B s size l prev o = some o' ∧ o'.length = o.length ∧ IsDigits B o' ∧
      ofDigits B o' = ofDigits B o + X ^ s * ofDigits B (l.take size) + ofNat (prev >>> (B - s)) ∧ o'.drop (size + 1) = o.drop (size + 1)
  | _, _, _, [], _, _, _, _, h => by simp at h
  | 0, l, prev, x :: o, _, hp, ho, _, _ => by
    refine ⟨(x ^^^ (prev >>> (B - s))) :: o, by cases l <;> rfl, rfl, IsDigits.cons (Nat.xor_lt_two_pow ho.head (lt_of_le_of_lt (Nat.shiftRight_le _ _) hp)) ho.tail, ?_, rfl⟩
    simp only [ofDigits_cons, ofNat_xor, List.take_zero, ofDigits_nil]; ring
  | k + 1, [], _, _ :: _, _, _, _, h, _ => by simp at h
  | k + 1, t :: l, prev, x :: o, hl, hp, ho, h1, h2 => by
    obtain ⟨o', e1, e2, e3, e4, e5⟩ := addShiftedLoop_spec hs k l t o hl.tail hl.head ho.tail (by simpa using h1) (by simpa using h2)
    refine ⟨_, by rw [addShiftedLoop, e1]; rfl, by simp [e2], IsDigits.cons (Nat.xor_lt_two_pow ho.head (funnel_lt hp)) e3, ?_, by simpa using e5⟩
    simp only [ofDigits_cons, ofNat_xor, List.take_succ_cons, ofNat_funnel hs hp, e4]
    have h := ofNat_split (t <<< s) B
    rw [shr_top hs, ofNat_shiftLeft] at h
    linear_combination h

theorem addShiftedInplace_spec {s : Nat} (hs : s < B) (size : Nat) (l o : List Nat) (hl : IsDigits B l) (ho : IsDigits B o) (h1 : size ≤ l.length)
    (h2 : size ≤ o.length) (h3 : s ≠ 0 → size < o.length) :
    ∃ o', addShiftedInplace B size l o s = some o' ∧ o'.length = o.length ∧ IsDigits B o' ∧
      ofDigits B o' = ofDigits B o + X ^ s * ofDigits B (l.take size) := by
  unfold addShiftedInplace
  by_cases h0 : s = 0
  · rw [if_pos h0]
    obtain ⟨o', e1, e2, e3, e4, _⟩ := add_self_spec size l o hl ho h1 h2
    exact ⟨o', e1, e2, e3, by rw [e4, h0]; simp⟩
  · rw [if_neg h0]
    obtain ⟨o', e1, e2, e3, e4, _⟩ := addShiftedLoop_spec hs.le size l 0 o hl (Nat.two_pow_pos _) ho h1 (h3 h0)
    exact ⟨o', e1, e2, e3, by rw [e4]; simp⟩

/-- Writing through `out + k`. -/
theorem onTail_spec {k : Nat} {f : List Nat → Option (List Nat)} {o : List Nat} (hk : k ≤ o.length) (ho : IsDigits B o) {v : (ZMod 2)[X]}
    (h : ∃ o', f (o.drop k) = some o' ∧ o'.length = (o.drop k).length ∧ IsDigits B o' ∧ ofDigits B o' = ofDigits B (o.drop k) + v) :
    ∃ o', onTail k f o = some o' ∧ o'.length = o.length ∧ IsDigits B o' ∧ ofDigits B o' = ofDigits B o + X ^ (B * k) * v := by
  obtain ⟨o', e1, e2, e3, e4⟩ := h
  refine ⟨o.take k ++ o', by rw [onTail, if_pos hk, e1]; rfl, ?_, IsDigits.append (ho.take k) e3, ?_⟩
  · rw [List.length_append, e2, List.length_drop, List.length_take]; omega
  · rw [ofDigits_append, e4, List.length_take, Nat.min_eq_left hk, ofDigits_take_drop o k hk]; ring

end
end Gf2
end Boost.Random
