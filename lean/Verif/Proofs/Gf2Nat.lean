import Mathlib.Algebra.Polynomial.Expand
import Mathlib.FieldTheory.Finite.Basic
import Mathlib.Algebra.CharP.Two
import Mathlib.Tactic.Ring

/-!
# Polynomials over GF(2) as natural numbers

Squaring modulo a polynomial with operations that the kernel evaluates on big numbers.
-/

namespace Boost.Random
namespace Gf2N
open Polynomial

/-- The polynomial whose coefficients are the bits of a number. -/
noncomputable def bitPoly (n : Nat) : (ZMod 2)[X] := ∑ i ∈ Finset.range n, if n.testBit i then X ^ i else 0

theorem coeff_bitPoly (n i : Nat) : (bitPoly n).coeff i = if n.testBit i then 1 else 0 := by
  rw [bitPoly, finsetSum_coeff]
  have : ∀ j ∈ Finset.range n, (if n.testBit j then X ^ j else 0 : (ZMod 2)[X]).coeff i = if i = j then (if n.testBit i then 1 else 0) else 0 := by
    intro j _
    by_cases h : i = j
    · subst h; split <;> simp
    · split <;> simp [coeff_X_pow, h]
  rw [Finset.sum_congr rfl this, Finset.sum_ite_eq]
  split
  · rfl
  · rename_i h
    rw [Nat.testBit_lt_two_pow (lt_of_lt_of_le Nat.lt_two_pow_self (Nat.pow_le_pow_right (by decide) (by simpa using h)))]
    rfl

theorem bitPoly_xor (a b : Nat) : bitPoly (a ^^^ b) = bitPoly a + bitPoly b := by
  ext i
  rw [coeff_add, coeff_bitPoly, coeff_bitPoly, coeff_bitPoly, Nat.testBit_xor]
  cases a.testBit i <;> cases b.testBit i <;> decide

theorem bitPoly_shift (a n : Nat) : bitPoly (a <<< n) = X ^ n * bitPoly a := by
  ext i
  rw [coeff_X_pow_mul', coeff_bitPoly, coeff_bitPoly, Nat.testBit_shiftLeft]
  by_cases h : n ≤ i <;> simp [h]

theorem bitPoly_zero : bitPoly 0 = 0 := by simp [bitPoly]

theorem bitPoly_two : bitPoly 2 = X := by
  ext i
  rw [coeff_bitPoly, coeff_X]
  congr 1
  apply propext
  constructor
  · intro h
    by_contra hn
    have := Nat.testBit_two_pow (n := 1) (m := i)
    rw [show (2 : Nat) ^ 1 = 2 by rfl] at this
    rw [this] at h
    exact hn (by simpa using h)
  · rintro rfl; decide

/-! ### Spreading the bits, which squares the polynomial -/

/-- The numbers of 2 d t bits in which blocks of d ones and d zeros alternate. -/
theorem mask_mul (d t : Nat) : ∃ M, (2 ^ d + 1) * M = 2 ^ (2 * d * t) - 1 ∧ ∀ i, M.testBit i = (decide (i < 2 * d * t) && decide (i % (2 * d) < d)) := by
  induction t with
  | zero => exact ⟨0, by simp, by simp⟩
  | succ t ih =>
    obtain ⟨M, h1, h2⟩ := ih
    have hd := Nat.two_pow_pos d
    refine ⟨2 ^ (2 * d) * M + (2 ^ d - 1), ?_, fun i => ?_⟩
    · have e : 2 ^ (2 * d * t) = (2 ^ d + 1) * M + 1 := by have := Nat.two_pow_pos (2 * d * t); omega
      rw [show 2 * d * (t + 1) = 2 * d + 2 * d * t by ring, pow_add, e, two_mul, pow_add]
      obtain ⟨y, hy⟩ : ∃ y, 2 ^ d = y + 1 := ⟨2 ^ d - 1, by omega⟩
      rw [hy]
      simp only [Nat.add_sub_cancel]
      have : ∀ a b : Nat, a = b + 1 → b = a - 1 := by intros; omega
      apply this
      ring
    · rw [Nat.testBit_two_pow_mul_add _ (by have := Nat.pow_le_pow_right (show 0 < 2 by decide) (show d ≤ 2 * d by omega); omega), h2,
        Nat.testBit_two_pow_sub_one]
      rcases Nat.lt_or_ge i (2 * d) with h | h
      · have : i < 2 * d * (t + 1) := lt_of_lt_of_le h (Nat.le_mul_of_pos_right _ (by omega))
        simp [h, this, Nat.mod_eq_of_lt h]
      · have e : (i < 2 * d * (t + 1)) ↔ i - 2 * d < 2 * d * t := by rw [Nat.mul_add, Nat.mul_one]; omega
        have e2 : i % (2 * d) = (i - 2 * d) % (2 * d) := (Nat.mod_eq_sub_mod h)
        simp [Nat.not_lt.2 h, e, e2]

theorem mask_bit {d K : Nat} (hK : 2 * d ∣ K) (i : Nat) : ((2 ^ K - 1) / (2 ^ d + 1)).testBit i = (decide (i < K) && decide (i % (2 * d) < d)) := by
  obtain ⟨t, rfl⟩ := hK
  obtain ⟨M, h1, h2⟩ := mask_mul d t
  rw [← h1, Nat.mul_div_cancel_left _ (Nat.succ_pos _), h2]

/-- Blocks of d ones and d zeros. -/
def mask (K d : Nat) : Nat := Nat.div (Nat.sub (Nat.pow (nat_lit 2) K) (nat_lit 1)) (Nat.add (Nat.pow (nat_lit 2) d) (nat_lit 1))

/-- One round: move the upper halves of the blocks of `2 * d` bits by `d` places. -/
def round (K d v : Nat) : Nat := Nat.land (Nat.xor v (Nat.shiftLeft v d)) (mask K d)

/-- The bits of `x`, in blocks of `d` bits separated by `d` zeros. -/
def Spaced (x d v : Nat) : Prop := ∀ i, v.testBit i = (decide (i % (2 * d) < d) && x.testBit (i / (2 * d) * d + i % (2 * d)))

theorem Spaced.round {x d v K : Nat} (hd : 0 < d) (hK : 4 * d ∣ K) (hx : x < 2 ^ (K / 2)) (h : Spaced x (2 * d) v) : Spaced x d (round K d v) := by
  intro i
  show ((v ^^^ (v <<< d)) &&& ((2 ^ K - 1) / (2 ^ d + 1))).testBit i = _
  rw [Nat.testBit_and, Nat.testBit_xor, Nat.testBit_shiftLeft, mask_bit (dvd_trans ⟨2, by ring⟩ hK), h i, h (i - d)]
  have hout : K ≤ i → x.testBit (i / (2 * d) * d + i % (2 * d)) = false := by
    intro hi
    obtain ⟨t, rfl⟩ := hK
    refine Nat.testBit_lt_two_pow (lt_of_lt_of_le hx (Nat.pow_le_pow_right (by decide) ?_))
    have : 2 * t ≤ i / (2 * d) := (Nat.le_div_iff_mul_le (by omega)).2 (le_trans (le_of_eq (by ring)) hi)
    have := Nat.mul_le_mul_right d this
    have e : 4 * d * t / 2 = 2 * t * d := by rw [show 4 * d * t = 2 * t * d * 2 by ring, Nat.mul_div_cancel _ (by decide)]
    omega
  rcases Nat.lt_or_ge i K with hlt | hge
  swap
  · simp [Nat.not_lt.2 hge, hout hge]
  obtain ⟨a, l, hl, rfl⟩ : ∃ a l, l < 4 * d ∧ i = 4 * d * a + l := ⟨i / (4 * d), i % (4 * d), Nat.mod_lt _ (by omega), (Nat.div_add_mod i (4 * d)).symm⟩
  simp only [hlt, decide_true, Bool.true_and]
  have mm : ∀ c b l', l' < c → (c * b + l') % c = l' := fun c b l' h => by rw [Nat.mul_add_mod, Nat.mod_eq_of_lt h]
  have dd : ∀ c b l', l' < c → (c * b + l') / c = b := fun c b l' h => by
    rw [Nat.mul_add_div (Nat.lt_of_le_of_lt (Nat.zero_le _) h), Nat.div_eq_of_lt h, Nat.add_zero]
  rw [show 2 * (2 * d) = 4 * d by ring, mm (4 * d) a l hl, dd (4 * d) a l hl]
  rcases Nat.lt_or_ge l (2 * d) with h2 | h2
  · rw [show 4 * d * a + l = 2 * d * (2 * a) + l by ring, mm (2 * d) (2 * a) l h2, dd (2 * d) (2 * a) l h2]
    rcases Nat.lt_or_ge l d with h1 | h1
    · have : (decide (d ≤ 2 * d * (2 * a) + l) && (decide ((2 * d * (2 * a) + l - d) % (4 * d) < 2 * d) && x.testBit ((2 * d * (2 * a) + l - d) / (4 * d) * (2 * d) + (2 * d * (2 * a) + l - d) % (4 * d)))) = false := by
        cases a with
        | zero => simp; omega
        | succ a =>
          rw [show 2 * d * (2 * (a + 1)) + l - d = 4 * d * a + (3 * d + l) by
            have : 2 * d * (2 * (a + 1)) = 4 * d * a + 4 * d := by ring
            omega, mm (4 * d) a (3 * d + l) (by omega)]
          simp; omega
      rw [this]
      simp only [h1, h2, decide_true, Bool.true_and, Bool.and_true, Bool.xor_false]
      congr 1; ring
    · simp [Nat.not_lt.2 h1]
  · obtain ⟨l', rfl⟩ : ∃ l', l = 2 * d + l' := ⟨l - 2 * d, by omega⟩
    rw [show 4 * d * a + (2 * d + l') = 2 * d * (2 * a + 1) + l' by ring, mm (2 * d) (2 * a + 1) l' (by omega), dd (2 * d) (2 * a + 1) l' (by omega)]
    rcases Nat.lt_or_ge l' d with h1 | h1
    · rw [show 2 * d * (2 * a + 1) + l' - d = 4 * d * a + (d + l') by
            have : 2 * d * (2 * a + 1) = 4 * d * a + 2 * d := by ring
            omega, mm (4 * d) a (d + l') (by omega), dd (4 * d) a (d + l') (by omega)]
      have c1 : d ≤ 2 * d * (2 * a + 1) + l' := by
        have : 2 * d * (2 * a + 1) = 4 * d * a + 2 * d := by ring
        omega
      simp only [h1, c1, show ¬ 2 * d + l' < 2 * d by omega, show d + l' < 2 * d by omega, decide_true, decide_false, Bool.true_and, Bool.and_true, Bool.false_and, Bool.false_xor]
      congr 1; ring
    · simp [Nat.not_lt.2 h1]

/-- All the rounds. -/
def spreadN (K : Nat) : Nat → Nat → Nat
  | 0, v => v
  | j + 1, v => spreadN K j (round K (2 ^ j) v)

theorem spreadN_spaced {x J : Nat} (hx : x < 2 ^ (2 ^ J)) : ∀ j v, j ≤ J → Spaced x (2 ^ j) v → Spaced x 1 (spreadN (2 ^ (J + 1)) j v)
  | 0, v, _, h => h
  | j + 1, v, hj, h => by
    rw [spreadN]
    refine spreadN_spaced hx j _ (by omega) (Spaced.round (Nat.two_pow_pos j) ?_ ?_ ?_)
    · rw [show 4 * 2 ^ j = 2 ^ (j + 2) by ring]; exact pow_dvd_pow 2 (by omega)
    · rw [pow_succ, Nat.mul_div_cancel _ (by decide)]; exact hx
    · rw [show 2 * 2 ^ j = 2 ^ (j + 1) by ring]; exact h

theorem spread_start {x J : Nat} (hx : x < 2 ^ (2 ^ J)) : Spaced x (2 ^ J) x := by
  intro i
  have hd := Nat.two_pow_pos J
  rcases Nat.lt_or_ge i (2 ^ J) with h | h
  · rw [Nat.mod_eq_of_lt (by omega), Nat.div_eq_of_lt (by omega)]; simp [h]
  · have hz : ∀ i, 2 ^ J ≤ i → x.testBit i = false := fun i h => Nat.testBit_lt_two_pow (lt_of_lt_of_le hx (Nat.pow_le_pow_right (by decide) h))
    rw [hz i h]
    by_cases h2 : i % (2 * 2 ^ J) < 2 ^ J
    · have : 1 ≤ i / (2 * 2 ^ J) := by
        rw [Nat.le_div_iff_mul_le (by omega), Nat.one_mul]
        by_contra hc
        rw [Nat.mod_eq_of_lt (by omega)] at h2
        omega
      have := Nat.mul_le_mul_right (2 ^ J) this
      rw [hz _ (by omega), Bool.and_false]
    · simp [h2]

theorem spread_sq {x J : Nat} (hx : x < 2 ^ (2 ^ J)) : bitPoly (spreadN (2 ^ (J + 1)) J x) = bitPoly x ^ 2 := by
  have h := spreadN_spaced hx J x le_rfl (spread_start hx)
  have e := ZMod.expand_card (p := 2) (bitPoly x)
  rw [← e]
  ext i
  rw [coeff_expand (by decide), coeff_bitPoly, coeff_bitPoly, h i]
  by_cases hi : 2 ∣ i
  · rw [if_pos hi]
    have : i % 2 = 0 := Nat.mod_eq_zero_of_dvd hi
    simp [this]
  · rw [if_neg hi]
    have : ¬ i % 2 < 1 := fun h => hi (Nat.dvd_of_mod_eq_zero (by omega))
    simp [this]

/-! ### Iterated squaring -/

/-- Evaluate a number before it is used. -/
noncomputable def force {α : Type} (x : Nat) (f : Nat → α) : α := Nat.rec (f (nat_lit 0)) (fun m _ => f (Nat.succ m)) x

theorem force_eq {α : Type} (x : Nat) (f : Nat → α) : force x f = f x := by cases x <;> rfl

/-- `n` steps lead from `x` to `y`, and nothing on the way is above `B`. -/
noncomputable def chk (stp : Nat → Nat) (B y n : Nat) : Nat → Bool :=
  Nat.rec (fun x => Nat.beq x y) (fun _ ih x => force (stp x) fun r => and (Nat.ble r B) (ih r)) n

theorem chk_succ (stp : Nat → Nat) (B y n x : Nat) : chk stp B y (n + 1) x = (Nat.ble (stp x) B && chk stp B y n (stp x)) :=
  force_eq (stp x) fun r => and (Nat.ble r B) (chk stp B y n r)

/-- A step squares modulo `φ`. -/
def Squares (φ : (ZMod 2)[X]) (B : Nat) (stp : Nat → Nat) : Prop := ∀ x ≤ B, φ ∣ bitPoly x ^ 2 - bitPoly (stp x)

theorem chk_sound {φ : (ZMod 2)[X]} {B y : Nat} {stp : Nat → Nat} (hs : Squares φ B stp) :
    ∀ {n x : Nat}, x ≤ B → chk stp B y n x = true → φ ∣ bitPoly x ^ 2 ^ n - bitPoly y ∧ y ≤ B
  | 0, x, hx, h => by
    have e : x = y := Nat.eq_of_beq_eq_true h
    subst e
    exact ⟨by simp, hx⟩
  | n + 1, x, hx, h => by
    rw [chk_succ, Bool.and_eq_true] at h
    obtain ⟨h1, h2⟩ := chk_sound hs (Nat.le_of_ble_eq_true h.1) h.2
    refine ⟨?_, h2⟩
    have h3 := (hs x hx).trans (sub_dvd_pow_sub_pow (bitPoly x ^ 2) (bitPoly (stp x)) (2 ^ n))
    have := h3.add h1
    rw [sub_add_sub_cancel, ← pow_mul, ← pow_succ'] at this
    exact this

/-- `X ^ 2 ^ n` is represented by `c` modulo `φ`. -/
structure Reach (φ : (ZMod 2)[X]) (B n c : Nat) : Prop where
  dvd : φ ∣ X ^ 2 ^ n - bitPoly c
  le : c ≤ B

theorem Reach.start (φ : (ZMod 2)[X]) {B : Nat} (hB : 2 ≤ B) : Reach φ B 0 2 := ⟨by simp [bitPoly_two], hB⟩

theorem Reach.next {φ : (ZMod 2)[X]} {B n c m c' k : Nat} {stp : Nat → Nat} (h : Reach φ B n c) (hs : Squares φ B stp) (hc : chk stp B c' m c = true)
    (hk : n + m = k) : Reach φ B k c' := by
  subst hk
  obtain ⟨h1, h2⟩ := chk_sound hs h.le hc
  refine ⟨?_, h2⟩
  have := (h.dvd.trans (sub_dvd_pow_sub_pow (X ^ 2 ^ n) (bitPoly c) (2 ^ m))).add h1
  rw [sub_add_sub_cancel, ← pow_mul, ← pow_add] at this
  exact this

/-- The product with `X ^ a + X ^ b`. -/
def binom (a b v : Nat) : Nat := Nat.xor (Nat.shiftLeft v a) (Nat.shiftLeft v b)

theorem binom_eq (a b v : Nat) : binom a b v = v <<< a ^^^ v <<< b := rfl

attribute [irreducible] round binom

theorem squares_of {φ : (ZMod 2)[X]} {J B : Nat} {stp f q : Nat → Nat} (hB : B < 2 ^ (2 ^ J)) (hf : ∀ q, bitPoly (f q) = φ * bitPoly q)
    (h : ∀ x, stp x = Nat.xor (spreadN (2 ^ (J + 1)) J x) (f (q x))) : Squares φ B stp := by
  intro x hx
  rw [h, show ∀ a b, Nat.xor a b = a ^^^ b from fun _ _ => rfl, bitPoly_xor, spread_sq (lt_of_le_of_lt hx hB), hf, CharTwo.sub_eq_add, ← add_assoc, CharTwo.add_self_eq_zero, zero_add]
  exact dvd_mul_right _ _

end Gf2N
end Boost.Random
