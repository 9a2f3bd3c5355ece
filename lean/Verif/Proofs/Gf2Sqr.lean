import Verif.Proofs.Gf2Mul
import Mathlib.Algebra.CharP.Lemmas

/-!
# Squares of digit arrays
-/

namespace Boost.Random
namespace Gf2
open Spec Polynomial

/-- The body of the loop of `sqr(val)`. -/
def sqrStep (B i mask val : Nat) : Nat := (((val &&& (2 ^ B - 1 - mask)) <<< (i / 2)) % 2 ^ B) ||| (val &&& mask)

def nextMask (B i mask : Nat) : Nat := (mask &&& (mask >>> (i / 4))) ||| (((mask &&& (mask >>> (i / 4))) <<< (i / 2)) % 2 ^ B)

theorem sqrLoop_succ (B f i mask val : Nat) :
    sqrLoop B (f + 1) i mask val = if i > 1 then sqrLoop B f (i / 2) (nextMask B i mask) (sqrStep B i mask val) else val := rfl

/-- No two bits of a number within `D` meet in a step, here and in the steps that follow. -/
def chk (B : Nat) : (fuel i mask D : Nat) → Bool
  | 0, _, _, _ => true
  | f + 1, i, mask, D =>
    if i > 1 then
      decide ((((D &&& (2 ^ B - 1 - mask)) <<< (i / 2)) % 2 ^ B) &&& (D &&& mask) = 0) && chk B f (i / 2) (nextMask B i mask) (sqrStep B i mask D)
    else true

theorem sub_iff {v D : Nat} (h : v &&& D = v) (i : Nat) : v.testBit i = true → D.testBit i = true := by
  intro hi
  rw [← h, Nat.testBit_and, Bool.and_eq_true] at hi
  exact hi.2

theorem sqrStep_testBit (B i mask v k : Nat) : (sqrStep B i mask v).testBit k =
    ((decide (k < B) && (decide (i / 2 ≤ k) && (v.testBit (k - i / 2) && (2 ^ B - 1 - mask).testBit (k - i / 2)))) || (v.testBit k && mask.testBit k)) := by
  unfold sqrStep
  rw [Nat.testBit_or, Nat.testBit_mod_two_pow, Nat.testBit_shiftLeft, Nat.testBit_and, Nat.testBit_and]

theorem sqrStep_xor {B i mask D u v : Nat} (hd : (((D &&& (2 ^ B - 1 - mask)) <<< (i / 2)) % 2 ^ B) &&& (D &&& mask) = 0) (hu : u &&& D = u) (hv : v &&& D = v) :
    sqrStep B i mask (u ^^^ v) = sqrStep B i mask u ^^^ sqrStep B i mask v := by
  apply Nat.eq_of_testBit_eq
  intro k
  rw [Nat.testBit_xor, sqrStep_testBit, sqrStep_testBit, sqrStep_testBit, Nat.testBit_xor, Nat.testBit_xor]
  have h := congrArg (fun z => z.testBit k) hd
  simp only [Nat.testBit_and, Nat.testBit_mod_two_pow, Nat.testBit_shiftLeft, Nat.zero_testBit] at h
  have u1 := sub_iff hu k
  have u2 := sub_iff hu (k - i / 2)
  have v1 := sub_iff hv k
  have v2 := sub_iff hv (k - i / 2)
  revert h u1 u2 v1 v2
  generalize decide (k < B) = a
  generalize decide (i / 2 ≤ k) = b
  generalize (2 ^ B - 1 - mask).testBit (k - i / 2) = c
  generalize mask.testBit k = d
  generalize u.testBit k = e1
  generalize u.testBit (k - i / 2) = e2
  generalize v.testBit k = f1
  generalize v.testBit (k - i / 2) = f2
  generalize D.testBit k = g1
  generalize D.testBit (k - i / 2) = g2
  revert a b c d e1 e2 f1 f2 g1 g2
  decide

theorem sqrStep_sub {B i mask D u : Nat} (hu : u &&& D = u) : sqrStep B i mask u &&& sqrStep B i mask D = sqrStep B i mask u := by
  apply Nat.eq_of_testBit_eq
  intro k
  rw [Nat.testBit_and, sqrStep_testBit, sqrStep_testBit]
  have u1 := sub_iff hu k
  have u2 := sub_iff hu (k - i / 2)
  revert u1 u2
  generalize decide (k < B) = a
  generalize decide (i / 2 ≤ k) = b
  generalize (2 ^ B - 1 - mask).testBit (k - i / 2) = c
  generalize mask.testBit k = d
  generalize u.testBit k = e1
  generalize u.testBit (k - i / 2) = e2
  generalize D.testBit k = g1
  generalize D.testBit (k - i / 2) = g2
  revert a b c d e1 e2 g1 g2
  decide

theorem sqrLoop_xor (B : Nat) : ∀ (f i mask D u v : Nat), chk B f i mask D = true → u &&& D = u → v &&& D = v →
    sqrLoop B f i mask (u ^^^ v) = sqrLoop B f i mask u ^^^ sqrLoop B f i mask v
  | 0, _, _, _, _, _, _, _, _ => rfl
  | f + 1, i, mask, D, u, v, h, hu, hv => by
    rw [sqrLoop_succ, sqrLoop_succ, sqrLoop_succ]
    unfold chk at h
    by_cases hi : i > 1
    · rw [if_pos hi] at h
      rw [if_pos hi, if_pos hi, if_pos hi]
      rw [Bool.and_eq_true, decide_eq_true_eq] at h
      rw [sqrStep_xor h.1 hu hv]
      exact sqrLoop_xor B f (i / 2) _ _ _ _ h.2 (sqrStep_sub hu) (sqrStep_sub hv)
    · rw [if_neg hi, if_neg hi, if_neg hi]

theorem sub_half {v k : Nat} (h : v < 2 ^ k) : v &&& (2 ^ k - 1) = v := by
  rw [Nat.and_two_pow_sub_one_eq_mod, Nat.mod_eq_of_lt h]

theorem mod_succ_xor (d n : Nat) : d % 2 ^ (n + 1) = d % 2 ^ n ^^^ if d.testBit n then 2 ^ n else 0 := by
  apply Nat.eq_of_testBit_eq
  intro k
  rw [Nat.testBit_xor, Nat.testBit_mod_two_pow, Nat.testBit_mod_two_pow]
  by_cases hk : k = n
  · subst hk
    by_cases ht : d.testBit k <;> simp [ht]
  · have e : (if d.testBit n = true then 2 ^ n else 0).testBit k = false := by
      split
      · rw [Nat.testBit_two_pow]; simp [Ne.symm hk]
      · simp
    have : (k < n + 1) ↔ k < n := by omega
    simp [e, this]

/-- What `sqr(val)` is to do. -/
def SqrOK (B : Nat) : Prop := B % 2 = 0 ∧ 0 < B ∧ ∀ v < 2 ^ (B / 2), ofNat (sqrDigit B v) = ofNat v ^ 2 ∧ sqrDigit B v < 2 ^ B

theorem add_sq (p q : (ZMod 2)[X]) : (p + q) ^ 2 = p ^ 2 + q ^ 2 := add_pow_char p q 2

theorem sqrOK_of (B : Nat) (h2 : B % 2 = 0) (h0 : 0 < B) (hc : chk B B B (2 ^ (B / 2) - 1) (2 ^ (B / 2) - 1) = true) (hz : sqrDigit B 0 = 0)
    (hb : ∀ j < B / 2, sqrDigit B (2 ^ j) = 2 ^ (2 * j)) : SqrOK B := by
  refine ⟨h2, h0, fun v hv => ?_⟩
  have key : ∀ n ≤ B / 2, ofNat (sqrDigit B (v % 2 ^ n)) = ofNat (v % 2 ^ n) ^ 2 ∧ sqrDigit B (v % 2 ^ n) < 2 ^ B := by
    intro n
    induction n with
    | zero => intro _; rw [pow_zero, Nat.mod_one, hz]; exact ⟨by simp, Nat.two_pow_pos _⟩
    | succ n ih =>
      intro hn
      obtain ⟨i1, i2⟩ := ih (by omega)
      rw [mod_succ_xor]
      by_cases ht : v.testBit n
      · rw [if_pos ht]
        have h1 : v % 2 ^ n < 2 ^ (B / 2) := lt_of_lt_of_le (Nat.mod_lt _ (Nat.two_pow_pos _)) (Nat.pow_le_pow_right (by omega) (by omega))
        have h2 : 2 ^ n < 2 ^ (B / 2) := Nat.pow_lt_pow_right (by omega) (by omega)
        have e : sqrDigit B (v % 2 ^ n ^^^ 2 ^ n) = sqrDigit B (v % 2 ^ n) ^^^ sqrDigit B (2 ^ n) :=
          sqrLoop_xor B B B _ _ _ _ hc (sub_half h1) (sub_half h2)
        rw [e, hb n (by omega)]
        refine ⟨?_, Nat.xor_lt_two_pow i2 (Nat.pow_lt_pow_right (by omega) (by omega))⟩
        rw [ofNat_xor, ofNat_xor, i1, add_sq, ofNat_two_pow, ofNat_two_pow, ← pow_mul, mul_comm]
      · rw [if_neg ht, Nat.xor_zero]
        exact ⟨i1, i2⟩
  have := key (B / 2) le_rfl
  rwa [Nat.mod_eq_of_lt hv] at this

theorem sqrOK_32 : SqrOK 32 := sqrOK_of 32 rfl (by decide) (by decide +kernel) (by decide +kernel) (by decide +kernel)
theorem sqrOK_64 : SqrOK 64 := sqrOK_of 64 rfl (by decide) (by decide +kernel) (by decide +kernel) (by decide +kernel)

section
variable {B : Nat}

theorem sqrArray_spec (hB : SqrOK B) : ∀ (k : Nat) (val : List Nat), k * 2 ≤ val.length → IsDigits B val →
    ∃ o, sqrArray B k val = some o ∧ o.length = val.length ∧ IsDigits B o ∧ o.drop (k * 2) = val.drop (k * 2) ∧
      ofDigits B (o.take (k * 2)) = ofDigits B (val.take k) ^ 2
  | 0, val, _, hv => ⟨val, rfl, rfl, hv, rfl, by simp⟩
  | k + 1, val, h, hv => by
    obtain ⟨hev, hpos, hsq⟩ := hB
    have hk : k < val.length := by omega
    have hx := hv _ (List.getElem_mem hk)
    have hlo : val[k] &&& (2 ^ (B / 2) - 1) < 2 ^ (B / 2) := by rw [Nat.and_two_pow_sub_one_eq_mod]; exact Nat.mod_lt _ (Nat.two_pow_pos _)
    have hhi : val[k] >>> (B / 2) < 2 ^ (B / 2) := by
      rw [Nat.shiftRight_eq_div_pow, Nat.div_lt_iff_lt_mul (Nat.two_pow_pos _), ← pow_add]
      rwa [show B / 2 + B / 2 = B by omega]
    obtain ⟨s1, s2⟩ := hsq _ hlo
    obtain ⟨t1, t2⟩ := hsq _ hhi
    obtain ⟨o, e1, e2, e3, e4, e5⟩ := sqrArray_spec ⟨hev, hpos, hsq⟩ k
      ((val.set (k * 2) (sqrDigit B (val[k] &&& (2 ^ (B / 2) - 1)))).set (k * 2 + 1) (sqrDigit B (val[k] >>> (B / 2))))
      (by simp only [List.length_set]; omega) ((hv.set _ s2).set _ t2)
    simp only [List.length_set] at e2
    refine ⟨o, ?_, e2, e3, ?_, ?_⟩
    · unfold sqrArray
      rw [List.getElem?_eq_getElem hk, Option.bind_some, if_pos (by omega), e1]
    · have := congrArg (List.drop 2) e4
      rw [List.drop_drop, List.drop_drop] at this
      rw [show (k + 1) * 2 = k * 2 + 2 by omega, this, List.drop_set_of_lt (by omega), List.drop_set_of_lt (by omega)]
    · have g1 : o[k * 2]'(by omega) = sqrDigit B (val[k] &&& (2 ^ (B / 2) - 1)) := by
        have := congrArg (fun l => l[0]?) e4
        simp only [List.getElem?_drop, Nat.add_zero] at this
        rw [List.getElem?_eq_getElem (by omega), List.getElem?_set_ne (by omega), List.getElem?_set_self (by omega)] at this
        exact Option.some.inj this
      have g2 : o[k * 2 + 1]'(by omega) = sqrDigit B (val[k] >>> (B / 2)) := by
        have := congrArg (fun l => l[1]?) e4
        simp only [List.getElem?_drop] at this
        rw [List.getElem?_eq_getElem (by omega), List.getElem?_set_self (by rw [List.length_set]; omega)] at this
        exact Option.some.inj this
      rw [show (k + 1) * 2 = k * 2 + 1 + 1 by omega, ofDigits_take_succ _ _ (by omega), ofDigits_take_succ _ _ (by omega), e5, g1, g2, s1, t1]
      rw [List.take_set_of_le (by omega), List.take_set_of_le (by omega), ofDigits_take_succ val k hk, add_sq]
      have hx2 := ofNat_split val[k] (B / 2)
      rw [← Nat.and_two_pow_sub_one_eq_mod] at hx2
      rw [← hx2, mul_pow, add_sq, mul_pow, ← pow_mul, ← pow_mul]
      rw [show B / 2 * 2 = B by omega, show B * k * 2 = B * (k * 2) by ring, Nat.mul_add, pow_add, Nat.mul_one]
      ring

end
end Gf2
end Boost.Random
