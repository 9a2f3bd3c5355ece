import Verif.Proofs.MtRecon
import Mathlib.Algebra.Polynomial.Monic
import Mathlib.Algebra.Polynomial.AlgebraMap
import Mathlib.Algebra.Polynomial.Degree.Lemmas
import Mathlib.Algebra.CharP.Two
import Mathlib.LinearAlgebra.Pi
import Mathlib.Tactic.LinearCombination
import Mathlib.Tactic.Ring

/-!
# The characteristic polynomial annihilates the low bits
-/

namespace Boost.Random
namespace Mt
open Spec Polynomial

variable {P : Params}

/-- A bit as an element of GF(2). -/
def gf (b : Bool) : ZMod 2 := if b then 1 else 0

theorem gf_xor (a b : Bool) : gf (a ^^ b) = gf a + gf b := by revert a b; decide
theorem gf_and (a b : Bool) : gf (a && b) = gf a * gf b := by revert a b; decide
theorem gf_inj {a b : Bool} (h : gf a = gf b) : a = b := by revert a b; decide
theorem gf_decide (x : ZMod 2) : gf (decide (x = 1)) = x := by revert x; decide
theorem decide_gf (b : Bool) : decide (gf b = 1) = b := by revert b; decide

/-- The shift of sequences. -/
abbrev shiftSeq : (ℕ → ZMod 2) →ₗ[ZMod 2] (ℕ → ZMod 2) := LinearMap.funLeft (ZMod 2) (ZMod 2) Nat.succ

theorem shift_pow (n : Nat) (b : ℕ → ZMod 2) (t : Nat) : (shiftSeq ^ n) b t = b (t + n) := by
  induction n generalizing t with
  | zero => rfl
  | succ n ih =>
    rw [pow_succ', Module.End.mul_apply, LinearMap.funLeft_apply, ih]
    congr 1; omega

theorem aeval_sum (p : (ZMod 2)[X]) {n : Nat} (hn : p.natDegree < n) (b : ℕ → ZMod 2) (t : Nat) :
    aeval shiftSeq p b t = ∑ i ∈ Finset.range n, p.coeff i * b (t + i) := by
  rw [aeval_eq_sum_range' hn, LinearMap.sum_apply, Finset.sum_apply]
  refine Finset.sum_congr rfl fun i _ => ?_
  rw [LinearMap.smul_apply, Pi.smul_apply, shift_pow, smul_eq_mul]

theorem aeval_X_pow' (n : Nat) (b : ℕ → ZMod 2) (t : Nat) : aeval shiftSeq (X ^ n : (ZMod 2)[X]) b t = b (t + n) := by
  rw [map_pow, aeval_X, shift_pow]

section
variable (P) (W : Nat → Nat)

/-- Bit `i` of the words to which the matrix is applied. -/
def joinBit (i t : Nat) : ZMod 2 := gf ((mtJoin P.r (W t) (W (t + 1))).testBit i)

variable {P W}

theorem joinBit_zero (hv : MtValid P) (t : Nat) : joinBit P W 0 t = gf ((W (t + 1)).testBit 0) := by
  rw [joinBit, testBit_join, if_pos (Nat.lt_of_lt_of_le Nat.zero_lt_one hv.r_pos)]

theorem joinBit_step (hv : MtValid P) (hW : IsMt P W) (i : Nat) :
    joinBit P W (i + 1) = aeval shiftSeq (mtFactor P i) (joinBit P W i) + aeval shiftSeq (if P.a.testBit i then 1 else 0 : (ZMod 2)[X]) (joinBit P W 0) := by
  have h1 := hv.m_lt; have h2 := hv.m_two
  funext t
  have hrec := congrArg (fun t => gf (t.testBit i)) (hW t)
  simp only [Nat.testBit_xor, testBit_mtA, gf_xor, gf_and] at hrec
  have e1 : aeval shiftSeq (mtFactor P i) (joinBit P W i) t = gf ((W (t + P.n)).testBit i) + gf ((W (t + P.m)).testBit i) := by
    unfold mtFactor
    split
    · rename_i h
      rw [map_add, LinearMap.add_apply, Pi.add_apply, aeval_X_pow', aeval_X_pow', joinBit, joinBit, testBit_join, testBit_join, if_pos h, if_pos h,
        show t + (P.n - 1) + 1 = t + P.n by omega, show t + (P.m - 1) + 1 = t + P.m by omega]
    · rename_i h
      rw [map_add, LinearMap.add_apply, Pi.add_apply, aeval_X_pow', aeval_X_pow', joinBit, joinBit, testBit_join, testBit_join, if_neg h, if_neg h]
  have e2 : aeval shiftSeq (if P.a.testBit i then 1 else 0 : (ZMod 2)[X]) (joinBit P W 0) t = joinBit P W 0 t * gf (P.a.testBit i) := by
    cases P.a.testBit i
    · simp [gf]
    · simp [gf]
  rw [Pi.add_apply, e1, e2, hrec, joinBit, joinBit]
  linear_combination -CharTwo.add_self_eq_zero (gf ((W (t + P.m)).testBit i)) - CharTwo.add_self_eq_zero (gf ((mtJoin P.r (W t) (W (t + 1))).testBit 0) * gf (P.a.testBit i))

theorem joinBit_eq (hv : MtValid P) (hW : IsMt P W) : ∀ i, joinBit P W i = aeval shiftSeq (mtPoly P i) (joinBit P W 0)
  | 0 => by rw [mtPoly, map_one, Module.End.one_apply]
  | i + 1 => by
    rw [joinBit_step hv hW i, mtPoly, map_add, map_mul, LinearMap.add_apply, Module.End.mul_apply, ← joinBit_eq hv hW i]

/-- The characteristic polynomial annihilates the sequence of the low bits. -/
theorem char_annihilates (hv : MtValid P) (hW : IsMt P W) (hlt : ∀ k, W k < 2 ^ P.w) : aeval shiftSeq (mtChar P) (fun t => gf ((W (t + 1)).testBit 0)) = 0 := by
  have h0 : (fun t => gf ((W (t + 1)).testBit 0)) = joinBit P W 0 := funext fun t => (joinBit_zero hv t).symm
  rw [h0, mtChar, ← joinBit_eq hv hW]
  funext t
  rw [joinBit, testBit_join, if_neg (by have := hv.r_lt; omega), Nat.testBit_lt_two_pow (hlt t)]
  rfl
end

/-! ### The degree -/

theorem monic_trinomial {a b : Nat} (h : b < a) : (X ^ a + X ^ b : (ZMod 2)[X]).Monic ∧ (X ^ a + X ^ b : (ZMod 2)[X]).natDegree = a ∧
    (X ^ a + X ^ b : (ZMod 2)[X]).nextCoeff = if a = b + 1 then 1 else 0 := by
  have hd : degree (X ^ b : (ZMod 2)[X]) < a := by rw [degree_X_pow]; exact_mod_cast h
  have hn : (X ^ a + X ^ b : (ZMod 2)[X]).natDegree = a := by
    rw [natDegree_add_eq_left_of_natDegree_lt (by rw [natDegree_X_pow, natDegree_X_pow]; exact h), natDegree_X_pow]
  refine ⟨monic_X_pow_add hd, hn, ?_⟩
  rw [nextCoeff_of_natDegree_pos (by omega), hn, coeff_add, coeff_X_pow, coeff_X_pow, if_neg (by omega), zero_add]
  congr 1
  apply propext
  omega

theorem factor_spec (hv : MtValid P) (i : Nat) : (mtFactor P i).Monic ∧ (mtFactor P i).natDegree = (if i < P.r then P.n - 1 else P.n) ∧
    (mtFactor P i).nextCoeff = if P.n = P.m + 1 then 1 else 0 := by
  have h1 := hv.m_lt; have h2 := hv.m_two
  unfold mtFactor
  split
  · obtain ⟨a, b, c⟩ := monic_trinomial (show P.m - 1 < P.n - 1 by omega)
    refine ⟨a, b, c.trans ?_⟩
    congr 1; apply propext; omega
  · exact monic_trinomial h1

theorem mtPoly_spec (hv : MtValid P) : ∀ i, (mtPoly P i).Monic ∧ (mtPoly P i).natDegree = (i * P.n - min i P.r) ∧
    (mtPoly P i).nextCoeff = if P.n = P.m + 1 then (i : ZMod 2) else 0
  | 0 => by
    rw [mtPoly]
    refine ⟨monic_one, by rw [natDegree_one]; omega, ?_⟩
    rw [nextCoeff, if_pos natDegree_one]
    simp
  | i + 1 => by
    have h1 := hv.m_lt; have h2 := hv.m_two
    obtain ⟨m1, d1, c1⟩ := factor_spec hv i
    obtain ⟨m2, d2, c2⟩ := mtPoly_spec hv i
    have hm := m1.mul m2
    have hd := m1.natDegree_mul m2
    have hge : 2 ≤ (mtFactor P i * mtPoly P i).natDegree := by rw [hd, d1]; split <;> omega
    obtain ⟨q, hq⟩ : ∃ q : (ZMod 2)[X], q = if P.a.testBit i then 1 else 0 := ⟨_, rfl⟩
    have hqd : q.natDegree = 0 := by rw [hq]; split <;> simp
    have hqc : ∀ j, 1 ≤ j → q.coeff j = 0 := fun j hj => coeff_eq_zero_of_natDegree_lt (by omega)
    have hlt : q.natDegree < (mtFactor P i * mtPoly P i).natDegree := by omega
    have hnd := natDegree_add_eq_left_of_natDegree_lt hlt
    rw [mtPoly, ← hq]
    refine ⟨hm.add_of_left (degree_lt_degree hlt), ?_, ?_⟩
    · rw [hnd, hd, d1, d2]
      have : i ≤ i * P.n := Nat.le_mul_of_pos_right _ (by omega)
      rw [Nat.add_mul]
      split <;> omega
    · rw [nextCoeff_of_natDegree_pos (by omega), hnd, coeff_add, hqc _ (by omega), add_zero, ← nextCoeff_of_natDegree_pos (by omega), m1.nextCoeff_mul m2, c1, c2]
      split
      · push_cast; ring
      · rw [add_zero]

theorem char_spec (hv : MtValid P) : (mtChar P).Monic ∧ (mtChar P).natDegree = mtBits P ∧ (Even P.w → (mtChar P).coeff (mtBits P - 1) = 0) := by
  obtain ⟨a, b, c⟩ := mtPoly_spec hv P.w
  have hb : (mtChar P).natDegree = mtBits P := by
    rw [mtChar, b, mtBits, Nat.min_eq_right hv.r_lt.le]
  refine ⟨a, hb, fun hw => ?_⟩
  have h1 := hv.m_lt; have h2 := hv.m_two
  have := n_le_mtBits hv
  rw [← hb, ← nextCoeff_of_natDegree_pos (by omega), mtChar, c]
  obtain ⟨k, hk⟩ := hw
  split
  · rw [hk]; push_cast; exact CharTwo.add_self_eq_zero _
  · rfl

/-- Low bits from earlier ones, by the remainder of a power of X. -/
theorem low_bits_ahead (hv : MtValid P) {W : Nat → Nat} (hW : IsMt P W) (hlt : ∀ k, W k < 2 ^ P.w) (z t : Nat) :
    gf ((W (t + z + 1)).testBit 0) = ∑ i ∈ Finset.range (mtBits P), (X ^ z %ₘ mtChar P).coeff i * gf ((W (t + i + 1)).testBit 0) := by
  obtain ⟨hm, hd, -⟩ := char_spec hv
  have h1 := hv.m_lt; have h2 := hv.m_two
  have hk := n_le_mtBits hv
  have hs : aeval shiftSeq (X ^ z : (ZMod 2)[X]) (fun t => gf ((W (t + 1)).testBit 0)) = aeval shiftSeq (X ^ z %ₘ mtChar P) (fun t => gf ((W (t + 1)).testBit 0)) := by
    conv_lhs => rw [← modByMonic_add_div (X ^ z) (mtChar P), mul_comm]
    rw [map_add, map_mul, LinearMap.add_apply, Module.End.mul_apply, char_annihilates hv hW hlt, map_zero, add_zero]
  have := congrFun hs t
  rw [aeval_X_pow', aeval_sum (n := mtBits P)] at this
  · exact this
  · have := natDegree_modByMonic_lt (X ^ z) hm (by intro h; rw [h, natDegree_one] at hd; omega)
    omega

end Mt
end Boost.Random
