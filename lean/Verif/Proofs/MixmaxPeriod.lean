import Verif.Proofs.MixmaxMatrix
import Verif.Proofs.MixmaxPowers
import Verif.Proofs.PrimRoot
import Verif.Spec.MixmaxPeriod
import Mathlib.Dynamics.PeriodicPts.Lemmas

/-!
# The order of the MIXMAX matrix
-/

namespace Boost.Random.Mixmax
open Spec Packed

theorem mixQ1_prime : Nat.Prime mixQ1 :=
  prime_of_rootCheck [2, 3, 3, 17, 100393] 3 (by norm_num [mixQ1]) (by norm_num [mixQ1]) (by norm_num [mixQ1])
    (by norm_num) (by decide +kernel)

theorem prime_780503063 : Nat.Prime 780503063 :=
  prime_of_rootCheck [2, 43, 9075617] 5 (by norm_num) (by norm_num) (by norm_num) (by norm_num) (by decide +kernel)

theorem mixQ2_prime : Nat.Prime mixQ2 :=
  prime_of_rootCheck [2, 7, 17, 59, 780503063] 5 (by norm_num [mixQ2]) (by norm_num [mixQ2]) (by norm_num [mixQ2])
    (by simp only [List.forall_mem_cons]; exact ⟨by norm_num, by norm_num, by norm_num, by norm_num, prime_780503063, by simp⟩)
    (by decide +kernel)

theorem mixPhi_eq : mixPhi 17 = mixC * mixQ1 * mixQ2 := by decide +kernel

theorem mat_one_of_canon {n : Nat} {M : Matrix (Fin 17) (Fin 17) (ZMod mixP)} (h : Rep matA bd 17 n M)
    (e : canonL 17 n = 1 :: List.replicate 16 0) : M = 1 := by
  refine Matrix.ext_of_mulVec_single fun i => ?_
  rw [← rep_canon h (by decide), e, Matrix.one_mulVec, polyAct]
  have : ∀ (k : Nat) (v : Fin 17 → ZMod mixP), polyAct matA (List.replicate k 0) v = 0 := by
    intro k
    induction k with
    | zero => intro v; rfl
    | succ k ih => intro v; rw [List.replicate_succ, polyAct, ih, Nat.cast_zero, zero_smul, add_zero]
  rw [this, add_zero, Nat.cast_one, one_smul]

theorem rep_Y : Rep matA bd 17 mixY (matA ^ mixC) := by
  have := Rep.powK two61 redTable_length redTable_ok rep_X bitsC (rep_X (A := matA)) (by rw [mixY_eq]; decide)
  rwa [mixY_eq, bitsC_eq] at this

theorem rep_Z1 : Rep matA bd 17 mixZ1 (matA ^ (mixC * mixQ1)) := by
  have h : Rep matA bd 17 mixY ((matA ^ mixC) ^ 1) := by rw [pow_one]; exact rep_Y
  have := Rep.powK two61 redTable_length redTable_ok h bitsQ1 h (by rw [mixZ1_eq]; decide)
  rwa [mixZ1_eq, bitsQ1_eq, ← pow_mul] at this

theorem rep_Z2 : Rep matA bd 17 mixZ2 (matA ^ (mixC * mixQ2)) := by
  have h : Rep matA bd 17 mixY ((matA ^ mixC) ^ 1) := by rw [pow_one]; exact rep_Y
  have := Rep.powK two61 redTable_length redTable_ok h bitsQ2 h (by rw [mixZ2_eq]; decide)
  rwa [mixZ2_eq, bitsQ2_eq, ← pow_mul] at this

/-- The published period is a period of the matrix. -/
theorem matA_pow : matA ^ mixPhi 17 = 1 := by
  have h : Rep matA bd 17 mixZ1 ((matA ^ (mixC * mixQ1)) ^ 1) := by rw [pow_one]; exact rep_Z1
  have := Rep.powK two61 redTable_length redTable_ok h bitsQ2 h (by rw [mixZ_eq]; decide)
  rw [mixZ_eq, bitsQ2_eq, ← pow_mul, ← mixPhi_eq] at this
  exact mat_one_of_canon this mixZ_one

theorem fixed_zero {z g m : Nat} (hz : Rep matA bd 17 z (matA ^ m)) (hg : pack (canonL 17 g) = g)
    (e : canonL 17 (mulK redTable g (fold ml17 mh17 (z + (2 ^ 61 - 2)))) = 1 :: List.replicate 16 0)
    (x : Fin 17 → ZMod mixP) (h : (matA ^ m).mulVec x = x) : x = 0 := by
  obtain ⟨G, hG, _⟩ := rep_pack matA bd (canonL 17 g) fun c hc => le_trans (canonL_le _ _ c hc) (by decide)
  have hlen : ∀ k n, (canonL k n).length = k := by
    intro k
    induction k with
    | zero => intro n; rfl
    | succ k ih => intro n; rw [canonL, List.length_cons, ih]
  rw [hg, hlen] at hG
  have hone := Rep.cons (2 ^ 61 - 2) _ _ _ (le_refl _) (Rep.zero (A := matA) (2 ^ 61 - 2) 16)
  rw [mul_zero, mul_zero, add_zero, add_zero] at hone
  have h1 := ((hz.add hone).fold two61 (by decide) (show ml17 = _ by decide +kernel)
    (show mh17 = _ by decide +kernel)).mono (show _ ≤ bd by decide)
  have h2 := mat_one_of_canon (Rep.mulK two61 redTable_length redTable_ok hG h1) e
  have h3 : (matA ^ m + ((2 ^ 61 - 2 : Nat) : Matrix (Fin 17) (Fin 17) (ZMod mixP))).mulVec x = 0 := by
    rw [Matrix.add_mulVec, h, Matrix.natCast_mulVec]
    have : ((2 ^ 61 - 2 : Nat) : ZMod mixP) = -1 := by
      rw [eq_neg_iff_add_eq_zero]
      have := ZMod.natCast_self mixP
      rw [show mixP = 2 ^ 61 - 2 + 1 by decide, Nat.cast_add, Nat.cast_one] at this
      exact this
    rw [this, neg_one_smul, add_neg_cancel]
  have h4 := congrArg G.mulVec h3
  rw [Matrix.mulVec_mulVec, h2, Matrix.one_mulVec, Matrix.mulVec_zero] at h4
  exact h4

theorem iterate_mulVec {N : Nat} (A : Matrix (Fin N) (Fin N) (ZMod mixP)) (k : Nat) (x : Fin N → ZMod mixP) :
    A.mulVec^[k] x = (A ^ k).mulVec x := by
  induction k with
  | zero => simp
  | succ k ih => rw [Function.iterate_succ_apply', ih, Matrix.mulVec_mulVec, ← pow_succ']

/-- A vector other than zero returns only after a multiple of both primes. -/
theorem dvd_of_fixed (x : Fin 17 → ZMod mixP) (hx : x ≠ 0) (k : Nat) (h : (matA ^ k).mulVec x = x) :
    mixQ1 * mixQ2 ∣ k := by
  have per : ∀ n, (matA ^ n).mulVec x = x ↔ Function.IsPeriodicPt matA.mulVec n x := by
    intro n
    rw [Function.IsPeriodicPt, Function.IsFixedPt, iterate_mulVec]
  have hk := ((per k).1 h).minimalPeriod_dvd
  have hP := ((per (mixPhi 17)).1 (by rw [matA_pow, Matrix.one_mulVec])).minimalPeriod_dvd
  have back : ∀ n, Function.minimalPeriod matA.mulVec x ∣ n → (matA ^ n).mulVec x = x := fun n hn =>
    (per n).2 (Function.isPeriodicPt_iff_minimalPeriod_dvd.2 hn)
  rw [mixPhi_eq] at hP
  have a2 : mixQ2 ∣ Function.minimalPeriod matA.mulVec x := by
    by_contra hc
    have hco : Nat.Coprime (Function.minimalPeriod matA.mulVec x) mixQ2 := ((Nat.Prime.coprime_iff_not_dvd mixQ2_prime).2 hc).symm
    exact hx (fixed_zero rep_Z1 mixG_small.1 mixG1_eq x (back _ (hco.dvd_of_dvd_mul_right hP)))
  have a1 : mixQ1 ∣ Function.minimalPeriod matA.mulVec x := by
    by_contra hc
    have hco : Nat.Coprime (Function.minimalPeriod matA.mulVec x) mixQ1 := ((Nat.Prime.coprime_iff_not_dvd mixQ1_prime).2 hc).symm
    rw [Nat.mul_right_comm] at hP
    exact hx (fixed_zero rep_Z2 mixG_small.2 mixG2_eq x (back _ (hco.dvd_of_dvd_mul_right hP)))
  have hco : Nat.Coprime mixQ1 mixQ2 := (Nat.coprime_primes mixQ1_prime mixQ2_prime).2 (by decide)
  exact (hco.mul_dvd_of_dvd_of_dvd a1 a2).trans hk

end Boost.Random.Mixmax
