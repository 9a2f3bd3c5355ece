import Verif.Proofs.MixmaxTable
import Mathlib.Tactic.FinCases

/-!
# The polynomial of the MIXMAX matrix and the rows of the skip table
-/

namespace Boost.Random.Mixmax
open Spec Packed

theorem mixVec_mod (U V : List Nat) (h : U.map (· % mixP) = V.map (· % mixP)) : mixVec 17 U = mixVec 17 V := by
  funext i
  have h1 : ∀ W : List Nat, mixVec 17 W i = (((W.map (· % mixP)).getD i 0 : Nat) : ZMod mixP) := by
    intro W
    simp only [mixVec, List.getD_eq_getElem?_getD, List.getElem?_map]
    cases W[(i : Nat)]? with
    | none => simp
    | some w => simp only [Option.getD_some, Option.map_some, ZMod.natCast_mod]
  rw [h1, h1, h]

theorem polyAct_replicate {N : Nat} (A : Matrix (Fin N) (Fin N) (ZMod mixP)) (k : Nat) (x : Fin N → ZMod mixP) :
    polyAct A (List.replicate k 0 ++ [1]) x = (A ^ k).mulVec x := by
  rw [polyAct_append]
  have : ∀ (k : Nat) (v : Fin N → ZMod mixP), polyAct A (List.replicate k 0) v = 0 := by
    intro k
    induction k with
    | zero => intro v; rfl
    | succ k ih => intro v; rw [List.replicate_succ, polyAct, ih, Nat.cast_zero, zero_smul, add_zero]
  rw [this, zero_add, List.length_replicate, polyAct, polyAct, Nat.cast_one, one_smul, add_zero]

theorem mixVec_unitL (i : Fin 17) : mixVec 17 (unitL i) = Pi.single i 1 := by
  funext j
  rw [Pi.single_apply, mixVec, unitL, List.getD_eq_getElem?_getD, List.getElem?_set]
  by_cases h : i = j
  · subst h
    have := i.2
    simp
  · have h' : (i : Nat) ≠ j := fun e => h (Fin.ext e)
    rw [if_neg h', if_neg (Ne.symm h), List.getElem?_replicate, if_pos j.2]
    simp

theorem rep_annih : Rep matA bd 17 (pack annih) (matA ^ 17) := by
  obtain ⟨M, h1, h2⟩ := rep_pack matA bd annih (by decide)
  have e : M = matA ^ 17 := by
    refine Matrix.ext_of_mulVec_single fun i => ?_
    rw [← h2, ← polyAct_replicate, ← mixVec_unitL]
    have z : mixVec 17 (List.replicate 17 0) = 0 := by
      funext i; fin_cases i <;> simp [mixVec]
    have hs : ((1 : Nat) : ZMod mixP) = (((unitL i).sum : Nat) : ZMod mixP) := by
      congr 1
      fin_cases i <;> decide
    have hu : (unitL i).length = 17 := by simp [unitL]
    have hb : ∀ v ∈ unitL i, v ≤ 2 ^ 61 + 1 := by
      intro v hv
      rcases List.mem_or_eq_of_mem_set hv with h | h
      · rw [List.eq_of_mem_replicate h]; decide
      · rw [h]; decide
    obtain ⟨_, _, a⟩ := skipRow_spec (N := 17) 36 (by decide) (by decide) (by decide) (by decide) annih (by decide)
      (List.replicate 17 0) (unitL i) 1 (by simp) hu (by decide) hb (by decide) hs
    obtain ⟨_, _, b⟩ := skipRow_spec (N := 17) 36 (by decide) (by decide) (by decide) (by decide)
      (List.replicate 17 0 ++ [1]) (by decide) (List.replicate 17 0) (unitL i) 1 (by simp) hu (by decide) hb (by decide) hs
    rw [z, zero_add] at a b
    rw [← a, ← b]
    refine mixVec_mod _ _ ?_
    have := List.all_eq_true.1 annih_units i (List.mem_range.2 i.2)
    exact beq_iff_eq.1 this
  rw [← e]
  exact h1

theorem redTable_ok : TableOK matA bd 17 17 redTable := by
  rw [redTable_eq]
  exact tableOK_mkT rep_annih 17 rep_annih

theorem redTable_length : redTable.length = 17 := by decide

theorem powE_false (m k : Nat) : ∀ e, powE m (List.replicate k false) e = 2 ^ k * e := by
  induction k with
  | zero => intro e; simp [powE]
  | succ k ih => intro e; rw [List.replicate_succ, powE, cond_false, ih, pow_succ]; ring

theorem rows_ok (x0 : Fin 17 → ZMod mixP) : RowsOK matA x0 512 skipMat17 := by
  have h : ∀ E, E = 512 → Rep matA bd 17 mixSkip0 (matA ^ (2 ^ E)) := by
    intro E hE
    have e := mixSkip0_eq
    rw [← hE] at e
    have := Rep.powK two61 redTable_length redTable_ok rep_X (List.replicate E false) (rep_X (A := matA))
      (by rw [e]; decide)
    rwa [e, powE_false, mul_one] at this
  generalize hE : 512 = E
  have h' := h E hE.symm
  rw [mixSkip0_row]
  exact ⟨canonL_le _ _, rep_canon h' (by decide) x0, chkRows_ok redTable_length redTable_ok x0 _ h' mixRows_sq⟩

end Boost.Random.Mixmax
