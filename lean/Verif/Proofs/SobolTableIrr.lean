import Verif.Proofs.SobolNet

/-!
# The polynomials of the default Sobol table are irreducible and different
-/

namespace Boost.Random
namespace Sobol
open Polynomial Spec Qrng Gf2 Nb

/-- Every polynomial of the first `n` rows is one of the Niederreiter table, and they ascend from `x + 1` on. -/
def rowsOk (n : Nat) : Bool :=
  Nat.rec true (fun i ok => Nat.ble 3 (sobolRow i % 2 ^ 16) && (Nat.blt (sobolRow i % 2 ^ 16) (sobolRow (i + 1) % 2 ^ 16) || Nat.ble 3665 i) &&
    (tableMask nbChunks).testBit (sobolRow i % 2 ^ 16) && ok) n

set_option maxRecDepth 100000 in
theorem rowsOk_true : rowsOk 3666 = true := by decide +kernel

theorem rowsOk_get : ∀ (n i : Nat), rowsOk n = true → i < n → 3 ≤ sobolRow i % 2 ^ 16 ∧ (i < 3665 → sobolRow i % 2 ^ 16 < sobolRow (i + 1) % 2 ^ 16) ∧
    (tableMask nbChunks).testBit (sobolRow i % 2 ^ 16) = true := by
  intro n
  induction n with
  | zero => intro i _ hi; omega
  | succ n ih =>
    intro i h hi
    have h' : (Nat.ble 3 (sobolRow n % 2 ^ 16) && (Nat.blt (sobolRow n % 2 ^ 16) (sobolRow (n + 1) % 2 ^ 16) || Nat.ble 3665 n) &&
      (tableMask nbChunks).testBit (sobolRow n % 2 ^ 16) && rowsOk n) = true := h
    rw [Bool.and_eq_true, Bool.and_eq_true, Bool.and_eq_true, Bool.or_eq_true] at h'
    obtain ⟨⟨⟨h1, h2⟩, h3⟩, h4⟩ := h'
    by_cases he : i = n
    · subst he
      refine ⟨Nat.le_of_ble_eq_true h1, fun hlt => ?_, h3⟩
      rcases h2 with h2 | h2
      · exact Nat.le_of_ble_eq_true h2
      · have := Nat.le_of_ble_eq_true h2; omega
    · exact ih i h4 (by omega)

theorem table_irreducible {i : Nat} (hi : i < 3666) : Irreducible (ofNat (defaultSobolTable.polynomial i)) := by
  have h := (rowsOk_get 3666 i rowsOk_true hi).2.2
  rw [tableMask_iff] at h
  exact (table_iff (Nat.mod_lt _ (by decide))).1 h

theorem table_ge {i : Nat} (hi : i < 3666) : 3 ≤ defaultSobolTable.polynomial i := (rowsOk_get 3666 i rowsOk_true hi).1

theorem table_ascending {i j : Nat} (h : i < j) (hj : j < 3666) : defaultSobolTable.polynomial i < defaultSobolTable.polynomial j := by
  induction j with
  | zero => omega
  | succ j ih =>
    have hs : defaultSobolTable.polynomial j < defaultSobolTable.polynomial (j + 1) := (rowsOk_get 3666 j rowsOk_true (by omega)).2.1 (by omega)
    by_cases he : i = j
    · rw [he]; exact hs
    · exact lt_trans (ih (by omega) (by omega)) hs

end Sobol
end Boost.Random
