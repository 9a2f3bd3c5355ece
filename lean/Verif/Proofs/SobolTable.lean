import Verif.Model.SobolTable
import Verif.Proofs.QrngSobol

/-!
# The default Sobol table meets the conditions
-/

namespace Boost.Random
namespace Qrng

/-- A row of the table, checked: degree between 1 and 15, odd initial values below `2^(k+1)`. -/
def rowOk (row : Nat) : Bool :=
  let p := row % 2 ^ 16
  2 ≤ p && p.log2 ≤ 15 && (List.range p.log2).all fun k =>
    let m := (row >>> (16 * (k + 1))) % 2 ^ 16
    m % 2 == 1 && m < 2 ^ (k + 1)

/-- `n` rows of a chunk. -/
def chunkOk (c : Nat) : Nat → Bool
  | 0 => true
  | n + 1 => rowOk ((c >>> (256 * n)) % 2 ^ 256) && chunkOk c n

theorem chunkOk_row {c : Nat} : ∀ {n i : Nat}, chunkOk c n = true → i < n → rowOk ((c >>> (256 * i)) % 2 ^ 256) = true := by
  intro n
  induction n with
  | zero => intro i _ h; omega
  | succ n ih =>
    intro i h hi
    rw [chunkOk, Bool.and_eq_true] at h
    by_cases he : i = n
    · subst he; exact h.1
    · exact ih h.2 (by omega)

/-- All chunks: 57 of 64 rows, the last of 18. -/
def allOk : Bool := (sobolChunks.take 57).all (chunkOk · 64) && chunkOk (sobolChunks.getD 57 0) 18

set_option maxRecDepth 100000 in
theorem allOk_true : allOk = true := by decide +kernel

theorem sobolRow_ok {n : Nat} (h : n < 3666) : rowOk (sobolRow n) = true := by
  have ha := allOk_true
  unfold allOk at ha
  rw [Bool.and_eq_true, List.all_eq_true] at ha
  unfold sobolRow
  by_cases h57 : n / 64 < 57
  · have hlen : sobolChunks.length = 58 := rfl
    have hget : sobolChunks.getD (n / 64) 0 ∈ sobolChunks.take 57 := by
      rw [List.getD_eq_getElem?_getD, List.getElem?_eq_getElem (by omega)]
      rw [List.mem_take_iff_getElem]
      exact ⟨n / 64, by omega, rfl⟩
    exact chunkOk_row (ha.1 _ hget) (Nat.mod_lt _ (by decide))
  · have : n / 64 = 57 := by omega
    rw [this]
    exact chunkOk_row ha.2 (by omega)

theorem defaultSobolTable_good {w digits : Nat} (hw : 15 ≤ w) (hd : 16 ≤ digits) {i : Nat} (hi : i < 3666) : GoodRow w digits defaultSobolTable i := by
  have h := sobolRow_ok hi
  unfold rowOk at h
  simp only [Bool.and_eq_true, decide_eq_true_eq, List.all_eq_true, List.mem_range, beq_iff_eq] at h
  obtain ⟨⟨h1, h2⟩, h3⟩ := h
  refine ⟨h1, ?_, ?_, ?_⟩
  · show sobolRow i % 2 ^ 16 < 2 ^ digits
    exact lt_of_lt_of_le (Nat.mod_lt _ (by decide)) (Nat.pow_le_pow_right (by decide) hd)
  · exact le_trans h2 hw
  · intro k hk
    exact h3 k hk

end Qrng
end Boost.Random
