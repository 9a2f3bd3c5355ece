import Verif.Model.Lfsr
import Verif.Spec.Lfsr
import Verif.Proofs.Run
import Verif.Proofs.Adaptors

namespace Boost.Random.Lfsr
open Spec

/-- The new state computed by a call. -/
def stp (L : Lfsr) (v : Nat) : Nat :=
  (((v &&& (((L.wordmask <<< (L.w - L.k)) % 2 ^ L.bits) &&& L.wordmask)) <<< L.s) % 2 ^ L.bits) ^^^
    (((((v <<< L.q) % 2 ^ L.bits) ^^^ v) &&& L.wordmask) >>> (L.k - L.s))

theorem next_eq (L : Lfsr) (v : Nat) : L.next v = some ((L.stp v : Int), L.stp v) := rfl

theorem stp_testBit (L : Lfsr) (v p : Nat) :
    (L.stp v).testBit p = ((decide (p < L.bits) && (decide (L.s ≤ p) && (v.testBit (p - L.s) &&
      (decide (p - L.s < L.bits) && (decide (L.w - L.k ≤ p - L.s) && decide (p - L.s - (L.w - L.k) < L.w)) &&
        decide (p - L.s < L.w))))) ^^
      (((decide (L.k - L.s + p < L.bits) && (decide (L.q ≤ L.k - L.s + p) && v.testBit (L.k - L.s + p - L.q))) ^^
        v.testBit (L.k - L.s + p)) && decide (L.k - L.s + p < L.w))) := by
  simp only [stp, wordmask, Nat.testBit_xor, Nat.testBit_mod_two_pow, Nat.testBit_shiftLeft, Nat.testBit_and,
    Nat.testBit_shiftRight, Nat.testBit_two_pow_sub_one, ge_iff_le]

theorem stp_top (L : Lfsr) (hL : L.Valid) (v i : Nat) (hi : i < L.w) :
    topBit L.w (L.stp v) i = if i + L.s < L.k then topBit L.w v (i + L.s)
      else (topBit L.w v (i + L.s - L.k) ^^ topBit L.w v (i + L.s - L.k + L.q)) := by
  obtain ⟨h1, h2, h3, h4, h5, h6, h7, h8, h9⟩ := hL
  unfold topBit
  rw [stp_testBit]
  split
  · rename_i h
    rw [show L.w - 1 - i - L.s = L.w - 1 - (i + L.s) by omega]
    have e1 : ¬ L.k - L.s + (L.w - 1 - i) < L.w := by omega
    have e2 : L.w - 1 - i < L.bits := by omega
    have e3 : L.s ≤ L.w - 1 - i := by omega
    have e4 : L.w - 1 - (i + L.s) < L.bits := by omega
    have e5 : L.w - L.k ≤ L.w - 1 - (i + L.s) := by omega
    have e6 : L.w - 1 - (i + L.s) - (L.w - L.k) < L.w := by omega
    have e7 : L.w - 1 - (i + L.s) < L.w := by omega
    simp [e1, e2, e3, e4, e5, e6, e7]
  · rename_i h
    have e1 : L.k - L.s + (L.w - 1 - i) < L.w := by omega
    have e2 : L.k - L.s + (L.w - 1 - i) < L.bits := by omega
    have e3 : L.q ≤ L.k - L.s + (L.w - 1 - i) := by omega
    have e4 : L.k - L.s + (L.w - 1 - i) - L.q = L.w - 1 - (i + L.s - L.k + L.q) := by omega
    have e5 : L.k - L.s + (L.w - 1 - i) = L.w - 1 - (i + L.s - L.k) := by omega
    have e6 : ¬ L.w - L.k ≤ L.w - 1 - i - L.s ∨ ¬ L.s ≤ L.w - 1 - i := by omega
    rw [e4]
    simp only [e1, e2, e3, decide_true, Bool.true_and, Bool.and_true]
    rw [e5, Bool.xor_comm (v.testBit _)]
    rcases e6 with e6 | e6 <;> simp [e6]

theorem stp_lt (L : Lfsr) (hL : L.Valid) (v : Nat) : L.stp v < 2 ^ L.bits := by
  obtain ⟨h1, h2, h3, h4, h5, h6, h7, h8, h9⟩ := hL
  apply Nat.xor_lt_two_pow (Nat.mod_lt _ (by positivity))
  rw [Nat.shiftRight_eq_div_pow]
  refine lt_of_le_of_lt (Nat.div_le_self _ _) (lt_of_le_of_lt Nat.and_le_right ?_)
  unfold wordmask
  have : 2 ^ L.w ≤ 2 ^ L.bits := Nat.pow_le_pow_right (by omega) h8
  have : 0 < 2 ^ L.w := by positivity
  omega

/-- The Tausworthe sequence with given first `k` bits. -/
def tseq (k q : Nat) (init : Nat → Bool) (n : Nat) : Bool :=
  if n < k ∨ k ≤ q then init n else (tseq k q init (n - k + q) ^^ tseq k q init (n - k))
termination_by n

theorem tseq_init {k q : Nat} {init : Nat → Bool} {n : Nat} (h : n < k) : tseq k q init n = init n := by
  rw [tseq, if_pos (Or.inl h)]

theorem tseq_rec {k q : Nat} (hq : q < k) (init : Nat → Bool) : Tausworthe k q (tseq k q init) := by
  intro n
  rw [tseq, if_neg (by omega), Nat.add_sub_cancel]

/-- Reversibility: `k` zeros in a row mean that everything before is zero. -/
theorem tausworthe_back {k q : Nat} (hq0 : 0 < q) (hq : q < k) {u : Nat → Bool} (hu : Tausworthe k q u) (N : Nat)
    (h : ∀ i, i < k → u (N + i) = false) : ∀ n, n ≤ N + k - 1 → u n = false := by
  induction N with
  | zero => intro n hn; by_cases hk : k = 0
            · omega
            · simpa using h n (by omega)
  | succ N ih =>
    have h0 : u N = false := by
      have := hu N
      rw [show N + k = N + 1 + (k - 1) by omega, h (k - 1) (by omega)] at this
      rw [show N + q = N + 1 + (q - 1) by omega, h (q - 1) (by omega)] at this
      simpa using this.symm
    intro n hn
    by_cases e : n = N + 1 + k - 1
    · rw [e, show N + 1 + k - 1 = N + 1 + (k - 1) by omega]; exact h _ (by omega)
    · exact ih (fun i hi => by
        by_cases hi0 : i = 0
        · rw [hi0]; exact h0
        · rw [show N + i = N + 1 + (i - 1) by omega]; exact h _ (by omega)) n (by omega)

end Boost.Random.Lfsr
