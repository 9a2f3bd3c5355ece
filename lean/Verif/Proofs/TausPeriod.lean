import Verif.Proofs.Tausworthe
import Mathlib.Data.Nat.ModEq
import Mathlib.Data.Finset.Card

/-!
# The period of `linear_feedback_shift_engine`
-/

namespace Boost.Random.Tausworthe
open Spec Polynomial Mt Gf2N

variable {L : Lfsr}

theorem tausworthe_ext {k q : Nat} (hq : q < k) {u v : Nat → Bool} (hu : Spec.Tausworthe k q u) (hv : Spec.Tausworthe k q v) (h : ∀ i, i < k → u i = v i) (n : Nat) :
    u n = v n := by
  induction n using Nat.strong_induction_on with
  | _ n ih =>
    by_cases hn : n < k
    · exact h n hn
    · have a := hu (n - k)
      have b := hv (n - k)
      rw [show n - k + k = n by omega] at a b
      rw [a, b, ih _ (by omega), ih _ (by omega)]

theorem tausworthe_shift {k q : Nat} {u : Nat → Bool} (hu : Spec.Tausworthe k q u) (m : Nat) : Spec.Tausworthe k q fun n => u (n + m) := fun n => by
  have := hu (n + m)
  rw [show n + m + k = n + k + m by omega, show n + m + q = n + q + m by omega] at this
  exact this

theorem bits_rec (hL : L.Valid) (v : Nat) : Spec.Tausworthe L.k L.q (bits L v) := Lfsr.tseq_rec hL.q_lt _

/-- The sequence of bits has the period `N`. -/
theorem bits_period (hL : L.Valid) {N : Nat} (hN : HasOrder (trinomial L.k L.q) N) {v : Nat} (hv : Significant L.w L.k v) : HasPeriod (bits L v) N := by
  have h := period hN (annihilates (bits_rec hL v)) (fun h => by
    obtain ⟨i, hi, hb⟩ := hv
    have := congrFun h i
    rw [bits, Lfsr.tseq_init hi, hb] at this
    exact one_ne_zero (α := ZMod 2) this)
  exact ⟨h.1, fun P => by rw [← h.2 P]; exact ⟨fun h n => congrArg gf (h n), fun h n => gf_inj (h n)⟩⟩

/-- Equal significant bits after `m` and after `n` calls. -/
theorem top_eq_iff (hL : L.Valid) {N : Nat} (hN : HasOrder (trinomial L.k L.q) N) (hs : Nat.Coprime N L.s) {v : Nat} (hv : Significant L.w L.k v) (n P : Nat) :
    (∀ i, i < L.k → topBit L.w (after L v (n + P)) i = topBit L.w (after L v n) i) ↔ N ∣ P := by
  have hper := bits_period hL hN hv
  constructor
  · intro h
    have key : ∀ j, bits L v (j + (n + P) * L.s) = bits L v (j + n * L.s) := tausworthe_ext hL.q_lt (tausworthe_shift (bits_rec hL v) _) (tausworthe_shift (bits_rec hL v) _) (fun i hi => by
      have := h i hi
      rwa [(after_bits hL v _).1 i hi, (after_bits hL v _).1 i hi, Nat.add_comm _ i, Nat.add_comm _ i] at this)
    have : ∀ j, bits L v (j + P * L.s) = bits L v j := by
      intro j
      have hb := (hper.2 (N * (n * L.s))).2 (Nat.dvd_mul_right _ _)
      have hle : n * L.s ≤ N * (n * L.s) := Nat.le_mul_of_pos_left _ hper.1
      have e := key (j + (N * (n * L.s) - n * L.s))
      rw [show j + (N * (n * L.s) - n * L.s) + (n + P) * L.s = j + P * L.s + N * (n * L.s) by rw [Nat.add_mul]; omega,
        show j + (N * (n * L.s) - n * L.s) + n * L.s = j + N * (n * L.s) by omega, hb, hb] at e
      exact e
    exact hs.dvd_of_dvd_mul_right ((hper.2 _).1 this)
  · intro hd i hi
    rw [(after_bits hL v _).1 i hi, (after_bits hL v _).1 i hi, show (n + P) * L.s + i = n * L.s + i + P * L.s by rw [Nat.add_mul]; omega]
    exact (hper.2 _).2 (hd.mul_right _) _

theorem after_lt (hL : L.Valid) (v n : Nat) : after L v (n + 1) < 2 ^ L.bits := Lfsr.stp_lt L hL _

theorem eq_of_top {w x y : Nat} (hx : x < 2 ^ w) (hy : y < 2 ^ w) (h : ∀ i, i < w → topBit w x i = topBit w y i) : x = y := by
  refine Nat.eq_of_testBit_eq fun i => ?_
  by_cases hi : i < w
  · have := h (w - 1 - i) (by omega)
    unfold topBit at this
    rwa [show w - 1 - (w - 1 - i) = i by omega] at this
  · rw [Nat.testBit_lt_two_pow (hx.trans_le (Nat.pow_le_pow_right (by decide) (by omega))), Nat.testBit_lt_two_pow (hy.trans_le (Nat.pow_le_pow_right (by decide) (by omega)))]

/-- Values are determined by the significant bits. -/
theorem after_eq (hL : L.Valid) (hw : L.bits = L.w) (hc : L.w + L.s + L.q ≤ 2 * L.k) (v v' : Nat) {m n : Nat}
    (h : ∀ i, i < L.k → topBit L.w (after L v (m + 1)) i = topBit L.w (after L v' (n + 1)) i) : after L v (m + 1) = after L v' (n + 1) := by
  have b1 := after_lt hL v m
  have b2 := after_lt hL v' n
  rw [hw] at b1 b2
  refine eq_of_top b1 b2 fun i hi => ?_
  rw [(after_bits hL v _).2 (by omega) hc i hi, (after_bits hL v' _).2 (by omega) hc i hi, Nat.add_comm _ i, Nat.add_comm _ i]
  exact tausworthe_ext hL.q_lt (tausworthe_shift (bits_rec hL v) _) (tausworthe_shift (bits_rec hL v') _) (fun i hi => by
    have := h i hi
    rwa [(after_bits hL v _).1 i hi, (after_bits hL v' _).1 i hi, Nat.add_comm _ i, Nat.add_comm _ i] at this) i

/-- Equal values. -/
theorem after_eq_iff (hL : L.Valid) (hw : L.bits = L.w) (hc : L.w + L.s + L.q ≤ 2 * L.k) {N : Nat} (hN : HasOrder (trinomial L.k L.q) N) (hs : Nat.Coprime N L.s)
    {v : Nat} (hv : Significant L.w L.k v) (n P : Nat) : after L v (n + P + 1) = after L v (n + 1) ↔ N ∣ P := by
  rw [← top_eq_iff hL hN hs hv (n + 1) P, show n + P + 1 = n + 1 + P by omega]
  constructor
  · intro h i _; rw [h]
  · intro h
    rw [show n + 1 + P = n + P + 1 by omega] at h ⊢
    exact after_eq hL hw hc v v h

/-- The significant bits as a number. -/
theorem sig_div (hL : L.Valid) {v : Nat} (hv : v < 2 ^ L.w) : v / 2 ^ (L.w - L.k) < 2 ^ L.k ∧ (Significant L.w L.k v ↔ 0 < v / 2 ^ (L.w - L.k)) := by
  have hk := hL.2.2.1
  constructor
  · rw [Nat.div_lt_iff_lt_mul (Nat.two_pow_pos _), ← pow_add]
    rwa [show L.k + (L.w - L.k) = L.w by omega]
  · rw [Nat.div_pos_iff]
    constructor
    · rintro ⟨i, hi, hb⟩
      exact ⟨Nat.two_pow_pos _, le_trans (Nat.pow_le_pow_right (by omega) (by omega)) (Nat.ge_two_pow_of_testBit hb)⟩
    · rintro ⟨-, h⟩
      obtain ⟨p, hp, hb⟩ := Nat.exists_ge_and_testBit_of_ge_two_pow h
      have hpw : p < L.w := by
        by_contra hc
        have := Nat.ge_two_pow_of_testBit hb
        have := Nat.pow_le_pow_right (show 0 < 2 by omega) (show L.w ≤ p by omega)
        omega
      exact ⟨L.w - 1 - p, by omega, by unfold topBit; rw [show L.w - 1 - (L.w - 1 - p) = p by omega]; exact hb⟩

theorem div_eq_iff_top {w k x y : Nat} (hk : k < w) (hx : x < 2 ^ w) (hy : y < 2 ^ w) : x / 2 ^ (w - k) = y / 2 ^ (w - k) ↔ ∀ i, i < k → topBit w x i = topBit w y i := by
  constructor
  · intro h i hi
    have := congrArg (fun z => z.testBit (k - 1 - i)) h
    simp only [Nat.testBit_div_two_pow] at this
    unfold topBit
    rwa [show k - 1 - i + (w - k) = w - 1 - i by omega] at this
  · intro h
    refine Nat.eq_of_testBit_eq fun i => ?_
    rw [Nat.testBit_div_two_pow, Nat.testBit_div_two_pow]
    by_cases hi : i < k
    · have := h (k - 1 - i) (by omega)
      unfold topBit at this
      rwa [show w - 1 - (k - 1 - i) = i + (w - k) by omega] at this
    · rw [Nat.testBit_lt_two_pow (hx.trans_le (Nat.pow_le_pow_right (by decide) (by omega))), Nat.testBit_lt_two_pow (hy.trans_le (Nat.pow_le_pow_right (by decide) (by omega)))]

theorem after_significant (hL : L.Valid) {v : Nat} (hv : Significant L.w L.k v) (n : Nat) : Significant L.w L.k (after L v n) := by
  by_contra hc
  have hz : ∀ i, i < L.k → bits L v (n * L.s + i) = false := fun i hi => by
    rw [← (after_bits hL v n).1 i hi]
    by_contra h
    exact hc ⟨i, hi, by simpa using h⟩
  have := Lfsr.tausworthe_back hL.2.1 hL.q_lt (bits_rec hL v) _ hz
  obtain ⟨i, hik, hbi⟩ := hv
  have e := this i (by have := hL.2.2.2.2.2.1; omega)
  rw [bits, Lfsr.tseq_init hik, hbi] at e
  exact absurd e (by simp)

/-- Every set of significant bits that are not all zero is reached. -/
theorem reaches (hL : L.Valid) (hw : L.bits = L.w) (hN : HasOrder (trinomial L.k L.q) (2 ^ L.k - 1)) (hs : Nat.Coprime (2 ^ L.k - 1) L.s) {v v' : Nat}
    (hv : Significant L.w L.k v) (hv' : Significant L.w L.k v') (hl : v' < 2 ^ L.w) :
    ∃ n, n < 2 ^ L.k - 1 ∧ ∀ i, i < L.k → topBit L.w (after L v (n + 1)) i = topBit L.w v' i := by
  have hk := hL.2.2.1
  have hlt : ∀ n, after L v (n + 1) < 2 ^ L.w := fun n => hw ▸ after_lt hL v n
  let f : Nat → Nat := fun n => after L v (n + 1) / 2 ^ (L.w - L.k)
  have hmaps : ∀ n ∈ Finset.range (2 ^ L.k - 1), f n ∈ Finset.Ico 1 (2 ^ L.k) := fun n _ => by
    have := sig_div hL (hlt n)
    exact Finset.mem_Ico.2 ⟨this.2.1 (after_significant hL hv _), this.1⟩
  have hinj : Set.InjOn f (Finset.range (2 ^ L.k - 1)) := by
    have main : ∀ n m, n ≤ m → m < 2 ^ L.k - 1 → f n = f m → n = m := fun n m hnm hm h => by
      have h1 := (div_eq_iff_top hk (hlt n) (hlt m)).1 h
      obtain ⟨d, rfl⟩ := Nat.exists_eq_add_of_le hnm
      have := (top_eq_iff hL hN hs hv (n + 1) d).1 (fun i hi => by rw [show n + 1 + d = n + d + 1 by omega]; exact (h1 i hi).symm)
      have := Nat.eq_zero_of_dvd_of_lt this (by omega)
      omega
    intro n hn m hm h
    rw [Finset.coe_range, Set.mem_Iio] at hn hm
    rcases Nat.le_total n m with hle | hle
    · exact main n m hle hm h
    · exact (main m n hle hn h.symm).symm
  have hsurj := Finset.surj_on_of_inj_on_of_card_le (s := Finset.range (2 ^ L.k - 1)) (t := Finset.Ico 1 (2 ^ L.k)) (fun n _ => f n) hmaps
    (fun a b ha hb h => hinj ha hb h) (by simp)
  have ht := sig_div hL hl
  obtain ⟨n, hn, e⟩ := hsurj _ (Finset.mem_Ico.2 ⟨ht.2.1 hv', ht.1⟩)
  exact ⟨n, Finset.mem_range.1 hn, (div_eq_iff_top hk (hlt n) hl).1 e.symm⟩

end Boost.Random.Tausworthe
