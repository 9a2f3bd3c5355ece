import Verif.Proofs.Discrepancy
import Verif.Proofs.Chords
import Verif.Spec.Faure

/-!
# The discrepancy of sequences as the quasi-random engines make them
-/

namespace Boost.Random.Nets
open Spec Finset Intersections
open Classical

/-- An aligned block of a sequence in base 2 is a net. -/
theorem ts_net {dim t : Nat} {vs : List Nat} (S : IsTsSequence 64 dim t vs) {m c : Nat} (hm : m ≤ 64) (hc : (c + 1) * 2 ^ m ≤ 2 ^ 64) :
    IsNet 2 t m dim (Finset.Ico (c * 2 ^ m) ((c + 1) * 2 ^ m)) fun i d => (pointOf dim vs i d : ℝ) / 2 ^ 64 := by
  intro k a hk ha
  rw [← S k a m c hm hc hk ha, inBox]
  symm
  refine Finset.card_bij (fun n _ => c * 2 ^ m + n) (fun n hn => ?_) (fun n _ n' _ h => by omega) fun i hi => ?_
  · rw [Finset.mem_filter, Finset.mem_range] at hn
    rw [Finset.mem_filter, Finset.mem_Ico]
    refine ⟨⟨by omega, by rw [Nat.add_mul, Nat.one_mul]; omega⟩, fun d hd => ?_⟩
    have hkd : k d ≤ 64 := by
      have := Finset.single_le_sum (f := k) (fun _ _ => Nat.zero_le _) (Finset.mem_range.2 hd)
      omega
    have := (word_share (a := a d) (x := pointOf dim vs (c * 2 ^ m + n) d) hkd).2 (hn.2 d hd)
    exact_mod_cast this
  · rw [Finset.mem_filter, Finset.mem_Ico, Nat.add_mul, Nat.one_mul] at hi
    refine ⟨i - c * 2 ^ m, ?_, by omega⟩
    rw [Finset.mem_filter, Finset.mem_range]
    refine ⟨by omega, fun d hd => ?_⟩
    have hkd : k d ≤ 64 := by
      have := Finset.single_le_sum (f := k) (fun _ _ => Nat.zero_le _) (Finset.mem_range.2 hd)
      omega
    rw [Nat.add_sub_cancel' hi.1.1]
    refine (word_share hkd).1 ?_
    have := hi.2 d hd
    exact_mod_cast this

/-- The first `N` points of a sequence in base 2 without the point zero. -/
theorem ts_corner {dim t : Nat} {vs : List Nat} (S : IsTsSequence 64 dim t vs) (hlt : ∀ n < 2 ^ 64, ∀ d < dim, pointOf dim vs n d < 2 ^ 64)
    {N w : Nat} (hN : N < 2 ^ 64) (hw : N + 1 < 2 ^ w) {y : Nat → ℝ} (hy : ∀ d < dim, y d ∈ Set.Icc (0 : ℝ) 1) :
    |(inCorner dim N (fun i d => (vs.getD (i * dim + d) 0 : ℝ) / 2 ^ 64) y : ℝ) - N * ∏ d ∈ range dim, y d| ≤ sequenceBound 2 t dim w (N + 1) + 1 := by
  have hmain := sequence (b := 2) (t := t) (x := fun i d => (pointOf dim vs i d : ℝ) / 2 ^ 64) (le_refl _) hy hw
    (fun i hi d hd => word_Ico (hlt i (by omega) d hd))
    (fun m c _ hc => by
      have h1 : (c + 1) * 2 ^ m ≤ 2 ^ 64 := by omega
      have h2 : 2 ^ m ≤ 2 ^ 64 := le_trans (Nat.le_mul_of_pos_left _ (by omega)) h1
      exact ts_net S ((Nat.pow_le_pow_iff_right (by decide)).1 h2) h1)
  have hP := prod_unit hy
  have hcount : inCorner dim (N + 1) (fun i d => (pointOf dim vs i d : ℝ) / 2 ^ 64) y =
      inCorner dim N (fun i d => (vs.getD (i * dim + d) 0 : ℝ) / 2 ^ 64) y + (if ∀ d < dim, 0 < y d then 1 else 0) := by
    unfold inCorner
    rw [Finset.card_filter, Finset.card_filter, Finset.sum_range_succ']
    congr 1
    simp [pointOf]
  rw [hcount] at hmain
  have he : (0 : ℝ) ≤ ((if ∀ d < dim, 0 < y d then 1 else 0 : Nat) : ℝ) ∧ ((if ∀ d < dim, 0 < y d then 1 else 0 : Nat) : ℝ) ≤ 1 := by
    split <;> simp
  push_cast at hmain he ⊢
  rw [abs_le] at hmain ⊢
  constructor <;> nlinarith [hmain.1, hmain.2, he.1, he.2, hP.1, hP.2]

theorem floor_share {v : ℚ} {b k a : Nat} : ⌊v * (b : ℚ) ^ k⌋ = (a : Int) ↔ (a : ℝ) ≤ (b : ℝ) ^ k * (v : ℝ) ∧ (b : ℝ) ^ k * (v : ℝ) < a + 1 := by
  rw [Int.floor_eq_iff]
  have e : (b : ℝ) ^ k * (v : ℝ) = ((v * (b : ℚ) ^ k : ℚ) : ℝ) := by push_cast; ring
  rw [e]
  constructor
  · rintro ⟨h1, h2⟩
    exact ⟨by exact_mod_cast h1, by exact_mod_cast h2⟩
  · rintro ⟨h1, h2⟩
    exact ⟨by exact_mod_cast h1, by exact_mod_cast h2⟩

/-- An aligned block of Faure's sequence is a net. -/
theorem faure_net {b dim : Nat} (hb : 2 ≤ b) (h0 : 0 < dim) {vs : List ℚ} {m c : Nat}
    (S : ∀ (k a : Nat → Nat), ∑ d ∈ Finset.range dim, k d = m → (∀ d < dim, a d < b ^ k d) → (inFaureBox b dim vs m c k (fun d => a d)).card = 1) :
    IsNet b 0 m dim (Finset.Ico (c * b ^ m) ((c + 1) * b ^ m)) fun i d => ((vs.getD (i * dim + d) 0 : ℚ) : ℝ) := by
  intro k a hk ha
  rw [Nat.zero_add] at hk
  obtain ⟨r, hr⟩ : ∃ r, m = ∑ d ∈ range dim, k d + r := ⟨_, (Nat.add_sub_cancel' hk).symm⟩
  have hbp : ∀ n, 0 < b ^ n := fun n => Nat.pow_pos (by omega)
  have hsum : ∑ d ∈ range dim, (if d = 0 then k 0 + r else k d) = m := by
    rw [hr]
    have : ∀ d ∈ range dim, (if d = 0 then k 0 + r else k d) = k d + if d = 0 then r else 0 := fun d _ => by
      by_cases hd : d = 0
      · subst hd; simp
      · simp [hd]
    rw [sum_congr rfl this, sum_add_distrib, sum_ite_eq' (range dim) 0, if_pos (mem_range.2 h0)]
  have hbox : ∀ q < b ^ r, (inFaureBox b dim vs m c (fun d => if d = 0 then k 0 + r else k d) (fun d => ((if d = 0 then a 0 * b ^ r + q else a d : Nat) : Int))).card = 1 := by
    intro q hq
    refine S (fun d => if d = 0 then k 0 + r else k d) (fun d => if d = 0 then a 0 * b ^ r + q else a d) hsum fun d hd => ?_
    by_cases h : d = 0
    · subst h
      simp only [if_true]
      calc a 0 * b ^ r + q < a 0 * b ^ r + b ^ r := by omega
        _ = (a 0 + 1) * b ^ r := by ring
        _ ≤ b ^ k 0 * b ^ r := Nat.mul_le_mul_right _ (ha 0 hd)
        _ = b ^ (k 0 + r) := (pow_add ..).symm
    · simp only [if_neg h]
      exact ha d hd
  have hcells : ((Finset.range (b ^ m)).filter fun n => ∀ d < dim, ⌊vs.getD ((c * b ^ m + n) * dim + d) 0 * (b : ℚ) ^ k d⌋ = (a d : Int)) =
      (Finset.range (b ^ r)).biUnion fun q => inFaureBox b dim vs m c (fun d => if d = 0 then k 0 + r else k d) (fun d => ((if d = 0 then a 0 * b ^ r + q else a d : Nat) : Int)) := by
    ext n
    simp only [inFaureBox, Finset.mem_filter, Finset.mem_biUnion, Finset.mem_range]
    have key : ∀ v : ℚ, ⌊v * (b : ℚ) ^ k 0⌋ = (a 0 : Int) ↔ ∃ q < b ^ r, ⌊v * (b : ℚ) ^ (k 0 + r)⌋ = ((a 0 * b ^ r + q : Nat) : Int) := by
      intro v
      have hpos : (0 : Int) < ((b ^ r : Nat) : Int) := by exact_mod_cast hbp r
      have e : ⌊v * (b : ℚ) ^ k 0⌋ = ⌊v * (b : ℚ) ^ (k 0 + r)⌋ / ((b ^ r : Nat) : Int) := by
        have hq : (b : ℚ) ^ r ≠ 0 := by positivity
        rw [← Int.floor_div_natCast]
        congr 1
        rw [pow_add]
        push_cast
        field_simp
      rw [e]
      generalize ⌊v * (b : ℚ) ^ (k 0 + r)⌋ = z
      rw [Int.ediv_eq_iff_of_pos hpos]
      constructor
      · rintro ⟨h1, h2⟩
        refine ⟨(z - a 0 * (b ^ r : Nat)).toNat, ?_, ?_⟩
        · have : z - a 0 * (b ^ r : Nat) < (b ^ r : Nat) := by linarith
          omega
        · push_cast
          rw [Int.toNat_of_nonneg (by push_cast at h1 ⊢; linarith)]
          push_cast
          ring
      · rintro ⟨q, hq, rfl⟩
        have : (q : Int) < ((b ^ r : Nat) : Int) := by exact_mod_cast hq
        push_cast at this ⊢
        constructor <;> nlinarith
    constructor
    · rintro ⟨h1, h2⟩
      obtain ⟨q, hq, e⟩ := (key _).1 (h2 0 h0)
      refine ⟨q, hq, h1, fun d hd => ?_⟩
      by_cases h : d = 0
      · subst h; simpa using e
      · simpa [h] using h2 d hd
    · rintro ⟨q, hq, h1, h2⟩
      refine ⟨h1, fun d hd => ?_⟩
      by_cases h : d = 0
      · subst h
        exact (key _).2 ⟨q, hq, by simpa using h2 0 h0⟩
      · simpa [h] using h2 d hd
  have hcard : ((Finset.range (b ^ m)).filter fun n => ∀ d < dim, ⌊vs.getD ((c * b ^ m + n) * dim + d) 0 * (b : ℚ) ^ k d⌋ = (a d : Int)).card = b ^ r := by
    rw [hcells, Finset.card_biUnion]
    · rw [sum_congr rfl fun q hq => hbox q (mem_range.1 hq)]
      simp
    · intro q _ q' _ hne
      refine Finset.disjoint_left.2 fun n hn hn' => hne ?_
      have e1 := (Finset.mem_filter.1 hn).2 0 h0
      have e2 := (Finset.mem_filter.1 hn').2 0 h0
      simp only [if_true] at e1 e2
      rw [e1] at e2
      have := Int.ofNat.inj e2
      omega
  rw [show m - ∑ d ∈ range dim, k d = r by omega, ← hcard]
  symm
  refine Finset.card_bij (fun n _ => c * b ^ m + n) (fun n hn => ?_) (fun n _ n' _ h => by omega) fun i hi => ?_
  · rw [Finset.mem_filter, Finset.mem_range] at hn
    rw [Finset.mem_filter, Finset.mem_Ico]
    exact ⟨⟨by omega, by rw [Nat.add_mul, Nat.one_mul]; omega⟩, fun d hd => floor_share.1 (hn.2 d hd)⟩
  · rw [Finset.mem_filter, Finset.mem_Ico, Nat.add_mul, Nat.one_mul] at hi
    refine ⟨i - c * b ^ m, ?_, by omega⟩
    rw [Finset.mem_filter, Finset.mem_range]
    refine ⟨by omega, fun d hd => ?_⟩
    rw [Nat.add_sub_cancel' hi.1.1]
    exact floor_share.2 (hi.2 d hd)

theorem faure_unit {b dim N : Nat} {vs : List ℚ}
    (S : ∀ (k a : Nat → Nat) (m c : Nat), ∑ d ∈ Finset.range dim, k d = m → (c + 1) * b ^ m ≤ N → (∀ d < dim, a d < b ^ k d) → (inFaureBox b dim vs m c k (fun d => a d)).card = 1)
    {i d : Nat} (hi : i < N) (hd : d < dim) : ((vs.getD (i * dim + d) 0 : ℚ) : ℝ) ∈ Set.Ico (0 : ℝ) 1 := by
  have h := S (fun _ => 0) (fun _ => 0) 0 i (by simp) (by rw [Nat.pow_zero, Nat.mul_one]; omega) (fun d _ => by simp)
  obtain ⟨n, hn⟩ := Finset.card_eq_one.1 h
  have hmem : n ∈ inFaureBox b dim vs 0 i (fun _ => 0) (fun d => (((fun _ => 0) d : Nat) : Int)) := by rw [hn]; exact Finset.mem_singleton_self _
  rw [inFaureBox, Finset.mem_filter, Finset.mem_range] at hmem
  have hn0 : n = 0 := by have := hmem.1; rw [Nat.pow_zero] at this; omega
  have := floor_share.1 (hmem.2 d hd)
  rw [hn0] at this
  simpa using this

/-- The first points of Faure's sequence. -/
theorem faure_corner {b dim N w : Nat} (hb : 2 ≤ b) (h0 : 0 < dim) {vs : List ℚ}
    (S : ∀ (k a : Nat → Nat) (m c : Nat), ∑ d ∈ Finset.range dim, k d = m → (c + 1) * b ^ m ≤ N → (∀ d < dim, a d < b ^ k d) → (inFaureBox b dim vs m c k (fun d => a d)).card = 1)
    (hw : N < b ^ w) {y : Nat → ℝ} (hy : ∀ d < dim, y d ∈ Set.Icc (0 : ℝ) 1) :
    |(inCorner dim N (fun i d => ((vs.getD (i * dim + d) 0 : ℚ) : ℝ)) y : ℝ) - N * ∏ d ∈ range dim, y d| ≤ sequenceBound b 0 dim w N :=
  sequence hb hy hw (fun _ hi _ hd => faure_unit S hi hd) fun m c _ hc => faure_net hb h0 fun k a hk ha => S k a m c hk hc ha

theorem netBound_le {b t s m w : Nat} (hb : 2 ≤ b) (hs : 0 < s) (hm : m ≤ w) : netBound b t s m ≤ b ^ t * ∑ i ∈ range s, w.choose i * (b - 1) ^ i := by
  unfold netBound
  split
  · rename_i hlt
    refine le_trans (Nat.pow_le_pow_right (by omega) (Nat.le_of_lt hlt)) (Nat.le_mul_of_pos_right _ ?_)
    refine Nat.lt_of_lt_of_le ?_ (Finset.single_le_sum (fun _ _ => Nat.zero_le _) (mem_range.2 hs))
    simp
  · refine Nat.mul_le_mul_left _ (Finset.sum_le_sum fun i _ => Nat.mul_le_mul_right _ (Nat.choose_le_choose i (by omega)))

theorem sequenceBound_le {b t s w N : Nat} (hb : 2 ≤ b) (hs : 0 < s) :
    sequenceBound b t s w N ≤ w * ((b - 1) * (b ^ t * ∑ i ∈ range s, w.choose i * (b - 1) ^ i)) := by
  unfold sequenceBound
  refine le_trans (Finset.sum_le_card_nsmul _ _ ((b - 1) * (b ^ t * ∑ i ∈ range s, w.choose i * (b - 1) ^ i)) fun j hj => ?_) (by simp)
  have h1 : N / b ^ j % b ≤ b - 1 := by
    have := Nat.mod_lt (N / b ^ j) (by omega : b > 0)
    omega
  exact Nat.mul_le_mul h1 (netBound_le hb hs (Nat.le_of_lt (mem_range.1 hj)))

theorem sequenceBound_two {w N : Nat} : sequenceBound 2 0 2 w N ≤ w * (w + 1) / 2 := by
  have h : ∀ w, sequenceBound 2 0 2 w N * 2 ≤ w * (w + 1) := by
    intro w
    induction w with
    | zero => simp [sequenceBound]
    | succ w ih =>
      have e : sequenceBound 2 0 2 (w + 1) N = sequenceBound 2 0 2 w N + N / 2 ^ w % 2 * (1 + w) := by
        unfold sequenceBound
        rw [sum_range_succ]
        congr 1
        simp [netBound, sum_range_succ]
      have h1 : N / 2 ^ w % 2 * (1 + w) ≤ 1 * (1 + w) := Nat.mul_le_mul_right _ (by omega)
      rw [e]
      nlinarith
  have := h w
  omega

end Boost.Random.Nets
