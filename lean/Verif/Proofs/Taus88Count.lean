import Verif.Proofs.Taus88

/-!
# How often `taus88` returns each value in a period
-/

namespace Boost.Random.Tausworthe
open Spec Mt

/-- `n` numbers of a range, zero left out. -/
theorem sum_pos (n : Nat) (hn : 0 < n) (h : Nat → Nat) : ∑ a ∈ Finset.Ico 1 n, h a + h 0 = ∑ a ∈ Finset.range n, h a := by
  rw [Finset.range_eq_Ico, ← Finset.sum_Ico_consecutive h (Nat.zero_le 1) hn, add_comm]
  simp

variable (fa fb fc : Nat → Nat) (A B C : Nat)

/-- How often `y` is the sum of three values of different functions at places other than zero. -/
def triples (y : Nat) : Nat := ∑ a ∈ Finset.Ico 1 A, ∑ b ∈ Finset.Ico 1 B, ∑ c ∈ Finset.Ico 1 C, if fa a ^^^ fb b ^^^ fc c = y then 1 else 0

theorem inclusion (hA : 0 < A) (hB : 0 < B) (hC : 0 < C) (g : Nat → Nat → Nat → Nat) :
    (∑ a ∈ Finset.Ico 1 A, ∑ b ∈ Finset.Ico 1 B, ∑ c ∈ Finset.Ico 1 C, g a b c) + (∑ a ∈ Finset.range A, ∑ b ∈ Finset.range B, g a b 0) +
      (∑ a ∈ Finset.range A, ∑ c ∈ Finset.range C, g a 0 c) + (∑ b ∈ Finset.range B, ∑ c ∈ Finset.range C, g 0 b c) + g 0 0 0 =
    (∑ a ∈ Finset.range A, ∑ b ∈ Finset.range B, ∑ c ∈ Finset.range C, g a b c) + (∑ a ∈ Finset.range A, g a 0 0) + (∑ b ∈ Finset.range B, g 0 b 0) +
      (∑ c ∈ Finset.range C, g 0 0 c) := by
  simp only [← sum_pos A hA, ← sum_pos B hB, ← sum_pos C hC, Finset.sum_add_distrib]
  ring

/-- A word is a value of `word` at most once, and exactly if it continues its significant bits. -/
theorem word_count {w k q y : Nat} (hk : k < w) (hq : w + q ≤ 2 * k) (hy : y < 2 ^ w) [Decidable (Continues w k q y)] :
    (∑ a ∈ Finset.range (2 ^ k), if word w k q a = y then 1 else 0) = if Continues w k q y then 1 else 0 := by
  have hdiv : y / 2 ^ (w - k) < 2 ^ k := by
    rw [Nat.div_lt_iff_lt_mul (Nat.two_pow_pos _), ← pow_add]
    rwa [show k + (w - k) = w by omega]
  have hbit : ∀ j, j < k → (y / 2 ^ (w - k)).testBit (k - 1 - j) = topBit w y j := fun j hj => by
    rw [Nat.testBit_div_two_pow, topBit]; congr 1; omega
  have key : ∀ a < 2 ^ k, word w k q a = y ↔ a = y / 2 ^ (w - k) ∧ Continues w k q y := by
    intro a ha
    constructor
    · rintro rfl
      constructor
      · refine Nat.eq_of_testBit_eq fun i => ?_
        by_cases hi : i < k
        · have := hbit (k - 1 - i) (by omega)
          rw [topBit_word hk hq ha (by omega), if_pos (by omega), show k - 1 - (k - 1 - i) = i by omega] at this
          exact this.symm
        · rw [Nat.testBit_lt_two_pow (ha.trans_le (Nat.pow_le_pow_right (by decide) (by omega))),
            Nat.testBit_lt_two_pow (hdiv.trans_le (Nat.pow_le_pow_right (by decide) (by omega)))]
      · intro i h1 h2
        rw [topBit_word hk hq ha h2, if_neg (by omega), topBit_word hk hq ha (by omega), if_pos (by omega), topBit_word hk hq ha (by omega), if_pos (by omega)]
    · rintro ⟨rfl, hc⟩
      refine eq_of_top (word_lt hk hq ha) hy fun i hi => ?_
      rw [topBit_word hk hq ha hi]
      split
      · rename_i h; exact hbit i h
      · rename_i h
        rw [hbit _ (by omega), hbit _ (by omega)]
        exact (hc i (by omega) hi).symm
  rw [Finset.sum_congr rfl fun a ha => if_congr (key a (Finset.mem_range.1 ha)) rfl rfl]
  by_cases hc : Continues w k q y
  · simp [hc, hdiv]
  · simp [hc]

theorem word_zero (w k q : Nat) : word w k q 0 = 0 := by simp [word]

section
variable {w ka kb kc qa qb qc : Nat} (ha : ka < w) (hb : kb < w) (hc : kc < w) (ha' : w + qa ≤ 2 * ka) (hb' : w + qb ≤ 2 * kb) (hc' : w + qc ≤ 2 * kc) {x y z : Nat}
  (hAB : ∀ v < 2 ^ w, pairs ka kb (word w ka qa) (word w kb qb) v = x) (hAC : ∀ v < 2 ^ w, pairs ka kc (word w ka qa) (word w kc qc) v = y)
  (hBC : ∀ v < 2 ^ w, pairs kb kc (word w kb qb) (word w kc qc) v = z)
include ha hb hc ha' hb' hc' hAB hAC hBC

/-- The number of triples of nonzero significant bits for each value. -/
theorem triples_gen (v : Nat) (hv : v < 2 ^ w) [Decidable (Continues w ka qa v)] [Decidable (Continues w kb qb v)] [Decidable (Continues w kc qc v)] :
    triples (word w ka qa) (word w kb qb) (word w kc qc) (2 ^ ka) (2 ^ kb) (2 ^ kc) v + (x + y + z) + (if v = 0 then 1 else 0) =
      2 ^ ka * z + (if Continues w ka qa v then 1 else 0) + (if Continues w kb qb v then 1 else 0) + (if Continues w kc qc v then 1 else 0) := by
  have h := inclusion (2 ^ ka) (2 ^ kb) (2 ^ kc) (Nat.two_pow_pos _) (Nat.two_pow_pos _) (Nat.two_pow_pos _)
    fun a b c => if word w ka qa a ^^^ word w kb qb b ^^^ word w kc qc c = v then 1 else 0
  have eAB := hAB v hv
  have eAC := hAC v hv
  have eBC := hBC v hv
  have eABC : ∑ a ∈ Finset.range (2 ^ ka), ∑ b ∈ Finset.range (2 ^ kb), ∑ c ∈ Finset.range (2 ^ kc),
      (if word w ka qa a ^^^ word w kb qb b ^^^ word w kc qc c = v then 1 else 0) = 2 ^ ka * z := by
    have : ∀ a ∈ Finset.range (2 ^ ka), ∑ b ∈ Finset.range (2 ^ kb), ∑ c ∈ Finset.range (2 ^ kc),
        (if word w ka qa a ^^^ word w kb qb b ^^^ word w kc qc c = v then 1 else 0) = z := fun a hr => by
      have hx : word w ka qa a ^^^ v < 2 ^ w := Nat.xor_lt_two_pow (word_lt ha ha' (Finset.mem_range.1 hr)) hv
      rw [← hBC _ hx, pairs]
      refine Finset.sum_congr rfl fun b _ => Finset.sum_congr rfl fun c _ => if_congr ?_ rfl rfl
      rw [Nat.xor_assoc]
      constructor
      · intro h; rw [← h, ← Nat.xor_assoc, Nat.xor_self, Nat.zero_xor]
      · intro h; rw [h, ← Nat.xor_assoc, Nat.xor_self, Nat.zero_xor]
    rw [Finset.sum_congr rfl this, Finset.sum_const, Finset.card_range, smul_eq_mul]
  simp only [word_zero, Nat.xor_zero, Nat.zero_xor] at h
  rw [eABC, word_count ha ha' hv, word_count hb hb' hv, word_count hc hc' hv] at h
  unfold pairs at eAB eAC eBC
  rw [eAB, eAC, eBC] at h
  rw [show (if v = 0 then 1 else 0) = if 0 = v then 1 else 0 from if_congr eq_comm rfl rfl]
  unfold triples
  omega

end

section
variable {L M K : Lfsr} (vA : L.Valid) (vB : M.Valid) (vC : K.Valid) (wA : L.bits = L.w) (wB : M.bits = M.w) (wC : K.bits = K.w)
  {p q r : Nat} (oA : HasOrder (trinomial L.k L.q) p) (oB : HasOrder (trinomial M.k M.q) q) (oC : HasOrder (trinomial K.k K.q) r)
  (sA : Nat.Coprime p L.s) (sB : Nat.Coprime q M.s) (sC : Nat.Coprime r K.s)
  (hp : 2 ^ L.k = p + 1) (hq : 2 ^ M.k = q + 1) (hr : 2 ^ K.k = r + 1)
  (pq : Nat.Coprime p q) (pr : Nat.Coprime p r) (qr : Nat.Coprime q r) {a b c : Nat} (ha : Significant L.w L.k a) (hb : Significant M.w M.k b) (hc : Significant K.w K.k c)
include vA vB vC wA wB wC oA oB oC sA sB sC hp hq hr pq pr qr ha hb hc

/-- Over a period the three sets of significant bits take all values. -/
theorem count_triples (g : Nat × Nat × Nat → Nat) :
    ∑ n ∈ Finset.range (p * q * r), g (after L a (n + 1) / 2 ^ (L.w - L.k), after M b (n + 1) / 2 ^ (M.w - M.k), after K c (n + 1) / 2 ^ (K.w - K.k)) =
      ∑ p ∈ Finset.Ico 1 (2 ^ L.k) ×ˢ (Finset.Ico 1 (2 ^ M.k) ×ˢ Finset.Ico 1 (2 ^ K.k)), g p := by
  have lA : ∀ n, after L a (n + 1) < 2 ^ L.w := fun n => wA ▸ after_lt vA a n
  have lB : ∀ n, after M b (n + 1) < 2 ^ M.w := fun n => wB ▸ after_lt vB b n
  have lC : ∀ n, after K c (n + 1) < 2 ^ K.w := fun n => wC ▸ after_lt vC c n
  set F : Nat → Nat × Nat × Nat := fun n => (after L a (n + 1) / 2 ^ (L.w - L.k), after M b (n + 1) / 2 ^ (M.w - M.k), after K c (n + 1) / 2 ^ (K.w - K.k)) with hF
  have hinj : Set.InjOn F (Finset.range (p * q * r)) := by
    have main : ∀ n m, n ≤ m → m < p * q * r → F n = F m → n = m := fun n m hnm hm h => by
      obtain ⟨d, rfl⟩ := Nat.exists_eq_add_of_le hnm
      simp only [hF, Prod.mk.injEq] at h
      have hA := (div_eq_iff_top vA.2.2.1 (lA n) (lA (n + d))).1 h.1
      have hB := (div_eq_iff_top vB.2.2.1 (lB n) (lB (n + d))).1 h.2.1
      have hC := (div_eq_iff_top vC.2.2.1 (lC n) (lC (n + d))).1 h.2.2
      have dA := (top_eq_iff vA oA sA ha (n + 1) d).1 (fun i hi => by rw [show n + 1 + d = n + d + 1 by omega]; exact (hA i hi).symm)
      have dB := (top_eq_iff vB oB sB hb (n + 1) d).1 (fun i hi => by rw [show n + 1 + d = n + d + 1 by omega]; exact (hB i hi).symm)
      have dC := (top_eq_iff vC oC sC hc (n + 1) d).1 (fun i hi => by rw [show n + 1 + d = n + d + 1 by omega]; exact (hC i hi).symm)
      have := (Nat.Coprime.mul_left pr qr).mul_dvd_of_dvd_of_dvd (pq.mul_dvd_of_dvd_of_dvd dA dB) dC
      have := Nat.eq_zero_of_dvd_of_lt this (by omega)
      omega
    intro n hn m hm h
    rw [Finset.coe_range, Set.mem_Iio] at hn hm
    rcases Nat.le_total n m with hle | hle
    · exact main n m hle hm h
    · exact (main m n hle hn h.symm).symm
  have himg : (Finset.range (p * q * r)).image F = Finset.Ico 1 (2 ^ L.k) ×ˢ (Finset.Ico 1 (2 ^ M.k) ×ˢ Finset.Ico 1 (2 ^ K.k)) := by
    refine Finset.eq_of_subset_of_card_le ?_ ?_
    · intro x hx
      obtain ⟨n, -, rfl⟩ := Finset.mem_image.1 hx
      have sA := sig_div vA (lA n)
      have sB := sig_div vB (lB n)
      have sC := sig_div vC (lC n)
      exact Finset.mem_product.2 ⟨Finset.mem_Ico.2 ⟨sA.2.1 (after_significant vA ha _), sA.1⟩, Finset.mem_product.2
        ⟨Finset.mem_Ico.2 ⟨sB.2.1 (after_significant vB hb _), sB.1⟩, Finset.mem_Ico.2 ⟨sC.2.1 (after_significant vC hc _), sC.1⟩⟩⟩
    · rw [Finset.card_image_of_injOn hinj, hp, hq, hr]
      simp [mul_assoc]
  rw [← himg, Finset.sum_image hinj]

/-- Every combination of significant bits occurs once. -/
theorem cycle_unique {x y z : Nat} (hx : x < 2 ^ L.w) (hy : y < 2 ^ M.w) (hz : z < 2 ^ K.w) (tx : Significant L.w L.k x) (ty : Significant M.w M.k y)
    (tz : Significant K.w K.k z) :
    ∃! n, n < p * q * r ∧ (∀ i, i < L.k → topBit L.w (after L a (n + 1)) i = topBit L.w x i) ∧ (∀ i, i < M.k → topBit M.w (after M b (n + 1)) i = topBit M.w y i) ∧
      ∀ i, i < K.k → topBit K.w (after K c (n + 1)) i = topBit K.w z i := by
  have lA : ∀ n, after L a (n + 1) < 2 ^ L.w := fun n => wA ▸ after_lt vA a n
  have lB : ∀ n, after M b (n + 1) < 2 ^ M.w := fun n => wB ▸ after_lt vB b n
  have lC : ∀ n, after K c (n + 1) < 2 ^ K.w := fun n => wC ▸ after_lt vC c n
  obtain ⟨x1, x2⟩ := sig_div vA hx
  obtain ⟨y1, y2⟩ := sig_div vB hy
  obtain ⟨z1, z2⟩ := sig_div vC hz
  have ht : (x / 2 ^ (L.w - L.k), y / 2 ^ (M.w - M.k), z / 2 ^ (K.w - K.k)) ∈ Finset.Ico 1 (2 ^ L.k) ×ˢ (Finset.Ico 1 (2 ^ M.k) ×ˢ Finset.Ico 1 (2 ^ K.k)) :=
    Finset.mem_product.2 ⟨Finset.mem_Ico.2 ⟨x2.1 tx, x1⟩, Finset.mem_product.2 ⟨Finset.mem_Ico.2 ⟨y2.1 ty, y1⟩, Finset.mem_Ico.2 ⟨z2.1 tz, z1⟩⟩⟩
  have h := count_triples vA vB vC wA wB wC oA oB oC sA sB sC hp hq hr pq pr qr ha hb hc
    fun t => if t = (x / 2 ^ (L.w - L.k), y / 2 ^ (M.w - M.k), z / 2 ^ (K.w - K.k)) then 1 else 0
  simp only [← div_eq_iff_top vA.2.2.1 (lA _) hx, ← div_eq_iff_top vB.2.2.1 (lB _) hy, ← div_eq_iff_top vC.2.2.1 (lC _) hz]
  rw [Finset.sum_ite_eq', if_pos ht, ← Finset.card_filter, Finset.card_eq_one] at h
  obtain ⟨n, hn⟩ := h
  have hmem := fun m => Finset.ext_iff.1 hn m
  simp only [Finset.mem_filter, Finset.mem_range, Finset.mem_singleton, Prod.mk.injEq] at hmem
  exact ⟨n, (hmem n).2 rfl, fun m hm => (hmem m).1 hm⟩

/-- The number of times a value is returned in a period. -/
theorem count_value (xA : L.w + L.s + L.q ≤ 2 * L.k) (xB : M.w + M.s + M.q ≤ 2 * M.k) (xC : K.w + K.s + K.q ≤ 2 * K.k) (y : Nat) :
    ((Finset.range (p * q * r)).filter fun n => after L a (n + 1) ^^^ after M b (n + 1) ^^^ after K c (n + 1) = y).card =
    triples (word L.w L.k L.q) (word M.w M.k M.q) (word K.w K.k K.q) (2 ^ L.k) (2 ^ M.k) (2 ^ K.k) y := by
  have h := count_triples vA vB vC wA wB wC oA oB oC sA sB sC hp hq hr pq pr qr ha hb hc
    fun p => if word L.w L.k L.q p.1 ^^^ word M.w M.k M.q p.2.1 ^^^ word K.w K.k K.q p.2.2 = y then 1 else 0
  rw [Finset.sum_product] at h
  simp only [Finset.sum_product] at h
  rw [triples, ← h, Finset.card_filter]
  refine Finset.sum_congr rfl fun n _ => if_congr ?_ rfl rfl
  rw [← after_word vA wA xA a n, ← after_word vB wB xB b n, ← after_word vC wC xC c n]

end

end Boost.Random.Tausworthe
