import Verif.Proofs.FaureDigits
import Mathlib.RingTheory.Coprime.Lemmas

/-!
# Faure engine: the points form nets
-/

namespace Boost.Random
namespace Faure
open Qrng Spec Polynomial

/-! ## More digits than needed -/

theorem faureDigit_ext {b h H n : Nat} (hb : 2 ≤ b) (hn : n < b ^ h) (hH : h ≤ H) (d i : Nat) : faureDigit b H n d i = faureDigit b h n d i := by
  unfold faureDigit
  congr 1
  obtain ⟨t, rfl⟩ := Nat.exists_eq_add_of_le hH
  rw [Finset.sum_range_add]
  have : ∑ x ∈ Finset.range t, (h + x).choose i * d ^ (h + x - i) * (n / b ^ (h + x) % b) = 0 := by
    apply Finset.sum_eq_zero
    intro x _
    have h1 : n < b ^ (h + x) := lt_of_lt_of_le hn (Nat.pow_le_pow_right (by omega) (by omega))
    rw [Nat.div_eq_of_lt h1]
    simp
  rw [this, Nat.add_zero]

theorem faureDigit_high {b h n d i : Nat} (hi : h ≤ i) : faureDigit b h n d i = 0 := by
  unfold faureDigit
  rw [Finset.sum_eq_zero, Nat.zero_mod]
  intro j hj
  rw [Finset.mem_range] at hj
  rw [Nat.choose_eq_zero_of_lt (by omega)]
  simp

theorem faureDigit_lt {b : Nat} (hb : 2 ≤ b) (h n d i : Nat) : faureDigit b h n d i < b := Nat.mod_lt _ (by omega)

theorem faureValue_ext {b H n : Nat} (hb : 2 ≤ b) (hn : n < b ^ H) (d : Nat) :
    faureValue b n d = ∑ i ∈ Finset.range H, (faureDigit b H n d i : ℚ) / (b : ℚ) ^ (i + 1) := by
  have hl : n < b ^ (Nat.log b n + 1) := Nat.lt_pow_succ_log_self (by omega) n
  by_cases hH : Nat.log b n + 1 ≤ H
  · unfold faureValue
    obtain ⟨t, ht⟩ := Nat.exists_eq_add_of_le hH
    have h1 : ∀ i, faureDigit b H n d i = faureDigit b (Nat.log b n + 1) n d i := faureDigit_ext hb hl hH d
    simp only [h1]
    rw [ht, Finset.sum_range_add _ (Nat.log b n + 1) t]
    have : ∑ x ∈ Finset.range t, (faureDigit b (Nat.log b n + 1) n d (Nat.log b n + 1 + x) : ℚ) / (b : ℚ) ^ (Nat.log b n + 1 + x + 1) = 0 := by
      apply Finset.sum_eq_zero
      intro x _
      rw [faureDigit_high (by omega)]
      simp
    rw [this, add_zero]
  · have h0 : n = 0 := by
      by_contra hne
      have := Nat.pow_log_le_self b hne
      have h2 : b ^ H ≤ b ^ Nat.log b n := Nat.pow_le_pow_right (by omega) (by omega)
      omega
    subst h0
    have hz : ∀ h i, faureDigit b h 0 d i = 0 := by
      intro h i
      unfold faureDigit
      simp
    unfold faureValue
    simp [hz]

/-! ## The first digits -/

/-- The number written with the first `k` digits. -/
def lead (b : Nat) (Z : Nat → Nat) : Nat → Nat
  | 0 => 0
  | k + 1 => lead b Z k * b + Z k

theorem lead_lt {b : Nat} {Z : Nat → Nat} (hZ : ∀ i, Z i < b) (k : Nat) : lead b Z k < b ^ k := by
  induction k with
  | zero => simp [lead]
  | succ k ih =>
    rw [lead, Nat.pow_succ]
    have := hZ k
    calc lead b Z k * b + Z k < lead b Z k * b + b := by omega
      _ = (lead b Z k + 1) * b := by ring
      _ ≤ b ^ k * b := Nat.mul_le_mul_right _ ih

theorem lead_inj {b : Nat} {Y Z : Nat → Nat} (hY : ∀ i, Y i < b) (hZ : ∀ i, Z i < b) {k : Nat} (h : lead b Y k = lead b Z k) : ∀ i < k, Y i = Z i := by
  induction k with
  | zero => intro i hi; omega
  | succ k ih =>
    rw [lead, lead] at h
    have h1 : Y k = Z k := by
      have := congrArg (· % b) h
      simp only [Nat.mul_add_mod', Nat.mod_eq_of_lt (hY k), Nat.mod_eq_of_lt (hZ k)] at this
      exact this
    have h2 : lead b Y k = lead b Z k := by
      rw [h1] at h
      exact Nat.eq_of_mul_eq_mul_right (lt_of_le_of_lt (Nat.zero_le _) (hY 0)) (Nat.add_right_cancel h)
    intro i hi
    by_cases hik : i = k
    · rw [hik, h1]
    · exact ih h2 i (by omega)

theorem lead_sum {b : Nat} (hb : 2 ≤ b) (Z : Nat → Nat) (k : Nat) : (∑ i ∈ Finset.range k, (Z i : ℚ) / (b : ℚ) ^ (i + 1)) * (b : ℚ) ^ k = lead b Z k := by
  have hb0 : (b : ℚ) ≠ 0 := by exact_mod_cast (by omega : b ≠ 0)
  induction k with
  | zero => simp [lead]
  | succ k ih =>
    rw [Finset.sum_range_succ, add_mul, pow_succ, ← mul_assoc, ih, lead, ← pow_succ, div_mul_cancel₀ _ (pow_ne_zero _ hb0)]
    push_cast
    ring

theorem sum_bounds {b : Nat} (hb : 2 ≤ b) {Z : Nat → Nat} (hZ : ∀ i, Z i < b) (k t : Nat) :
    ∑ i ∈ Finset.range k, (Z i : ℚ) / (b : ℚ) ^ (i + 1) ≤ ∑ i ∈ Finset.range (k + t), (Z i : ℚ) / (b : ℚ) ^ (i + 1) ∧
    ∑ i ∈ Finset.range (k + t), (Z i : ℚ) / (b : ℚ) ^ (i + 1) ≤ ∑ i ∈ Finset.range k, (Z i : ℚ) / (b : ℚ) ^ (i + 1) + 1 / (b : ℚ) ^ k - 1 / (b : ℚ) ^ (k + t) := by
  have hb0 : (0 : ℚ) < b := by exact_mod_cast (by omega : 0 < b)
  induction t with
  | zero => simp
  | succ t ih =>
    rw [← Nat.add_assoc, Finset.sum_range_succ]
    have h1 : (0 : ℚ) ≤ (Z (k + t) : ℚ) / (b : ℚ) ^ (k + t + 1) := by positivity
    have h2 : (Z (k + t) : ℚ) / (b : ℚ) ^ (k + t + 1) ≤ 1 / (b : ℚ) ^ (k + t) - 1 / (b : ℚ) ^ (k + t + 1) := by
      have h3 : (Z (k + t) : ℚ) ≤ (b : ℚ) - 1 := by
        have := hZ (k + t)
        have h4 : ((Z (k + t) + 1 : Nat) : ℚ) ≤ (b : ℚ) := by exact_mod_cast this
        push_cast at h4
        linarith
      have h5 : 1 / (b : ℚ) ^ (k + t) = (b : ℚ) / (b : ℚ) ^ (k + t + 1) := by
        rw [pow_succ]
        field_simp
      rw [h5, ← sub_div]
      exact div_le_div_of_nonneg_right h3 (by positivity)
    exact ⟨by linarith [ih.1], by linarith [ih.2]⟩

theorem floor_value {b H n : Nat} (hb : 2 ≤ b) (hn : n < b ^ H) (d : Nat) {k : Nat} (hk : k ≤ H) :
    ⌊faureValue b n d * (b : ℚ) ^ k⌋ = (lead b (faureDigit b H n d) k : ℤ) := by
  have hb0 : (0 : ℚ) < b := by exact_mod_cast (by omega : 0 < b)
  obtain ⟨t, rfl⟩ := Nat.exists_eq_add_of_le hk
  rw [faureValue_ext hb hn, Int.floor_eq_iff]
  obtain ⟨h1, h2⟩ := sum_bounds hb (faureDigit_lt hb (k + t) n d) k t
  have h3 := lead_sum hb (faureDigit b (k + t) n d) k
  have hp : (0 : ℚ) < (b : ℚ) ^ k := by positivity
  constructor
  · rw [Int.cast_natCast, ← h3]
    exact mul_le_mul_of_nonneg_right h1 hp.le
  · rw [Int.cast_natCast, ← h3]
    have h4 : (0 : ℚ) < 1 / (b : ℚ) ^ (k + t) := by positivity
    have h5 : 1 / (b : ℚ) ^ k * (b : ℚ) ^ k = 1 := by rw [one_div, inv_mul_cancel₀ hp.ne']
    calc (∑ i ∈ Finset.range (k + t), (faureDigit b (k + t) n d i : ℚ) / (b : ℚ) ^ (i + 1)) * (b : ℚ) ^ k
        < (∑ i ∈ Finset.range k, (faureDigit b (k + t) n d i : ℚ) / (b : ℚ) ^ (i + 1) + 1 / (b : ℚ) ^ k) * (b : ℚ) ^ k :=
          mul_lt_mul_of_pos_right (by linarith) hp
      _ = _ := by rw [add_mul, h5]

/-- Every coordinate is in `[0,1)`. -/
theorem faureValue_bounds {b : Nat} (hb : 2 ≤ b) (n d : Nat) : 0 ≤ faureValue b n d ∧ faureValue b n d < 1 := by
  have h := floor_value hb (lt_pow_len (n := n) hb) d (k := 0) (by omega)
  rw [pow_zero, mul_one, Int.floor_eq_iff] at h
  simp only [lead, Nat.cast_zero, Int.cast_zero, zero_add] at h
  exact h

/-! ## The number from its digits -/

theorem digits_inj {b : Nat} (H : Nat) : ∀ {m n : Nat}, m < b ^ H → n < b ^ H → (∀ j < H, m / b ^ j % b = n / b ^ j % b) → m = n := by
  induction H with
  | zero => intro m n hm hn _; simp at hm hn; omega
  | succ H ih =>
    intro m n hm hn h
    have h0 := h 0 (by omega)
    simp only [Nat.pow_zero, Nat.div_one] at h0
    have h1 : m / b = n / b := by
      apply ih
      · rw [Nat.pow_succ, Nat.mul_comm] at hm; exact Nat.div_lt_of_lt_mul hm
      · rw [Nat.pow_succ, Nat.mul_comm] at hn; exact Nat.div_lt_of_lt_mul hn
      · intro j hj
        have := h (j + 1) (by omega)
        rw [Nat.pow_succ, Nat.mul_comm, ← Nat.div_div_eq_div_mul, ← Nat.div_div_eq_div_mul] at this
        exact this
    rw [← Nat.div_add_mod m b, ← Nat.div_add_mod n b, h0, h1]

/-! ## The net -/

theorem taylor_digit {b h n d i : Nat} : (taylor (d : ZMod b) (pol b h fun j => n / b ^ j % b)).coeff i = (faureDigit b h n d i : ZMod b) := by
  rw [taylor_pol]
  unfold faureDigit
  rw [ZMod.natCast_mod]
  push_cast
  rfl

/-- A polynomial of degree below the number of zeros, counted with multiplicity, is zero. -/
theorem eq_zero_of_taylor {b : Nat} [Fact b.Prime] {dim : Nat} (hdim : dim ≤ b) {k : Nat → Nat} {M : Nat} (hk : ∑ d ∈ Finset.range dim, k d = M) {D : (ZMod b)[X]}
    (hdeg : D.degree < M) (hz : ∀ d < dim, ∀ i < k d, (taylor (d : ZMod b) D).coeff i = 0) : D = 0 := by
  have hdvd : ∀ d < dim, (X - C (d : ZMod b)) ^ k d ∣ D := by
    intro d hd
    rw [X_sub_C_pow_dvd_iff]
    rw [X_pow_dvd_iff]
    intro i hi
    have := hz d hd i hi
    rwa [taylor_apply] at this
  have hprod : (∏ d ∈ Finset.range dim, (X - C (d : ZMod b)) ^ k d) ∣ D := by
    apply Finset.prod_dvd_of_coprime
    · intro d hd d' hd' hne
      apply IsCoprime.pow
      have h1 := Finset.mem_range.1 (Finset.mem_coe.1 hd)
      have h2 := Finset.mem_range.1 (Finset.mem_coe.1 hd')
      apply isCoprime_X_sub_C_of_isUnit_sub
      rw [isUnit_iff_ne_zero, sub_ne_zero]
      intro he
      apply hne
      rw [ZMod.natCast_eq_natCast_iff', Nat.mod_eq_of_lt (by omega), Nat.mod_eq_of_lt (by omega)] at he
      exact he
    · intro d hd
      exact hdvd d (Finset.mem_range.1 hd)
  have hmonic : (∏ d ∈ Finset.range dim, (X - C (d : ZMod b)) ^ k d).Monic := monic_prod_of_monic _ _ fun d _ => (monic_X_sub_C _).pow _
  have hnat : (∏ d ∈ Finset.range dim, (X - C (d : ZMod b)) ^ k d).natDegree = M := by
    rw [natDegree_prod_of_monic _ _ fun d _ => (monic_X_sub_C _).pow _, ← hk]
    apply Finset.sum_congr rfl
    intro d _
    rw [(monic_X_sub_C _).natDegree_pow, natDegree_X_sub_C, mul_one]
  by_contra hne
  have h1 := degree_le_of_dvd hprod hne
  rw [degree_eq_natDegree hmonic.ne_zero, hnat] at h1
  exact absurd hdeg (not_lt.2 h1)

theorem net_inj {b : Nat} (hb : b.Prime) {dim : Nat} (hdim : dim ≤ b) {k : Nat → Nat} {M : Nat} (hk : ∑ d ∈ Finset.range dim, k d = M) (c : Nat) {H n n' : Nat}
    (hM : M ≤ H) (hn : n < b ^ M) (hn' : n' < b ^ M) (hN : c * b ^ M + n < b ^ H) (hN' : c * b ^ M + n' < b ^ H)
    (h : ∀ d < dim, lead b (faureDigit b H (c * b ^ M + n) d) (k d) = lead b (faureDigit b H (c * b ^ M + n') d) (k d)) : n = n' := by
  have : Fact b.Prime := ⟨hb⟩
  have hb2 := hb.two_le
  have hpos : 0 < b ^ M := Nat.pow_pos (by omega)
  have hD : pol b H (fun j => (c * b ^ M + n) / b ^ j % b) - pol b H (fun j => (c * b ^ M + n') / b ^ j % b) = 0 := by
    apply eq_zero_of_taylor hdim hk
    · rw [degree_lt_iff_coeff_zero]
      intro j hj
      rw [coeff_sub, pol_coeff, pol_coeff]
      by_cases hjH : j < H
      · obtain ⟨t, rfl⟩ := Nat.exists_eq_add_of_le hj
        rw [if_pos hjH, if_pos hjH, Nat.pow_add, ← Nat.div_div_eq_div_mul, ← Nat.div_div_eq_div_mul, Nat.mul_comm c, Nat.mul_add_div hpos, Nat.mul_add_div hpos,
          Nat.div_eq_of_lt hn, Nat.div_eq_of_lt hn', sub_self]
      · rw [if_neg hjH, if_neg hjH, sub_self]
    · intro d hd i hi
      rw [map_sub, coeff_sub, taylor_digit, taylor_digit,
        lead_inj (faureDigit_lt hb2 H (c * b ^ M + n) d) (faureDigit_lt hb2 H (c * b ^ M + n') d) (h d hd) i hi, sub_self]
  have heq : c * b ^ M + n = c * b ^ M + n' := by
    apply digits_inj H hN hN'
    intro j hj
    have h1 := congrArg (fun p => Polynomial.coeff p j) hD
    simp only [coeff_sub, pol_coeff, if_pos hj, coeff_zero] at h1
    rw [sub_eq_zero, ZMod.natCast_eq_natCast_iff', Nat.mod_mod, Nat.mod_mod] at h1
    exact h1
  omega

theorem net {b : Nat} (hb : b.Prime) {dim : Nat} (hdim : dim ≤ b) {k : Nat → Nat} {M : Nat} (hk : ∑ d ∈ Finset.range dim, k d = M) (c : Nat) {a : Nat → Nat}
    (ha : ∀ d < dim, a d < b ^ k d) :
    ((Finset.range (b ^ M)).filter fun n => ∀ d < dim, ⌊faureValue b (c * b ^ M + n) d * (b : ℚ) ^ k d⌋ = (a d : ℤ)).card = 1 := by
  have hb2 := hb.two_le
  obtain ⟨H, hM, hH⟩ : ∃ H, M ≤ H ∧ (c + 1) * b ^ M ≤ b ^ H := by
    refine ⟨c + 1 + M, by omega, ?_⟩
    rw [Nat.pow_add]
    exact Nat.mul_le_mul_right _ (le_of_lt (Nat.lt_pow_self (by omega)))
  have hlt : ∀ n < b ^ M, c * b ^ M + n < b ^ H := by
    intro n hn
    rw [Nat.add_mul] at hH
    omega
  have hkH : ∀ d < dim, k d ≤ H := by
    intro d hd
    have := Finset.single_le_sum (f := k) (fun _ _ => Nat.zero_le _) (Finset.mem_range.2 hd)
    omega
  let F : Fin (b ^ M) → ((d : Fin dim) → Fin (b ^ k d)) := fun n d => ⟨lead b (faureDigit b H (c * b ^ M + n) d) (k d), lead_lt (faureDigit_lt hb2 _ _ _) _⟩
  have hF : Function.Bijective F := by
    rw [Fintype.bijective_iff_injective_and_card]
    constructor
    · intro n n' h
      apply Fin.ext
      refine net_inj hb hdim hk c hM n.2 n'.2 (hlt n n.2) (hlt n' n'.2) fun d hd => ?_
      have := congrFun h ⟨d, hd⟩
      exact congrArg Fin.val this
    · rw [Fintype.card_fin, Fintype.card_pi]
      simp only [Fintype.card_fin]
      rw [Finset.prod_pow_eq_pow_sum, ← hk, Finset.sum_range]
  obtain ⟨n, hn⟩ := hF.2 fun d => ⟨a d, ha d d.2⟩
  rw [Finset.card_eq_one]
  refine ⟨n, ?_⟩
  ext m
  rw [Finset.mem_filter, Finset.mem_range, Finset.mem_singleton]
  constructor
  · rintro ⟨hm, h⟩
    have : F ⟨m, hm⟩ = F n := by
      rw [hn]
      funext d
      apply Fin.ext
      have h1 := h d d.2
      rw [floor_value hb2 (hlt m hm) d (hkH d d.2)] at h1
      exact Int.ofNat_inj.1 h1
    exact congrArg Fin.val (hF.1 this)
  · rintro rfl
    refine ⟨n.2, fun d hd => ?_⟩
    rw [floor_value hb2 (hlt n n.2) d (hkH d hd)]
    have := congrArg Fin.val (congrFun hn ⟨d, hd⟩)
    exact congrArg Int.ofNat this

end Faure
end Boost.Random
