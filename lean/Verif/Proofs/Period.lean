import Verif.Proofs.Lcg
import Verif.Proofs.PrimRoot
import Mathlib.NumberTheory.LucasPrimality
import Mathlib.Data.Finset.Card
import Mathlib.FieldTheory.Finite.Basic
import Mathlib.Tactic.NormNum.Prime

namespace Boost.Random
open Spec

/-- Pigeonhole: an injective sequence of length `N` into a set of `N` elements hits each exactly
once. -/
theorem existsUnique_of_injOn (N : Nat) (S : Finset Nat) (f : Nat → Nat)
    (hmaps : ∀ n < N, f n ∈ S) (hinj : ∀ n < N, ∀ m < N, f n = f m → n = m) (hcard : S.card = N)
    (v : Nat) (hv : v ∈ S) : ∃! n, n < N ∧ f n = v := by
  have himg : (Finset.range N).image f = S := by
    apply Finset.eq_of_subset_of_card_le
    · intro y hy
      obtain ⟨n, hn, rfl⟩ := Finset.mem_image.1 hy
      exact hmaps n (Finset.mem_range.1 hn)
    · rw [Finset.card_image_of_injOn, Finset.card_range, hcard]
      intro n hn m hm h
      exact hinj n (by simpa using hn) m (by simpa using hm) h
  rw [← himg] at hv
  obtain ⟨n, hn, rfl⟩ := Finset.mem_image.1 hv
  exact ⟨n, ⟨Finset.mem_range.1 hn, rfl⟩, fun m hm => hinj m hm.1 n (Finset.mem_range.1 hn) hm.2⟩

theorem gs_odd (a : ℤ) (ha : a % 2 = 1) (d : Nat) : gs a d % 2 = (d : ℤ) % 2 := by
  induction d with
  | zero => simp [gs]
  | succ d ih =>
    simp only [gs]
    push_cast
    rw [Int.add_emod, Int.mul_emod, ha, ih]
    omega

theorem two_pow_dvd_gs (k : Nat) : ∀ (a : ℤ) (d : Nat), a % 4 = 1 → (2 : ℤ) ^ k ∣ gs a d →
    2 ^ k ∣ d := by
  induction k with
  | zero => intro a d _ _; simp
  | succ k ih =>
    intro a d ha hd
    have heven : gs a d % 2 = 0 := by
      have : (2 : ℤ) ∣ gs a d := Dvd.dvd.trans (dvd_pow_self 2 (by omega)) hd
      omega
    rw [gs_odd a (by omega)] at heven
    obtain ⟨e, rfl⟩ : ∃ e, d = 2 * e := ⟨d / 2, by omega⟩
    rw [gs_two_mul] at hd
    obtain ⟨w, hw⟩ : ∃ w, 1 + a = 2 * (2 * w + 1) := ⟨a / 4, by omega⟩
    have h1 : (2 : ℤ) ^ k ∣ (2 * w + 1) * gs (a * a) e := by
      rw [hw, pow_succ, mul_comm ((2 : ℤ) ^ k) 2, mul_assoc] at hd
      exact Int.dvd_of_mul_dvd_mul_left (by norm_num) hd
    have hcop : IsCoprime ((2 : ℤ) ^ k) (2 * w + 1) := by
      apply IsCoprime.pow_left
      exact ⟨-w, 1, by ring⟩
    have h2 := hcop.dvd_of_dvd_mul_left h1
    have h3 := ih (a * a) e (by rw [Int.mul_emod, ha]; rfl) h2
    rw [pow_succ, mul_comm]
    exact Nat.mul_dvd_mul_left 2 h3

theorem gs_cast_zmod (M : Nat) (a : ℤ) (d : Nat) : ((gs a d : ℤ) : ZMod M) = gs (a : ZMod M) d := by
  induction d with
  | zero => simp [gs]
  | succ d ih => simp only [gs]; push_cast; rw [ih]

/-- Hull-Dobell for a power of two: `a ≡ 1 (mod 4)` and odd `c` give a full period. -/
theorem lcg_full_period_two_pow (k a c : Nat) (hk : 1 ≤ k) (ha : a % 4 = 1) (hc : c % 2 = 1)
    (x v : Nat) (hx : x < 2 ^ k) (hv : v < 2 ^ k) :
    ∃! n, n < 2 ^ k ∧ (lcgStep a c (2 ^ k))^[n] x = v := by
  have hMpos : 0 < 2 ^ k := by positivity
  have hret : ∀ d y : Nat, y < 2 ^ k → (lcgStep a c (2 ^ k))^[d] y = y → 2 ^ k ∣ d := by
    intro d y hy h
    have hz := lcg_iterate_zmod a c (2 ^ k) d y
    rw [h] at hz
    have hg := gs_mul (a : ZMod (2 ^ k)) d
    have h0 : gs (a : ZMod (2 ^ k)) d * (((a : ZMod (2 ^ k)) - 1) * y + c) = 0 := by
      linear_combination (-1 : ZMod (2 ^ k)) * hz + (y : ZMod (2 ^ k)) * hg
    have hgi : ((gs (a : ℤ) d * (((a : ℤ) - 1) * y + c) : ℤ) : ZMod (2 ^ k)) = 0 := by
      push_cast
      rw [gs_cast_zmod]
      exact_mod_cast h0
    rw [ZMod.intCast_zmod_eq_zero_iff_dvd] at hgi
    push_cast at hgi
    have hodd : ∃ w : ℤ, ((a : ℤ) - 1) * y + c = 2 * w + 1 := by
      obtain ⟨q, hq⟩ : ∃ q : ℤ, (a : ℤ) - 1 = 2 * q := ⟨(a - 1) / 2, by omega⟩
      refine ⟨q * y + c / 2, ?_⟩
      rw [hq]
      have : (c : ℤ) = 2 * (c / 2) + 1 := by omega
      linear_combination this
    obtain ⟨w, hw⟩ := hodd
    rw [hw, mul_comm] at hgi
    have hcop : IsCoprime ((2 : ℤ) ^ k) (2 * w + 1) := by
      apply IsCoprime.pow_left
      exact ⟨-w, 1, by ring⟩
    exact two_pow_dvd_gs k a d (by omega) (hcop.dvd_of_dvd_mul_left hgi)
  apply existsUnique_of_injOn (2 ^ k) (Finset.range (2 ^ k)) (fun n => (lcgStep a c (2 ^ k))^[n] x)
  · intro n _; exact Finset.mem_range.2 (lcg_iterate_lt _ _ _ hMpos n x hx)
  · have main : ∀ n m : Nat, n ≤ m → m < 2 ^ k →
        (lcgStep a c (2 ^ k))^[n] x = (lcgStep a c (2 ^ k))^[m] x → n = m := by
      intro n m hnm hm h
      obtain ⟨d, rfl⟩ := Nat.exists_eq_add_of_le hnm
      rw [Nat.add_comm n d, Function.iterate_add_apply] at h
      have := hret d _ (lcg_iterate_lt _ _ _ hMpos n x hx) h.symm
      rcases Nat.eq_zero_or_pos d with h0 | hpos
      · omega
      · have := Nat.le_of_dvd hpos this; omega
    intro n hn m hm h
    rcases Nat.le_total n m with hle | hle
    · exact main n m hle hm h
    · exact (main m n hle hn h.symm).symm
  · exact Finset.card_range _
  · exact Finset.mem_range.2 hv

/-- A multiplicative generator whose multiplier has order `p - 1` runs through all non-zero
residues. -/
theorem mlcg_full_period (p a : Nat) [hp : Fact p.Prime] (horder : orderOf (a : ZMod p) = p - 1)
    (x v : Nat) (hx0 : 0 < x) (hx : x < p) (hv0 : 0 < v) (hv : v < p) :
    ∃! n, n < p - 1 ∧ (lcgStep a 0 p)^[n] x = v := by
  have hp2 := hp.out.two_le
  have hform : ∀ n : Nat, (((lcgStep a 0 p)^[n] x : ℕ) : ZMod p) = (a : ZMod p) ^ n * x := by
    intro n; rw [lcg_iterate_zmod]; simp
  have hxne : (x : ZMod p) ≠ 0 := by
    intro h
    have := Nat.le_of_dvd hx0 ((ZMod.natCast_eq_zero_iff x p).1 h)
    omega
  have hane : (a : ZMod p) ≠ 0 := by
    intro h
    rw [h] at horder
    have : orderOf (0 : ZMod p) = 0 := by
      rw [orderOf_eq_zero_iff']
      intro n hn
      rw [zero_pow (by omega)]; exact zero_ne_one
    omega
  have hne : ∀ n, (lcgStep a 0 p)^[n] x ≠ 0 := by
    intro n h
    have := hform n
    rw [h] at this
    exact mul_ne_zero (pow_ne_zero n hane) hxne (by simpa using this.symm)
  apply existsUnique_of_injOn (p - 1) (Finset.Ico 1 p) (fun n => (lcgStep a 0 p)^[n] x)
  · intro n _
    have := hne n
    have := lcg_iterate_lt a 0 p (by omega) n x hx
    simp only [Finset.mem_Ico]; omega
  · intro n hn m hm h
    have h1 := hform n
    have h2 := hform m
    beta_reduce at h
    rw [h, h2] at h1
    have h3 : (a : ZMod p) ^ m = (a : ZMod p) ^ n := mul_right_cancel₀ hxne h1
    have := pow_inj_mod (x := Units.mk0 (a : ZMod p) hane) (n := m) (m := n)
    rw [← orderOf_units, Units.val_mk0, horder] at this
    have h4 := this.1 (by ext; simpa using h3)
    rw [Nat.mod_eq_of_lt hm, Nat.mod_eq_of_lt hn] at h4
    exact h4.symm
  · simp
  · simp only [Finset.mem_Ico]; omega

end Boost.Random
