import Verif.Proofs.Period
import Mathlib.NumberTheory.Multiplicity
import Mathlib.Data.Nat.Factorization.Basic

/-!
# Full period of mixed congruential generators (Hull and Dobell)
-/

namespace Boost.Random
open Spec

theorem gs_one (d : Nat) : gs (1 : ℤ) d = d := by
  induction d with
  | zero => simp [gs]
  | succ d ih => simp only [gs]; push_cast; rw [ih]; ring

theorem odd_prime_pow_dvd_gs (p k : Nat) (hp : p.Prime) (hodd : Odd p) (a : ℤ) (ha : (p : ℤ) ∣ a - 1) (d : Nat)
    (h : (p : ℤ) ^ k ∣ gs a d) : p ^ k ∣ d := by
  by_cases h1 : a = 1
  · rw [h1, gs_one] at h
    exact_mod_cast h
  have hpi : Prime (p : ℤ) := Nat.prime_iff_prime_int.1 hp
  have hna : ¬ (p : ℤ) ∣ a := by
    intro hd
    have h2 : (p : ℤ) ∣ 1 := by
      have := Int.dvd_sub hd ha
      simpa using this
    exact hpi.not_dvd_one h2
  have hl := Int.emultiplicity_pow_sub_pow (x := a) (y := 1) hp hodd ha hna d
  rw [one_pow, show a ^ d - 1 = gs a d * (a - 1) by rw [← gs_mul a d]; ring, emultiplicity_mul hpi,
    add_comm (emultiplicity (p : ℤ) (a - 1))] at hl
  have hfin : emultiplicity (p : ℤ) (a - 1) ≠ ⊤ := by
    rw [← finiteMultiplicity_iff_emultiplicity_ne_top]
    exact Int.finiteMultiplicity_iff.2 ⟨by simpa using hp.ne_one, by omega⟩
  have hc := ENat.add_left_injective_of_ne_top hfin hl
  rw [pow_dvd_iff_le_emultiplicity] at h ⊢
  rwa [hc] at h

theorem dvd_of_dvd_gs (a c M : Nat) (h : HullDobell a c M) (d : Nat) (hg : (M : ℤ) ∣ gs (a : ℤ) d) :
    M ∣ d := by
  rw [Nat.dvd_iff_prime_pow_dvd_dvd]
  intro p k hp hpk
  have hpk' : (p : ℤ) ^ k ∣ gs (a : ℤ) d := dvd_trans (by exact_mod_cast hpk) hg
  rcases Nat.eq_zero_or_pos k with rfl | hk
  · simp
  have hpM : p ∣ M := dvd_trans (dvd_pow_self p (by omega)) hpk
  rcases hp.eq_two_or_odd' with rfl | hodd
  · rcases Nat.lt_or_ge 1 k with hk2 | hk1
    · have h4 : (4 : ℤ) ∣ (a : ℤ) - 1 := h.four (dvd_trans (by
        rw [show 4 = 2 ^ 2 from rfl]; exact pow_dvd_pow 2 hk2) hpk)
      exact two_pow_dvd_gs k a d (by omega) (by exact_mod_cast hpk')
    · obtain rfl : k = 1 := by omega
      have h2 : (2 : ℤ) ∣ (a : ℤ) - 1 := h.primes 2 Nat.prime_two hpM
      have := gs_odd a (by omega) d
      rw [pow_one] at *
      have hg2 : (2 : ℤ) ∣ gs (a : ℤ) d := by exact_mod_cast hpk'
      omega
  · exact odd_prime_pow_dvd_gs p k hp hodd a (h.primes p hp hpM) d hpk'

theorem lcg_return (a c M : Nat) (hM : M ≠ 0) (h : HullDobell a c M) (d y : Nat)
    (hr : (lcgStep a c M)^[d] y = y) : M ∣ d := by
  have hz := lcg_iterate_zmod a c M d y
  rw [hr] at hz
  have hg := gs_mul (a : ZMod M) d
  have h0 : gs (a : ZMod M) d * (((a : ZMod M) - 1) * y + c) = 0 := by
    linear_combination (-1 : ZMod M) * hz + (y : ZMod M) * hg
  have hgi : ((gs (a : ℤ) d * (((a : ℤ) - 1) * y + c) : ℤ) : ZMod M) = 0 := by
    push_cast
    rw [gs_cast_zmod]
    exact_mod_cast h0
  rw [ZMod.intCast_zmod_eq_zero_iff_dvd] at hgi
  have hcop : IsCoprime (M : ℤ) (((a : ℤ) - 1) * y + c) := by
    rw [Int.isCoprime_iff_gcd_eq_one]
    by_contra hne
    obtain ⟨p, hp, hpd⟩ := Nat.exists_prime_and_dvd hne
    have h1 : (p : ℤ) ∣ M := dvd_trans (by exact_mod_cast hpd) (Int.gcd_dvd_left _ _)
    have h2 : (p : ℤ) ∣ ((a : ℤ) - 1) * y + c := dvd_trans (by exact_mod_cast hpd) (Int.gcd_dvd_right _ _)
    have h1' : p ∣ M := by exact_mod_cast h1
    have h3 := h.primes p hp h1'
    have h4 : (p : ℤ) ∣ c := (Int.dvd_add_right (Dvd.dvd.mul_right h3 y)).1 h2
    have h4' : p ∣ c := by exact_mod_cast h4
    exact hp.one_lt.ne' (Nat.eq_one_of_dvd_coprimes h.cop h4' h1')
  rw [mul_comm] at hgi
  exact dvd_of_dvd_gs a c M h d (hcop.dvd_of_dvd_mul_left hgi)

/-- Hull and Dobell: under these conditions every residue is reached exactly once in `M` steps. -/
theorem lcg_full_period (a c M : Nat) (hM : M ≠ 0) (h : HullDobell a c M) (x v : Nat) (hx : x < M) (hv : v < M) :
    ∃! n, n < M ∧ (lcgStep a c M)^[n] x = v := by
  have hMpos : 0 < M := Nat.pos_of_ne_zero hM
  apply existsUnique_of_injOn M (Finset.range M) (fun n => (lcgStep a c M)^[n] x)
  · intro n _; exact Finset.mem_range.2 (lcg_iterate_lt _ _ _ hMpos n x hx)
  · have main : ∀ n m : Nat, n ≤ m → m < M →
        (lcgStep a c M)^[n] x = (lcgStep a c M)^[m] x → n = m := by
      intro n m hnm hm h'
      obtain ⟨d, rfl⟩ := Nat.exists_eq_add_of_le hnm
      rw [Nat.add_comm n d, Function.iterate_add_apply] at h'
      have := lcg_return a c M hM h d _ h'.symm
      rcases Nat.eq_zero_or_pos d with h0 | hpos
      · omega
      · have := Nat.le_of_dvd hpos this; omega
    intro n hn m hm h
    rcases Nat.le_total n m with hle | hle
    · exact main n m hle hm h
    · exact (main m n hle hn h.symm).symm
  · exact Finset.card_range _
  · exact Finset.mem_range.2 hv

/-- The multiplicative case: the state returns exactly after multiples of the order. -/
theorem mlcg_return (p a : Nat) [hp : Fact p.Prime] (horder : orderOf (a : ZMod p) = p - 1)
    (x n : Nat) (hx0 : 0 < x) (hx : x < p) : (lcgStep a 0 p)^[n] x = x ↔ p - 1 ∣ n := by
  have hxne : (x : ZMod p) ≠ 0 := by
    rw [Ne, ZMod.natCast_eq_zero_iff]
    exact Nat.not_dvd_of_pos_of_lt hx0 hx
  rw [← horder, orderOf_dvd_iff_pow_eq_one]
  have hz := lcg_iterate_zmod a 0 p n x
  constructor
  · intro h
    rw [h] at hz
    have h2 : ((a : ZMod p) ^ n - 1) * x = 0 := by
      simp only [Nat.cast_zero, zero_mul, add_zero] at hz
      linear_combination -hz
    rcases mul_eq_zero.1 h2 with h3 | h3
    · exact sub_eq_zero.1 h3
    · exact absurd h3 hxne
  · intro h
    simp only [Nat.cast_zero, zero_mul, add_zero, h, one_mul] at hz
    exact eq_of_zmod (lcg_iterate_lt _ _ _ (by omega) n x hx) hx hz

end Boost.Random
