import Verif.Proofs.Tausworthe
import Mathlib.Algebra.Polynomial.Lifts
import Mathlib.RingTheory.PrincipalIdealDomain
import Mathlib.Algebra.Polynomial.FieldDivision
import Mathlib.Algebra.Field.ZMod
import Mathlib.RingTheory.Ideal.Quotient.Basic
import Mathlib.Tactic.LinearCombination

/-!
# From the order modulo 2 to the order modulo 2^w (Brent)
-/

namespace Boost.Random.Lag
open Spec Polynomial Mt Tausworthe

/-- Reduction modulo 2. -/
noncomputable abbrev red : ℤ[X] →+* (ZMod 2)[X] := mapRingHom (Int.castRingHom (ZMod 2))

theorem red_two : red 2 = 0 := by
  rw [show (2 : ℤ[X]) = C 2 by simp, coe_mapRingHom, map_C]
  rw [show (Int.castRingHom (ZMod 2)) 2 = 0 by decide, C_0]

theorem red_X : red X = X := by simp

theorem red_eq_zero {P : ℤ[X]} (h : red P = 0) : ∃ Q, P = 2 * Q := by
  have : C (2 : ℤ) ∣ P := by
    rw [C_dvd_iff_dvd_coeff]
    intro i
    have := congrArg (fun q => q.coeff i) h
    simp only [coe_mapRingHom, coeff_map, coeff_zero, eq_intCast] at this
    exact_mod_cast (ZMod.intCast_zmod_eq_zero_iff_dvd (P.coeff i) 2).1 this
  obtain ⟨Q, hQ⟩ := this
  exact ⟨Q, by rw [hQ]; simp⟩

theorem red_surj (P : (ZMod 2)[X]) : ∃ Q, red Q = P := map_surjective _ (ZMod.ringHom_surjective _) P

/-- A monic divisor of twice a polynomial divides the polynomial, if it does modulo 2. -/
theorem cancel_two {φ B : ℤ[X]} (h0 : red φ ≠ 0) (h : φ ∣ 2 * B) : φ ∣ B := by
  obtain ⟨A, hA⟩ := h
  have : red A = 0 := by
    have := congrArg red hA
    rw [map_mul, map_mul, red_two, zero_mul] at this
    exact (mul_eq_zero.1 this.symm).resolve_left h0
  obtain ⟨A', rfl⟩ := red_eq_zero this
  refine ⟨A', mul_left_cancel₀ (two_ne_zero) ?_⟩
  rw [hA]; ring

section
variable {Q : Type} [CommRing Q]

theorem frob4 (a b : Q) : ∀ m : Nat, ∃ c, (a + b) ^ 2 ^ (m + 1) = a ^ 2 ^ (m + 1) + b ^ 2 ^ (m + 1) + 2 * (a * b) ^ 2 ^ m + 4 * c
  | 0 => ⟨0, by ring⟩
  | m + 1 => by
    obtain ⟨c, hc⟩ := frob4 a b m
    rw [pow_succ 2 (m + 1), pow_mul, hc]
    rw [pow_mul a, pow_mul b, pow_succ 2 m, pow_mul a, pow_mul b, pow_mul (a * b), mul_pow a b (2 ^ m)]
    generalize a ^ 2 ^ m = A
    generalize b ^ 2 ^ m = B
    exact ⟨(A * B) ^ 2 + 2 * c * (A ^ 2 + B ^ 2) + 4 * c ^ 2 + (A * B) * (A ^ 2 + B ^ 2) + 4 * (A * B) * c, by ring⟩

theorem one_add_pow (u : Q) : ∀ n : Nat, ∃ c, (1 + 2 * u) ^ n = 1 + 2 * (n * u) + 4 * c
  | 0 => ⟨0, by simp⟩
  | n + 1 => by
    obtain ⟨c, hc⟩ := one_add_pow u n
    exact ⟨c + n * u ^ 2 + 2 * u * c, by rw [pow_succ, hc]; push_cast; ring⟩

/-- The key relation: what the order modulo 2 leaves modulo 4. -/
theorem relation {x u : Q} {p k N : Nat} (hp : 0 < p) (hN : N + 1 = 2 ^ p) (h1 : x ^ p = x ^ k + 1) (h2 : x ^ N = 1 + 2 * u) :
    ∃ c, 2 * (p * u * x ^ p - k * u * x ^ k - x ^ (k * 2 ^ (p - 1))) = 4 * c := by
  obtain ⟨m, rfl⟩ : ∃ m, p = m + 1 := ⟨p - 1, by omega⟩
  obtain ⟨c1, e1⟩ := frob4 (x ^ k) 1 m
  have hx : x ^ 2 ^ (m + 1) = x * (1 + 2 * u) := by rw [← hN, pow_succ, h2, mul_comm]
  obtain ⟨c2, e2⟩ := one_add_pow u (m + 1)
  obtain ⟨c3, e3⟩ := one_add_pow u k
  have eL : (x ^ (m + 1)) ^ 2 ^ (m + 1) = x ^ (m + 1) * (1 + 2 * ((m + 1 : Nat) * u) + 4 * c2) := by
    rw [← pow_mul, mul_comm (m + 1), pow_mul, hx, mul_pow, e2]
  have eR : (x ^ k) ^ 2 ^ (m + 1) = x ^ k * (1 + 2 * (k * u) + 4 * c3) := by
    rw [← pow_mul, mul_comm k, pow_mul, hx, mul_pow, e3]
  rw [h1, e1, eR, mul_one, one_pow, ← pow_mul] at eL
  refine ⟨x ^ k * c3 - x ^ (m + 1) * c2 + c1, ?_⟩
  rw [Nat.add_sub_cancel]
  linear_combination -eL + (2 * ((m + 1 : Nat) * u) + 4 * c2) * h1

end

/-- `X^p - X^k - 1`. -/
noncomputable def lagPoly (p k : Nat) : ℤ[X] := X ^ p - X ^ k - 1

theorem red_lagPoly (p k : Nat) : red (lagPoly p k) = trinomial p k := by
  rw [lagPoly, map_sub, map_sub, map_pow, map_pow, red_X, map_one, trinomial, CharTwo.sub_eq_add, CharTwo.sub_eq_add]

/-- What is computed about the lags. -/
structure Good (p k : Nat) : Prop where
  k_pos : 0 < k
  k_lt : k < p
  odd : p % 2 = 1
  prime : (2 ^ p - 1).Prime
  dvd : trinomial p k ∣ X ^ 2 ^ p - X

variable {p k : Nat}

theorem eval_trinomial (hp : 0 < p) (hk : 0 < k) : (trinomial p k).eval 1 = 1 ∧ (trinomial p k).eval 0 = 1 := by
  rw [trinomial]
  simp only [eval_add, eval_pow, eval_X, eval_one, one_pow]
  exact ⟨by decide, by rw [zero_pow (by omega), zero_pow (by omega)]; decide⟩

theorem not_X (hp : 0 < p) (hk : 0 < k) {g : (ZMod 2)[X]} (hg : Irreducible g) (h : g ∣ trinomial p k) : ¬ g ∣ X := fun hx => by
  have h1 : X ∣ g := (hg.dvd_comm irreducible_X).1 hx
  have := (X_dvd_iff.1 (h1.trans h))
  rw [coeff_zero_eq_eval_zero, (eval_trinomial hp hk).2] at this
  exact one_ne_zero this

theorem not_X_sub (hp : 0 < p) (hk : 0 < k) {g : (ZMod 2)[X]} (hg : Irreducible g) (h : g ∣ trinomial p k) : ¬ g ∣ X - 1 := fun hx => by
  have h1 : X - C 1 ∣ g := (hg.dvd_comm (irreducible_X_sub_C (1 : ZMod 2))).1 (by rwa [C_1])
  have := dvd_iff_isRoot.1 (h1.trans h)
  rw [IsRoot.def, (eval_trinomial hp hk).1] at this
  exact one_ne_zero this

theorem Good.two_lt (h : Good p k) : 1 < p := by have := h.k_pos; have := h.k_lt; omega

theorem Good.order_dvd (h : Good p k) : trinomial p k ∣ X ^ (2 ^ p - 1) - 1 := by
  have h1 := h.dvd
  have h2 := Nat.two_pow_pos p
  have e : (X ^ 2 ^ p - X : (ZMod 2)[X]) = X * (X ^ (2 ^ p - 1) - 1) := by
    rw [mul_sub, ← pow_succ', Nat.sub_add_cancel h2, mul_one]
  rw [e] at h1
  have hc : IsCoprime (trinomial p k) X := by
    refine ⟨1, -(X ^ (p - 1) + X ^ (k - 1)), ?_⟩
    have := h.k_pos; have := h.k_lt
    rw [trinomial, show X ^ p = X ^ (p - 1) * (X : (ZMod 2)[X]) by rw [← pow_succ]; congr 1; omega, show X ^ k = X ^ (k - 1) * (X : (ZMod 2)[X]) by rw [← pow_succ]; congr 1; omega]
    ring
  exact hc.dvd_of_dvd_mul_left h1

theorem pow_one_gcd {g : (ZMod 2)[X]} {a b : Nat} (h1 : g ∣ X ^ a - 1) (h2 : g ∣ X ^ b - 1) : g ∣ X ^ Nat.gcd a b - 1 := by
  induction a, b using Nat.gcd.induction with
  | H0 n => simpa using h2
  | H1 m n hm ih =>
    rw [Nat.gcd_rec]
    refine ih ?_ h1
    have h3 : g ∣ X ^ (m * (n / m)) - 1 := by
      have := h1.trans (sub_dvd_pow_sub_pow (X ^ m) 1 (n / m))
      rwa [one_pow, ← pow_mul] at this
    have e : (X ^ n - 1 : (ZMod 2)[X]) = X ^ (n % m) * (X ^ (m * (n / m)) - 1) + (X ^ (n % m) - 1) := by
      conv_lhs => rw [← Nat.mod_add_div n m, pow_add]
      ring
    rw [e] at h2
    exact (dvd_add_right (h3.mul_left _)).1 h2

/-- No small power of `X` is 1 modulo a factor. -/
theorem Good.no_power (h : Good p k) {g : (ZMod 2)[X]} (hg : Irreducible g) (hd : g ∣ trinomial p k) {e : Nat} (h0 : 0 < e) (he : e < 2 ^ p - 1) :
    ¬ g ∣ X ^ e - 1 := fun hx => by
  have h1 := pow_one_gcd hx (hd.trans h.order_dvd)
  have : Nat.gcd e (2 ^ p - 1) = 1 := (Nat.coprime_of_lt_prime h0.ne' he h.prime).symm
  rw [this, pow_one] at h1
  exact not_X_sub (by have := h.two_lt; omega) h.k_pos hg hd h1

theorem Good.ne_zero (h : Good p k) : trinomial p k ≠ 0 := fun e => by
  have := (eval_trinomial (p := p) (k := k) (by have := h.two_lt; omega) h.k_pos).1
  rw [e, eval_zero] at this
  exact zero_ne_one this

theorem Good.coprime_of (h : Good p k) {V : (ZMod 2)[X]} (hV : ∀ g, Irreducible g → g ∣ trinomial p k → ¬ g ∣ V) : IsCoprime (trinomial p k) V :=
  isCoprime_of_irreducible_dvd (fun e => h.ne_zero e.1) hV

theorem Good.hasOrder (h : Good p k) : HasOrder (trinomial p k) (2 ^ p - 1) := by
  refine ⟨h.prime.pos, h.order_dvd, fun q hq hd => ?_⟩
  rw [(Nat.prime_dvd_prime_iff_eq hq h.prime).1 hd, Nat.div_self h.prime.pos, pow_one]
  exact h.coprime_of fun g hg d1 d2 => not_X_sub (by have := h.two_lt; omega) h.k_pos hg d1 d2

theorem two_mul_lt {p : Nat} (hp : 3 ≤ p) : 2 * p < 2 ^ p - 1 := by
  induction p, hp using Nat.le_induction with
  | base => decide
  | succ n hn ih => rw [pow_succ]; omega

/-- Modulo 4, `X^N` is not 1, and modulo 2 what is left is not 1 either. -/
theorem Good.lift (h : Good p k) : ∃ U A : ℤ[X], X ^ (2 ^ p - 1) = 1 + 2 * U + lagPoly p k * A ∧
    IsCoprime (trinomial p k) (red U) ∧ IsCoprime (trinomial p k) (red U + red U ^ 2) := by
  have hp : 0 < p := by have := h.two_lt; omega
  obtain ⟨B, hB⟩ := h.order_dvd
  obtain ⟨A, rfl⟩ := red_surj B
  obtain ⟨U, hU⟩ := red_eq_zero (P := X ^ (2 ^ p - 1) - 1 - lagPoly p k * A) (by
    rw [map_sub, map_sub, map_pow, red_X, map_one, map_mul, red_lagPoly, hB, sub_self])
  have hX : X ^ (2 ^ p - 1) = 1 + 2 * U + lagPoly p k * A := by linear_combination hU
  have hrel : trinomial p k ∣ ((p : (ZMod 2)[X]) * red U * X ^ p - (k : (ZMod 2)[X]) * red U * X ^ k - X ^ (k * 2 ^ (p - 1))) := by
    let I : Ideal ℤ[X] := Ideal.span {lagPoly p k}
    have hz : Ideal.Quotient.mk I (lagPoly p k) = 0 := Ideal.Quotient.eq_zero_iff_mem.2 (Ideal.mem_span_singleton_self _)
    obtain ⟨c, hc⟩ := relation (Q := ℤ[X] ⧸ I) (p := p) (k := k) (N := 2 ^ p - 1) (x := Ideal.Quotient.mk I X) (u := Ideal.Quotient.mk I U) hp (Nat.sub_add_cancel (Nat.two_pow_pos p))
      (by rw [lagPoly, map_sub, map_sub, map_pow, map_pow, map_one] at hz; linear_combination hz)
      (by rw [← map_pow, hX, map_add, map_add, map_mul, map_mul, hz, zero_mul, add_zero, map_one, map_ofNat])
    obtain ⟨C', rfl⟩ := Ideal.Quotient.mk_surjective c
    have h2 : lagPoly p k ∣ 2 * (((p : ℤ[X]) * U * X ^ p - (k : ℤ[X]) * U * X ^ k - X ^ (k * 2 ^ (p - 1))) - 2 * C') := by
      rw [← Ideal.mem_span_singleton, ← Ideal.Quotient.eq_zero_iff_mem]
      simp only [map_mul, map_sub, map_pow, map_natCast, map_ofNat]
      linear_combination hc
    have h3 := _root_.map_dvd red (cancel_two (by rw [red_lagPoly]; exact h.ne_zero) h2)
    simp only [map_mul, map_sub, map_pow, map_natCast, red_two, zero_mul, sub_zero, red_X, red_lagPoly] at h3
    exact h3
  have hodd : ((p : Nat) : (ZMod 2)[X]) = 1 := by
    obtain ⟨m, hm⟩ : ∃ m, p = 2 * m + 1 := ⟨p / 2, by have := h.odd; omega⟩
    rw [hm]; push_cast; linear_combination (m : (ZMod 2)[X]) * (CharTwo.two_eq_zero : (2 : (ZMod 2)[X]) = 0)
  rw [hodd, one_mul] at hrel
  have c1 : ∀ g, Irreducible g → g ∣ trinomial p k → ¬ g ∣ red U := fun g hg hd hu => by
    have := hd.trans hrel
    have h3 : g ∣ X ^ (k * 2 ^ (p - 1)) := by
      have h4 : g ∣ (red U * X ^ p - (k : (ZMod 2)[X]) * red U * X ^ k : (ZMod 2)[X]) := dvd_sub (hu.mul_right _) ((hu.mul_left _).mul_right _)
      exact (dvd_sub_right h4).1 this
    exact not_X hp h.k_pos hg hd (hg.prime.dvd_of_dvd_pow h3)
  have c2 : ∀ g, Irreducible g → g ∣ trinomial p k → ¬ g ∣ 1 + red U := fun g hg hd hu => by
    have hsq : (2 : Nat) ^ (p - 1) * 2 = 2 ^ p := by rw [← pow_succ, Nat.sub_add_cancel hp]
    have h2p : 2 * p < 2 ^ p - 1 := two_mul_lt (by have := h.two_lt; have := h.odd; omega)
    have hX2 : g ∣ X ^ 2 ^ p - X := hd.trans h.dvd
    have hXk : g ∣ X ^ (k * 2 ^ p) - X ^ k := by
      have := hX2.trans (sub_dvd_pow_sub_pow (X ^ 2 ^ p) X k)
      rwa [← pow_mul, mul_comm] at this
    have h3 : g ∣ (X ^ p + (k : (ZMod 2)[X]) * X ^ k + X ^ (k * 2 ^ (p - 1)) : (ZMod 2)[X]) := by
      have h4 := (hd.trans hrel).add (hu.mul_right (X ^ p + (k : (ZMod 2)[X]) * X ^ k))
      have e : (red U * X ^ p - (k : (ZMod 2)[X]) * red U * X ^ k - X ^ (k * 2 ^ (p - 1)) + (1 + red U) * (X ^ p + (k : (ZMod 2)[X]) * X ^ k) : (ZMod 2)[X]) =
          X ^ p + (k : (ZMod 2)[X]) * X ^ k + X ^ (k * 2 ^ (p - 1)) := by
        linear_combination (red U * X ^ p - X ^ (k * 2 ^ (p - 1))) * (CharTwo.two_eq_zero : (2 : (ZMod 2)[X]) = 0)
      rwa [e] at h4
    have h5 : g ∣ ((X ^ p + (k : (ZMod 2)[X]) * X ^ k) ^ 2 + X ^ k : (ZMod 2)[X]) := by
      have h6 := (h3.mul_right (X ^ p + (k : (ZMod 2)[X]) * X ^ k + X ^ (k * 2 ^ (p - 1)))).sub hXk
      have e : ((X ^ p + (k : (ZMod 2)[X]) * X ^ k + X ^ (k * 2 ^ (p - 1))) * (X ^ p + (k : (ZMod 2)[X]) * X ^ k + X ^ (k * 2 ^ (p - 1))) - (X ^ (k * 2 ^ p) - X ^ k) : (ZMod 2)[X]) =
          (X ^ p + (k : (ZMod 2)[X]) * X ^ k) ^ 2 + X ^ k := by
        rw [← hsq, ← mul_assoc, pow_mul]
        linear_combination ((X ^ p + (k : (ZMod 2)[X]) * X ^ k) * X ^ (k * 2 ^ (p - 1))) * (CharTwo.two_eq_zero : (2 : (ZMod 2)[X]) = 0)
      rwa [e] at h6
    rcases Nat.even_or_odd' k with ⟨j, hj | hj⟩
    · have hk0 : (k : (ZMod 2)[X]) = 0 := by rw [hj]; push_cast; linear_combination (j : (ZMod 2)[X]) * (CharTwo.two_eq_zero : (2 : (ZMod 2)[X]) = 0)
      rw [hk0, zero_mul, add_zero, ← pow_mul] at h5
      have e : (X ^ (p * 2) + X ^ k : (ZMod 2)[X]) = X ^ k * (X ^ (p * 2 - k) - 1) := by
        rw [mul_sub, ← pow_add, Nat.add_sub_cancel' (by have := h.k_lt; omega), mul_one, CharTwo.sub_eq_add]
      rw [e] at h5
      rcases hg.prime.dvd_or_dvd h5 with h6 | h6
      · exact not_X hp h.k_pos hg hd (hg.prime.dvd_of_dvd_pow h6)
      · exact h.no_power hg hd (by have := h.k_lt; omega) (by have := h.k_pos; omega) h6
    · have hk1 : (k : (ZMod 2)[X]) = 1 := by rw [hj]; push_cast; linear_combination (j : (ZMod 2)[X]) * (CharTwo.two_eq_zero : (2 : (ZMod 2)[X]) = 0)
      rw [hk1, one_mul] at h5
      refine h.no_power hg hd h.k_pos (by have := h.k_lt; omega) ?_
      have h6 := h5.sub (hd.mul_right (trinomial p k))
      have e : ((X ^ p + X ^ k) ^ 2 + X ^ k - trinomial p k * trinomial p k : (ZMod 2)[X]) = X ^ k - 1 := by
        rw [trinomial]
        linear_combination (-X ^ p - X ^ k) * (CharTwo.two_eq_zero : (2 : (ZMod 2)[X]) = 0)
      rwa [e] at h6
  refine ⟨U, A, hX, h.coprime_of c1, h.coprime_of fun g hg hd hu => ?_⟩
  rw [show red U + red U ^ 2 = red U * (1 + red U) by ring] at hu
  exact (hg.prime.dvd_or_dvd hu).elim (c1 g hg hd) (c2 g hg hd)

/-- The powers `2^j (2^p - 1)` modulo `2^(j+2)`. -/
theorem Good.powers (h : Good p k) (j : Nat) : ∃ V A : ℤ[X], X ^ (2 ^ j * (2 ^ p - 1)) = 1 + 2 ^ (j + 1) * V + lagPoly p k * A ∧
    IsCoprime (trinomial p k) (red V) := by
  obtain ⟨U, A, hX, c1, c2⟩ := h.lift
  cases j with
  | zero => exact ⟨U, A, by rw [pow_zero, one_mul, hX]; ring, c1⟩
  | succ j =>
    suffices ∃ V A : ℤ[X], X ^ (2 ^ (j + 1) * (2 ^ p - 1)) = 1 + 2 ^ (j + 2) * V + lagPoly p k * A ∧ red V = red U + red U ^ 2 by
      obtain ⟨V, A, e, hV⟩ := this
      exact ⟨V, A, e, by rw [hV]; exact c2⟩
    induction j with
    | zero =>
      refine ⟨U + U ^ 2, A * (2 + 4 * U + lagPoly p k * A), ?_, by simp⟩
      rw [zero_add, pow_one, mul_comm 2, pow_mul, hX]; ring
    | succ j ih =>
      obtain ⟨V, A, e, hV⟩ := ih
      refine ⟨V + 2 * (2 ^ j * V ^ 2), A * (2 + 2 * 2 ^ (j + 2) * V + lagPoly p k * A), ?_, ?_⟩
      · rw [pow_succ 2 (j + 1), mul_right_comm, pow_mul, e]; ring
      · rw [map_add, map_mul, red_two, zero_mul, add_zero, hV]

end Boost.Random.Lag
