import Verif.Proofs.LagAlgebra

/-!
# The period of the lagged Fibonacci recurrence
-/

namespace Boost.Random.Lag
open Spec Polynomial Mt Tausworthe

/-- The shift of sequences of integers. -/
abbrev sh : (ℕ → ℤ) →ₗ[ℤ] (ℕ → ℤ) := LinearMap.funLeft ℤ ℤ Nat.succ

theorem sh_pow (n : Nat) (b : ℕ → ℤ) (t : Nat) : (sh ^ n) b t = b (t + n) := by
  induction n generalizing t with
  | zero => rfl
  | succ n ih =>
    rw [pow_succ', Module.End.mul_apply, LinearMap.funLeft_apply, ih]
    congr 1; omega

theorem sh_X_pow (n : Nat) (b : ℕ → ℤ) (t : Nat) : aeval sh (X ^ n : ℤ[X]) b t = b (t + n) := by rw [map_pow, aeval_X, sh_pow]

/-- Multiples stay multiples. -/
theorem sh_dvd {d : ℤ} {s : ℕ → ℤ} (h : ∀ n, d ∣ s n) (P : ℤ[X]) (n : Nat) : d ∣ aeval sh P s n := by
  choose r hr using h
  have : s = d • r := funext hr
  rw [this, map_smul]
  exact dvd_mul_right d _

/-- The action of a polynomial, modulo 2. -/
theorem sh_red (P : ℤ[X]) (s : ℕ → ℤ) (n : Nat) : ((aeval sh P s n : ℤ) : ZMod 2) = aeval shiftSeq (red P) (fun n => (s n : ZMod 2)) n := by
  induction P using Polynomial.induction_on' with
  | add P Q hP hQ => rw [map_add, map_add, map_add, LinearMap.add_apply, LinearMap.add_apply, Pi.add_apply, Pi.add_apply, Int.cast_add, hP, hQ]
  | monomial m a =>
    rw [coe_mapRingHom, map_monomial, ← C_mul_X_pow_eq_monomial, ← C_mul_X_pow_eq_monomial, map_mul, map_mul, aeval_C, aeval_C, Module.End.mul_apply, Module.End.mul_apply,
      Module.algebraMap_end_apply, Module.algebraMap_end_apply, Pi.smul_apply, Pi.smul_apply, sh_X_pow, aeval_X_pow', smul_eq_mul, smul_eq_mul, Int.cast_mul]
    rfl

/-- The recurrence modulo `2^w`. -/
def Rec (w p k : Nat) (s : ℕ → ℤ) : Prop := ∀ n, 2 ^ w ∣ aeval sh (lagPoly p k) s n

theorem rec_iff {w p k : Nat} {s : ℕ → ℤ} : Rec w p k s ↔ ∀ n, (2 : ℤ) ^ w ∣ s (n + p) - s (n + k) - s n := by
  unfold Rec lagPoly
  refine forall_congr' fun n => ?_
  rw [map_sub, map_sub, map_one, LinearMap.sub_apply, LinearMap.sub_apply, Pi.sub_apply, Pi.sub_apply, sh_X_pow, sh_X_pow, Module.End.one_apply]

variable {p k w : Nat} {s : ℕ → ℤ}

theorem Good.step (h : Good p k) (hs : Rec w p k s) (j : Nat) : ∃ V : ℤ[X], IsCoprime (trinomial p k) (red V) ∧
    ∀ n, (2 : ℤ) ^ w ∣ s (n + 2 ^ j * (2 ^ p - 1)) - s n - 2 ^ (j + 1) * aeval sh V s n := by
  obtain ⟨V, A, e, hV⟩ := h.powers j
  refine ⟨V, hV, fun n => ?_⟩
  have h1 := sh_dvd hs A n
  have h2 := congrArg (fun P => aeval sh P s n) e
  simp only [sh_X_pow] at h2
  rw [mul_comm (lagPoly p k), map_add, map_add, map_one, map_mul, map_mul, LinearMap.add_apply, LinearMap.add_apply, Pi.add_apply, Pi.add_apply,
    Module.End.one_apply, Module.End.mul_apply, Module.End.mul_apply,
    show (2 ^ (j + 1) : ℤ[X]) = C (2 ^ (j + 1)) by simp, aeval_C, Module.algebraMap_end_apply, Pi.smul_apply, smul_eq_mul] at h2
  rw [h2]
  convert h1 using 1
  ring

theorem parity_zero (h : Good p k) (hw : 1 ≤ w) (hs : Rec w p k s) {V : ℤ[X]} (hV : IsCoprime (trinomial p k) (red V)) (h0 : ∀ n, (2 : ℤ) ∣ aeval sh V s n) (n : Nat) :
    (2 : ℤ) ∣ s n := by
  obtain ⟨x, y, e⟩ := hV
  have c : ∀ z : ℤ, 2 ∣ z → (z : ZMod 2) = 0 := fun z hz => (ZMod.intCast_zmod_eq_zero_iff_dvd z 2).2 (by exact_mod_cast hz)
  have h1 : aeval shiftSeq (trinomial p k) (fun n => (s n : ZMod 2)) = 0 := funext fun n => by
    rw [← red_lagPoly, ← sh_red, c _ ((dvd_pow_self 2 (by omega)).trans (hs n))]; rfl
  have h2 : aeval shiftSeq (red V) (fun n => (s n : ZMod 2)) = 0 := funext fun n => by rw [← sh_red, c _ (h0 n)]; rfl
  have := congrArg (fun p => aeval shiftSeq p (fun n => (s n : ZMod 2)) n) e
  simp only [map_add, map_mul, LinearMap.add_apply, Module.End.mul_apply, h1, h2, map_zero, add_zero, map_one, Module.End.one_apply, Pi.zero_apply] at this
  exact_mod_cast (ZMod.intCast_zmod_eq_zero_iff_dvd (s n) 2).1 this.symm

theorem Good.full (h : Good p k) (hw : 1 ≤ w) (hs : Rec w p k s) (n : Nat) : (2 : ℤ) ^ w ∣ s (n + 2 ^ (w - 1) * (2 ^ p - 1)) - s n := by
  obtain ⟨V, -, e⟩ := h.step hs (w - 1)
  have := e n
  rw [Nat.sub_add_cancel hw] at this
  have h2 := this.add (dvd_mul_right ((2 : ℤ) ^ w) (aeval sh V s n))
  rwa [sub_add_cancel] at h2

/-- **Brent.** The period modulo `2^w` if some element is odd. -/
theorem Good.period (h : Good p k) (hw : 1 ≤ w) (hs : Rec w p k s) (hodd : ∃ n, ¬ (2 : ℤ) ∣ s n) (P : Nat) :
    (∀ n, (2 : ℤ) ^ w ∣ s (n + P) - s n) ↔ 2 ^ (w - 1) * (2 ^ p - 1) ∣ P := by
  set N := 2 ^ p - 1 with hNdef
  have key : ∀ {P}, (∀ n, (2 : ℤ) ^ w ∣ s (n + P) - s n) ↔ ∀ n, (s (n + P) : ZMod (2 ^ w)) = (s n : ZMod (2 ^ w)) := fun {P} => by
    refine forall_congr' fun n => ?_
    rw [← sub_eq_zero, ← Int.cast_sub, ZMod.intCast_zmod_eq_zero_iff_dvd]; push_cast; rfl
  have hfull : ∀ n, (s (n + 2 ^ (w - 1) * N) : ZMod (2 ^ w)) = (s n : ZMod (2 ^ w)) := key.1 (h.full hw hs)
  refine ⟨fun hP => ?_, fun hd => key.2 fun n => repeat_dvd (b := fun n => (s n : ZMod (2 ^ w))) hfull hd n⟩
  have hpos : 0 < 2 ^ (w - 1) * N := Nat.mul_pos (Nat.two_pow_pos _) h.prime.pos
  -- modulo 2
  have hNP : N ∣ P := by
    have c : ∀ z : ℤ, 2 ∣ z → (z : ZMod 2) = 0 := fun z hz => (ZMod.intCast_zmod_eq_zero_iff_dvd z 2).2 (by exact_mod_cast hz)
    have h1 : aeval shiftSeq (trinomial p k) (fun n => (s n : ZMod 2)) = 0 := funext fun n => by
      rw [← red_lagPoly, ← sh_red, c _ ((dvd_pow_self 2 (by omega)).trans (hs n))]; rfl
    have hne : (fun n => (s n : ZMod 2)) ≠ 0 := fun e => by
      obtain ⟨n, hn⟩ := hodd
      exact hn (by exact_mod_cast (ZMod.intCast_zmod_eq_zero_iff_dvd (s n) 2).1 (congrFun e n))
    refine ((Tausworthe.period h.hasOrder h1 hne).2 P).1 fun n => ?_
    have := c _ ((dvd_pow_self 2 (by omega)).trans (hP n))
    rw [Int.cast_sub] at this
    exact sub_eq_zero.1 this
  have hg := repeat_gcd (b := fun n => (s n : ZMod (2 ^ w))) hpos (key.1 hP) hfull
  -- the greatest common divisor is 2^j N
  obtain ⟨m, rfl⟩ := hNP
  have hgcd : Nat.gcd (N * m) (2 ^ (w - 1) * N) = N * Nat.gcd m (2 ^ (w - 1)) := by rw [mul_comm (2 ^ (w - 1)) N, Nat.gcd_mul_left]
  obtain ⟨j, hj, hm⟩ := (Nat.dvd_prime_pow Nat.prime_two).1 (Nat.gcd_dvd_right m (2 ^ (w - 1)))
  rw [hgcd, hm, mul_comm] at hg
  by_cases hjw : j = w - 1
  · rw [mul_comm]
    refine Nat.mul_dvd_mul_left _ ?_
    rw [← hjw, ← hm]
    exact Nat.gcd_dvd_left _ _
  · exfalso
    obtain ⟨V, hV, e⟩ := h.step hs j
    obtain ⟨n, hn⟩ := hodd
    refine hn (parity_zero h hw hs hV (fun n => ?_) n)
    have h1 := key.2 hg n
    have h2 := dvd_sub h1 (e n)
    rw [sub_sub_cancel] at h2
    have h3 : (2 : ℤ) ^ (j + 1) * 2 ∣ 2 ^ (j + 1) * aeval sh V s n := by
      rw [← pow_succ]
      exact (pow_dvd_pow 2 (by omega)).trans h2
    exact (mul_dvd_mul_iff_left (by positivity)).1 h3

/-- The period modulo `2^w` of a sequence of multiples of `2^v` that are not all multiples of `2^(v+1)`. -/
theorem Good.period_val (h : Good p k) {v : Nat} (hv : v < w) (hs : Rec w p k s) (h1 : ∀ n, (2 : ℤ) ^ v ∣ s n) (h2 : ∃ n, ¬ (2 : ℤ) ^ (v + 1) ∣ s n) (P : Nat) :
    (∀ n, (2 : ℤ) ^ w ∣ s (n + P) - s n) ↔ 2 ^ (w - 1 - v) * (2 ^ p - 1) ∣ P := by
  choose r hr using h1
  have hpow : (2 : ℤ) ^ w = 2 ^ v * 2 ^ (w - v) := by rw [← pow_add]; congr 1; omega
  have hne : (2 : ℤ) ^ v ≠ 0 := by positivity
  have hrec : Rec (w - v) p k r := rec_iff.2 fun n => by
    have := rec_iff.1 hs n
    rw [hr, hr, hr, hpow, ← mul_sub, ← mul_sub] at this
    exact (mul_dvd_mul_iff_left hne).1 this
  have := h.period (w := w - v) (by omega) hrec (by
    obtain ⟨n, hn⟩ := h2
    refine ⟨n, fun hd => hn ?_⟩
    rw [hr, pow_succ]
    exact mul_dvd_mul_left _ hd) P
  rw [show w - v - 1 = w - 1 - v by omega] at this
  rw [← this]
  refine forall_congr' fun n => ?_
  rw [hr, hr, hpow, ← mul_sub]
  exact mul_dvd_mul_iff_left hne

end Boost.Random.Lag
