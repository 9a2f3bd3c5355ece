import Verif.Proofs.PrimRoot
import Verif.Spec.SwcPeriod
import Mathlib.Tactic.Ring
import Mathlib.Tactic.Linarith
import Mathlib.Data.Nat.ModEq
import Mathlib.Data.ZMod.Basic
import Mathlib.FieldTheory.Finite.Basic

/-!
# The modulus of the ranlux engines is prime; the order of `2^24` and `2^48`; periods of sequences from which blocks are dropped
-/

namespace Boost.Random

/-- As `rootCheck`, for an exponent `T` of at most `F` bits. -/
def orderCheck (F p T : Nat) (fs : List Nat) (a : Nat) : Bool :=
  powMod p a F T == 1 && fs.all fun q => powMod p a F (T / q) != 1

theorem orderCheck_facts {F p T a K : Nat} (fs : List Nat) (hp : 1 < p) (hT : T < 2 ^ F) (hfs : T ∣ fs.prod ^ K)
    (hpr : ∀ q ∈ fs, q.Prime) (h : orderCheck F p T fs a = true) :
    (a : ZMod p) ^ T = 1 ∧ ∀ q : Nat, q.Prime → q ∣ T → (a : ZMod p) ^ (T / q) ≠ 1 := by
  unfold orderCheck at h
  rw [Bool.and_eq_true, beq_iff_eq, List.all_eq_true] at h
  obtain ⟨h1, h2⟩ := h
  have hone : ∀ e, e < 2 ^ F → (powMod p a F e = 1 ↔ (a : ZMod p) ^ e = 1) := by
    intro e he
    rw [powMod_eq p a F e he, show ((a : ZMod p) ^ e = 1) ↔ (((a ^ e : Nat) : ZMod p) = ((1 : Nat) : ZMod p)) by
      push_cast; rfl, ZMod.natCast_eq_natCast_iff]
    unfold Nat.ModEq
    rw [Nat.mod_eq_of_lt hp]
  refine ⟨(hone _ hT).1 h1, fun q hq hd => ?_⟩
  have hmem : q ∈ fs := by
    have hd := hq.dvd_of_dvd_pow (hd.trans hfs)
    obtain ⟨r, hr, hqr⟩ := (Prime.dvd_prod_iff hq.prime).1 hd
    rwa [(Nat.prime_dvd_prime_iff_eq hq (hpr r hr)).1 hqr]
  have := h2 q hmem
  rw [bne_iff_ne] at this
  intro hc
  exact this ((hone _ (lt_of_le_of_lt (Nat.div_le_self _ _) hT)).2 hc)

theorem prime_of_orderCheck {F p a K : Nat} (fs : List Nat) (hp : 1 < p) (hT : p - 1 < 2 ^ F) (hfs : p - 1 ∣ fs.prod ^ K)
    (hpr : ∀ q ∈ fs, q.Prime) (h : orderCheck F p (p - 1) fs a = true) : p.Prime :=
  lucas_primality p (a : ZMod p) (orderCheck_facts fs hp hT hfs hpr h).1 (orderCheck_facts fs hp hT hfs hpr h).2

theorem order_of_orderCheck {F p T a K : Nat} (fs : List Nat) (hp : 1 < p) (hT0 : 0 < T) (hT : T < 2 ^ F) (hfs : T ∣ fs.prod ^ K)
    (hpr : ∀ q ∈ fs, q.Prime) (h : orderCheck F p T fs a = true) : orderOf (a : ZMod p) = T :=
  orderOf_eq_of_pow_and_pow_div_prime hT0 (orderCheck_facts fs hp hT hfs hpr h).1 (orderCheck_facts fs hp hT hfs hpr h).2

namespace RanluxPeriod

theorem prime1 : Nat.Prime 15790321 := by norm_num
theorem prime2 : Nat.Prime 54410972897 :=
  prime_of_rootCheck [2, 2, 2, 2, 2, 7, 242906129] 3 (by norm_num) (by norm_num) (by norm_num)
    (by simp only [List.forall_mem_cons, List.not_mem_nil, false_implies, implies_true, and_true]; norm_num) (by decide +kernel)
theorem prime3 : Nat.Prime 88959882481 :=
  prime_of_rootCheck [2, 2, 2, 2, 3, 5, 7, 67, 790333] 26 (by norm_num) (by norm_num) (by norm_num)
    (by simp only [List.forall_mem_cons, List.not_mem_nil, false_implies, implies_true, and_true]; norm_num) (by decide +kernel)
theorem prime4 : Nat.Prime 1538595959564161 :=
  prime_of_rootCheck [2, 2, 2, 2, 2, 2, 2, 3, 3, 5, 7, 839, 2179, 20873] 23 (by norm_num) (by norm_num) (by norm_num)
    (by simp only [List.forall_mem_cons, List.not_mem_nil, false_implies, implies_true, and_true]; norm_num) (by decide +kernel)
theorem prime5 : Nat.Prime 25629623713 :=
  prime_of_rootCheck [2, 2, 2, 2, 2, 3, 3, 7, 11, 11, 29, 3623] 5 (by norm_num) (by norm_num) (by norm_num)
    (by simp only [List.forall_mem_cons, List.not_mem_nil, false_implies, implies_true, and_true]; norm_num) (by decide +kernel)

/-- The primes that divide `2^576 - 2^240`. -/
def primes : List Nat :=
  [2, 3, 5, 7, 13, 17, 29, 43, 97, 113, 127, 241, 257, 337, 673, 1429, 2017, 3361, 5153, 5419, 14449, 15790321, 25629623713, 54410972897,
    88959882481, 1538595959564161]

theorem primes_prime : ∀ q ∈ primes, q.Prime := by
  simp only [primes, List.forall_mem_cons, List.not_mem_nil, false_implies, implies_true, and_true]
  refine ⟨?_, ?_, ?_, ?_, ?_, ?_, ?_, ?_, ?_, ?_, ?_, ?_, ?_, ?_, ?_, ?_, ?_, ?_, ?_, ?_, ?_, prime1, prime5, prime2, prime3, prime4⟩ <;> norm_num

/-- `2^576 - 2^240 + 1`, kept folded. -/
@[irreducible] def M : Nat := 2 ^ 576 - 2 ^ 240 + 1

theorem M_prime : M.Prime :=
  prime_of_orderCheck (F := 576) (a := 19) (K := 240) primes (by decide +kernel) (by decide +kernel) (by decide +kernel) primes_prime
    (by decide +kernel)

theorem order24 : orderOf ((2 ^ 24 : Nat) : ZMod M) = (M - 1) / 48 :=
  order_of_orderCheck (F := 576) (K := 240) primes (by decide +kernel) (by decide +kernel) (by decide +kernel) (by decide +kernel)
    primes_prime (by decide +kernel)

theorem order48 : orderOf ((2 ^ 48 : Nat) : ZMod M) = (M - 1) / 96 :=
  order_of_orderCheck (F := 576) (K := 240) primes (by decide +kernel) (by decide +kernel) (by decide +kernel) (by decide +kernel)
    primes_prime (by decide +kernel)

/-- A sequence of period `T` from which the first `r` of every `p` values are taken has period `r T`. -/
theorem block_period {α : Type} {V : Nat → α} {T p r : Nat} (hV : Spec.HasPeriod V T) (hr : 0 < r) (hrp : r < p) (hc : Nat.Coprime p T)
    (hT : (p - r) * r < T) : Spec.HasPeriod (fun n => V (n / r * p + n % r)) (r * T) := by
  obtain ⟨hT0, hV⟩ := hV
  have hmul : ∀ k n, V (n + k * T) = V n := fun k => (hV (k * T)).2 ⟨k, by ring⟩
  -- every index is a multiple of `p` up to the period
  have hshift : ∀ d, (∀ i, V (i * p + d) = V (i * p)) → T ∣ d := by
    intro d hd
    refine (hV d).1 fun n => ?_
    obtain ⟨i, hi⟩ : ∃ i, T ∣ i * p - n ∧ n ≤ i * p := by
      obtain ⟨c, -, hc'⟩ := Nat.exists_mul_mod_eq_of_coprime n hc hT0.ne'
      refine ⟨c + n * T, ?_, ?_⟩
      · refine (Nat.modEq_iff_dvd' ?_).1 ?_
        · calc n ≤ n * T * p := by
                rw [Nat.mul_assoc]; exact Nat.le_mul_of_pos_right _ (Nat.mul_pos hT0 (by omega))
            _ ≤ (c + n * T) * p := Nat.mul_le_mul_right _ (by omega)
        · unfold Nat.ModEq
          rw [show (c + n * T) * p = p * c + T * (n * p) by ring, Nat.add_mul_mod_self_left, hc']
      · calc n ≤ n * T * p := by
              rw [Nat.mul_assoc]; exact Nat.le_mul_of_pos_right _ (Nat.mul_pos hT0 (by omega))
          _ ≤ (c + n * T) * p := Nat.mul_le_mul_right _ (by omega)
    obtain ⟨⟨k, hk⟩, hle⟩ := hi
    have e : i * p = n + k * T := by rw [Nat.mul_comm k T]; omega
    have := hd i
    rw [e, hmul, show n + k * T + d = n + d + k * T by ring, hmul] at this
    exact this
  refine ⟨Nat.mul_pos hr hT0, fun P => ⟨fun h => ?_, ?_⟩⟩
  · have hblock : ∀ i j q t, j < r → t < r → P = q * r + t → j + t < r → V (i * p + j) = V ((i + q) * p + (j + t)) := by
      intro i j q t hj ht hP hjt
      have := h (i * r + j)
      have e1 : (i * r + j + P) / r = i + q := by
        rw [hP, show i * r + j + (q * r + t) = (j + t) + r * (i + q) by ring, Nat.add_mul_div_left _ _ hr, Nat.div_eq_of_lt hjt, Nat.zero_add]
      have e2 : (i * r + j + P) % r = j + t := by
        rw [hP, show i * r + j + (q * r + t) = (j + t) + r * (i + q) by ring, Nat.add_mul_mod_self_left, Nat.mod_eq_of_lt hjt]
      have e3 : (i * r + j) / r = i := by
        rw [show i * r + j = j + r * i by ring, Nat.add_mul_div_left _ _ hr, Nat.div_eq_of_lt hj, Nat.zero_add]
      have e4 : (i * r + j) % r = j := by rw [show i * r + j = j + r * i by ring, Nat.add_mul_mod_self_left, Nat.mod_eq_of_lt hj]
      simp only [e1, e2, e3, e4] at this
      exact this.symm
    obtain ⟨q, t, hP, ht⟩ : ∃ q t, P = q * r + t ∧ t < r := ⟨P / r, P % r, (Nat.div_add_mod' P r).symm, Nat.mod_lt _ hr⟩
    have h1 : T ∣ q * p + t := by
      refine hshift _ fun i => ?_
      have := hblock i 0 q t hr ht hP (by omega)
      rw [show (i + q) * p + (0 + t) = i * p + (q * p + t) by ring] at this
      exact this.symm
    -- `r` times the shift
    have h2 : T ∣ P := by
      have hP' : ∀ n, V (n / r * p + n % r) = V ((n + r * P) / r * p + (n + r * P) % r) := by
        intro n
        have : ∀ k n, V ((n + k * P) / r * p + (n + k * P) % r) = V (n / r * p + n % r) := by
          intro k
          induction k with
          | zero => simp
          | succ k ih =>
            intro n
            have e := h (n + k * P)
            rw [show n + (k + 1) * P = n + k * P + P by ring]
            exact e.trans (ih n)
        exact (this r n).symm
      have : T ∣ P * p := by
        refine hshift _ fun i => ?_
        have := hP' (i * r)
        rw [Nat.mul_div_cancel _ hr, Nat.mul_mod_left, show i * r + r * P = (i + P) * r by ring, Nat.mul_div_cancel _ hr, Nat.mul_mod_left] at this
        rw [Nat.add_zero, Nat.add_zero] at this
        rw [this]; congr 1; ring
      exact hc.symm.dvd_of_dvd_mul_right this
    have h3 : t = 0 := by
      by_contra ht0
      have h4 : T ∣ (p - r) * t := by
        have a1 : T ∣ r * (q * p + t) := h1.mul_left r
        have a2 : T ∣ p * P := h2.mul_left p
        have e : p * P = r * (q * p + t) + (p - r) * t := by
          obtain ⟨d, rfl⟩ : ∃ d, p = r + d := ⟨p - r, by omega⟩
          rw [hP, show r + d - r = d by omega]; ring
        rw [e] at a2
        exact (Nat.dvd_add_right a1).1 a2
      have h5 := Nat.le_of_dvd (Nat.mul_pos (by omega) (by omega)) h4
      have h6 : (p - r) * t ≤ (p - r) * r := Nat.mul_le_mul_left _ ht.le
      omega
    rw [h3, Nat.add_zero] at h1
    obtain ⟨k, hk⟩ := hc.symm.dvd_of_dvd_mul_right h1
    exact ⟨k, by rw [hP, h3, hk]; ring⟩
  · rintro ⟨k, rfl⟩ n
    have e1 : (n + r * T * k) / r = n / r + T * k := by
      rw [Nat.mul_assoc, Nat.add_mul_div_left _ _ hr]
    have e2 : (n + r * T * k) % r = n % r := by
      rw [Nat.mul_assoc, Nat.add_mul_mod_self_left]
    simp only [e1, e2]
    rw [show (n / r + T * k) * p + n % r = n / r * p + n % r + (k * p) * T by ring, hmul]

end RanluxPeriod
end Boost.Random
