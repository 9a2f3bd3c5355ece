import Mathlib.NumberTheory.LucasPrimality
import Mathlib.Tactic.NormNum.Prime

/-!
# Primality and primitive roots by evaluating modular powers

`rootCheck p fs a = true`, where `fs` are the prime factors of `p - 1`, shows that `p` is prime and `a`
a primitive root modulo `p` (Lucas). The check is a fixed, finite computation run in the kernel; the
theorems lift it to a statement about all exponents.
-/

namespace Boost.Random

/-- `a ^ e % p` for `e < 2 ^ fuel`, by repeated squaring. -/
def powMod (p a : Nat) : (fuel e : Nat) → Nat
  | 0, _ => 1 % p
  | f + 1, e =>
    if e = 0 then 1 % p
    else
      let h := powMod p a f (e / 2)
      if e % 2 = 1 then h * h % p * a % p else h * h % p

theorem powMod_eq (p a f e : Nat) (he : e < 2 ^ f) : powMod p a f e = a ^ e % p := by
  induction f generalizing e with
  | zero => obtain rfl : e = 0 := by simpa using he
            simp [powMod]
  | succ f ih =>
    unfold powMod
    split
    · rename_i h; simp [h]
    · have hlt : e / 2 < 2 ^ f := by rw [pow_succ] at he; omega
      rw [ih _ hlt]
      have hsq : a ^ (e / 2) % p * (a ^ (e / 2) % p) % p = a ^ (2 * (e / 2)) % p := by
        rw [← Nat.mul_mod, two_mul, pow_add]
      dsimp only
      split
      · rename_i h1
        rw [hsq, Nat.mod_mul_mod, ← pow_succ]
        congr 2; omega
      · rename_i h1
        rw [hsq]; congr 2; omega

def rootCheck (p : Nat) (fs : List Nat) (a : Nat) : Bool :=
  powMod p a 64 (p - 1) == 1 && fs.all fun q => powMod p a 64 ((p - 1) / q) != 1

theorem rootCheck_facts {p a : Nat} (fs : List Nat) (hp : 1 < p) (hp64 : p ≤ 2 ^ 64) (hfs : fs.prod = p - 1)
    (hpr : ∀ q ∈ fs, q.Prime) (h : rootCheck p fs a = true) :
    (a : ZMod p) ^ (p - 1) = 1 ∧ ∀ q : Nat, q.Prime → q ∣ p - 1 → (a : ZMod p) ^ ((p - 1) / q) ≠ 1 := by
  unfold rootCheck at h
  rw [Bool.and_eq_true, beq_iff_eq, List.all_eq_true] at h
  obtain ⟨h1, h2⟩ := h
  have hone : ∀ e, e < 2 ^ 64 → (powMod p a 64 e = 1 ↔ (a : ZMod p) ^ e = 1) := by
    intro e he
    rw [powMod_eq p a 64 e he, show ((a : ZMod p) ^ e = 1) ↔ (((a ^ e : Nat) : ZMod p) = ((1 : Nat) : ZMod p)) by
      push_cast; rfl, ZMod.natCast_eq_natCast_iff]
    unfold Nat.ModEq
    rw [Nat.mod_eq_of_lt hp]
  refine ⟨(hone _ (by omega)).1 h1, fun q hq hd => ?_⟩
  have hmem : q ∈ fs := by
    rw [← hfs] at hd
    obtain ⟨r, hr, hqr⟩ := (Prime.dvd_prod_iff hq.prime).1 hd
    rwa [(Nat.prime_dvd_prime_iff_eq hq (hpr r hr)).1 hqr]
  have := h2 q hmem
  rw [bne_iff_ne] at this
  intro hc
  exact this ((hone _ (lt_of_le_of_lt (Nat.div_le_self _ _) (by omega))).2 hc)

theorem prime_of_rootCheck {p : Nat} (fs : List Nat) (a : Nat) (hp : 1 < p) (hp64 : p ≤ 2 ^ 64)
    (hfs : fs.prod = p - 1) (hpr : ∀ q ∈ fs, q.Prime) (h : rootCheck p fs a = true) : p.Prime :=
  lucas_primality p (a : ZMod p) (rootCheck_facts fs hp hp64 hfs hpr h).1 (rootCheck_facts fs hp hp64 hfs hpr h).2

theorem order_of_rootCheck {p : Nat} (fs : List Nat) (a : Nat) (hp : 1 < p) (hp64 : p ≤ 2 ^ 64)
    (hfs : fs.prod = p - 1) (hpr : ∀ q ∈ fs, q.Prime) (h : rootCheck p fs a = true) :
    orderOf (a : ZMod p) = p - 1 :=
  orderOf_eq_of_pow_and_pow_div_prime (by omega) (rootCheck_facts fs hp hp64 hfs hpr h).1
    (rootCheck_facts fs hp hp64 hfs hpr h).2

theorem M31_prime : Nat.Prime 2147483647 :=
  prime_of_rootCheck [2, 3, 3, 7, 11, 31, 151, 331] 16807 (by norm_num) (by norm_num) (by norm_num)
    (by simp only [List.forall_mem_cons, List.not_mem_nil, false_implies, implies_true, and_true]; norm_num)
    (by decide +kernel)

theorem order_M31 (a : Nat) (h : rootCheck 2147483647 [2, 3, 3, 7, 11, 31, 151, 331] a = true) :
    orderOf (a : ZMod 2147483647) = 2147483647 - 1 :=
  order_of_rootCheck [2, 3, 3, 7, 11, 31, 151, 331] a (by norm_num) (by norm_num) (by norm_num)
    (by simp only [List.forall_mem_cons, List.not_mem_nil, false_implies, implies_true, and_true]; norm_num) h

theorem ecuyerA_prime : Nat.Prime 2147483563 :=
  prime_of_rootCheck [2, 3, 7, 631, 81031] 40014 (by norm_num) (by norm_num) (by norm_num)
    (by simp only [List.forall_mem_cons, List.not_mem_nil, false_implies, implies_true, and_true]; norm_num)
    (by decide +kernel)

theorem ecuyerA_order : orderOf ((40014 : ℕ) : ZMod 2147483563) = 2147483563 - 1 :=
  order_of_rootCheck [2, 3, 7, 631, 81031] 40014 (by norm_num) (by norm_num) (by norm_num)
    (by simp only [List.forall_mem_cons, List.not_mem_nil, false_implies, implies_true, and_true]; norm_num)
    (by decide +kernel)

theorem ecuyerB_prime : Nat.Prime 2147483399 :=
  prime_of_rootCheck [2, 19, 31, 1019, 1789] 40692 (by norm_num) (by norm_num) (by norm_num)
    (by simp only [List.forall_mem_cons, List.not_mem_nil, false_implies, implies_true, and_true]; norm_num)
    (by decide +kernel)

theorem ecuyerB_order : orderOf ((40692 : ℕ) : ZMod 2147483399) = 2147483399 - 1 :=
  order_of_rootCheck [2, 19, 31, 1019, 1789] 40692 (by norm_num) (by norm_num) (by norm_num)
    (by simp only [List.forall_mem_cons, List.not_mem_nil, false_implies, implies_true, and_true]; norm_num)
    (by decide +kernel)

end Boost.Random
