import Verif.Proofs.ConstMod
import Verif.Proofs.SignedUnsigned
import Mathlib.Data.Nat.Prime.Basic
import Mathlib.Tactic.NormNum.Prime

/-!
# Properties C01-C05: integer helpers
-/

namespace Boost.Random
open Spec

/-! ## C01 -/

/-- C01: for a type with `digits` value bits and every positive `t` of the type, `integer_log2`
is the exact floor of the base-2 logarithm. -/
theorem c01_integer_log2 (digits t : Nat) (h0 : 0 < t) (ht : t < 2 ^ digits) :
    2 ^ integerLog2 digits t ≤ t ∧ t < 2 ^ (integerLog2 digits t + 1) := by
  rw [integerLog2_eq digits t h0 ht]
  exact ⟨Nat.log2_self_le (by omega), Nat.lt_log2_self⟩

example : integerLog2 64 (2 ^ 40 + 12345) = 40 := by decide

/-- The value at zero, on which `muldivmod` relies for `m = 0`: it is 0, not an error. -/
theorem c01_integer_log2_zero (digits : Nat) : integerLog2 digits 0 = 0 := by
  unfold integerLog2
  generalize maxPow2LessExp digits digits 2 = j
  induction j with
  | zero => simp [integerLog2Impl]
  | succ j ih => simpa [integerLog2Impl] using ih

/-! ## C02 -/

/-- C02: modular reduction is exact on every path. -/
theorem c02_apply (T : IntTy) (m x : Nat) (hT : AnyTy T) (hm : m ≤ T.maxv) (hx : x ≤ T.maxv) :
    ConstMod.apply T m x = some (x % modulus T m) :=
  ConstMod.apply_spec T m hT hm x hx

example : ConstMod.apply ⟨32, true⟩ 2147483647 2147483647 = some 0 := by decide

/-- C02: modular addition is exact and free of overflow on every path. -/
theorem c02_add (T : IntTy) (m x c : Nat) (hT : AnyTy T) (hm : m ≤ T.maxv)
    (hx : x < modulus T m) (hc : c < modulus T m) :
    ConstMod.add T m x c = some ((x + c) % modulus T m) :=
  ConstMod.add_spec T m hT hm x c hx hc

/-- Signed 32-bit, the sum does not fit the type, the modular result is still exact. -/
example : ConstMod.add ⟨32, true⟩ 2147483647 2147483646 2147483640 = some 2147483639 := by decide

/-- C02 (for `WideOK` moduli, see C03 for the others): modular multiplication is exact and free of
overflow on every path: mask, small product, Schrage, 64-bit product, 128-bit helper. -/
theorem c02_mult_partial (T : IntTy) (m a x : Nat) (hT : ArithTy T m) (hm : m ≤ T.maxv)
    (hw : WideOK m) (ha : a < modulus T m) (hx : x < modulus T m) :
    ConstMod.mult T m a x = some (a * x % modulus T m) :=
  ConstMod.mult_spec T m hT hm hw a x ha hx

/-- Schrage path (signed), general path (signed), general path (unsigned), 128-bit path. -/
example : ConstMod.mult ⟨32, true⟩ 2147483647 16807 2147483646 = some 2147466840 := by decide
example : ConstMod.mult ⟨32, true⟩ 2147483647 2147483646 2147483646 = some 1 := by decide
example : ConstMod.mult ⟨32, false⟩ 4294967291 4294967290 4294967290 = some 1 := by decide
example : WideOK (2 ^ 63 + 29) := by right; right; decide
example : ConstMod.mult ⟨64, false⟩ (2 ^ 63 + 29) (2 ^ 63 + 28) (2 ^ 63 + 28) = some 1 := by decide

/-- C02 (for `WideOK` moduli): modular multiply-add. -/
theorem c02_mult_add_partial (T : IntTy) (m a x c : Nat) (hT : ArithTy T m) (hm : m ≤ T.maxv)
    (hw : WideOK m) (ha : a < modulus T m) (hx : x < modulus T m) (hc : c < modulus T m) :
    ConstMod.multAdd T m a x c = some ((a * x + c) % modulus T m) :=
  ConstMod.multAdd_spec T m hT hm hw a x c ha hx hc

example : ConstMod.multAdd ⟨64, false⟩ (2 ^ 48) 0x5DEECE66D (2 ^ 48 - 1) 11
    = some ((0x5DEECE66D * (2 ^ 48 - 1) + 11) % 2 ^ 48) := by decide

/-- C02 (for `WideOK` moduli): modular power, for every exponent. -/
theorem c02_pow_partial (T : IntTy) (m a e : Nat) (hT : ArithTy T m) (hm : m ≤ T.maxv)
    (hw : WideOK m) (h1 : 1 < modulus T m) (ha : a < modulus T m) :
    ConstMod.pow T m a e = some (a ^ e % modulus T m) :=
  ConstMod.pow_spec T m hT hm hw a e h1 ha

example : ConstMod.pow ⟨32, false⟩ 2147483647 16807 1000 = some (16807 ^ 1000 % 2147483647) := by
  decide +kernel

/-- C02 is false without the restriction on the modulus: for the prime `2^64 - 59` modular
multiplication of in-range operands is wrong. -/
theorem c02_mult_false : ∃ (T : IntTy) (m a x : Nat), StdTy T ∧ m ≤ T.maxv ∧ a < m ∧ x < m ∧
    ConstMod.mult T m a x ≠ some (a * x % m) :=
  ⟨⟨64, false⟩, 18446744073709551557, 18446744073709551556, 18446744073709551556,
    ⟨by decide, by decide⟩, by decide, by decide, by decide, by decide⟩

/-! ## C03 -/

/-- C03 (guarded by the exact condition `muldivmodSafe` that no division step overflows): the
128-bit helper returns the exact quotient and remainder. -/
theorem c03_muldivmod_partial (a b m : Nat) (hm0 : 0 < m) (hm : m < 2 ^ 64) (ha : a < m)
    (hb : b < 2 ^ 64) (hsafe : muldivmodSafe a b m) :
    muldiv a b m = a * b / m ∧ mulmod a b m = a * b % m := by
  have := muldivmod_exact a b m hm0 hm ha hb hsafe
  simp [muldiv, mulmod, this]

example : muldivmodSafe (10 ^ 19) (10 ^ 19 + 7) (10 ^ 19 + 51) := by decide

/-- C03: the guard is exact: the quotient is right if and only if no division step overflows. -/
theorem c03_muldiv_exact_iff (a b m : Nat) (hm0 : 0 < m) (hm : m < 2 ^ 64) (ha : a < m)
    (hb : b < 2 ^ 64) : muldiv a b m = a * b / m ↔ muldivmodSafe a b m := by
  constructor
  · intro h
    by_contra hns
    exact muldiv_wrong a b m hm0 hm ha hb hns h
  · intro h; exact (c03_muldivmod_partial a b m hm0 hm ha hb h).1

example : (10 ^ 19 : Nat) < 10 ^ 19 + 51 ∧ (10 ^ 19 + 51 : Nat) < 2 ^ 64 := by decide

/-- C03, condition on the modulus alone: if the digits of the normalised modulus add up to at most
`2^32`, the helper is exact for all operands. -/
theorem c03_muldivmod_digits_partial (a b m : Nat) (hm0 : 0 < m) (hm : m < 2 ^ 64) (ha : a < m)
    (hb : b < 2 ^ 64)
    (hd : m * 2 ^ (63 - Nat.log2 m) % 2 ^ 32 + m * 2 ^ (63 - Nat.log2 m) / 2 ^ 32 ≤ 2 ^ 32) :
    muldiv a b m = a * b / m ∧ mulmod a b m = a * b % m :=
  c03_muldivmod_partial a b m hm0 hm ha hb (muldivmodSafe_of_digits a b m hm0 hm ha hb hd)

example : (2 ^ 40 + 5) * 2 ^ (63 - Nat.log2 (2 ^ 40 + 5)) % 2 ^ 32
    + (2 ^ 40 + 5) * 2 ^ (63 - Nat.log2 (2 ^ 40 + 5)) / 2 ^ 32 ≤ 2 ^ 32 := by decide

/-- C03, small multiplier (all table sizes of practical interest in `shuffle_order_engine`): exact for
every modulus. -/
theorem c03_muldivmod_small_partial (a b m : Nat) (hm0 : 0 < m) (hm : m < 2 ^ 64) (ha : a < m)
    (hb : b ≤ 2 ^ 31) : muldiv a b m = a * b / m ∧ mulmod a b m = a * b % m :=
  c03_muldivmod_partial a b m hm0 hm ha (by omega) (muldivmodSafe_of_small a b m hm0 hm ha hb)

example : (12345678901234567890 : Nat) < 18446744073709551557 ∧ (256 : Nat) ≤ 2 ^ 31 := by decide

/-- C03: even where the helper is wrong the quotient is never too large. -/
theorem c03_muldiv_le (a b m : Nat) (hm0 : 0 < m) (hm : m < 2 ^ 64) (ha : a < m) (hb : b < 2 ^ 64) :
    muldiv a b m ≤ a * b / m := muldiv_le a b m hm0 hm ha hb

example : muldiv 18446744073709551556 18446744073709551556 18446744073709551557
    < 18446744073709551556 * 18446744073709551556 / 18446744073709551557 := by decide

/-- C03 is false for the code: `(-1) * (-1)` modulo the prime `2^64 - 59` does not give 1. -/
theorem c03_muldivmod_false : ∃ a b m : Nat, 0 < m ∧ m < 2 ^ 64 ∧ a < m ∧ b < 2 ^ 64 ∧
    muldiv a b m ≠ a * b / m ∧ mulmod a b m ≠ a * b % m :=
  ⟨18446744073709551556, 18446744073709551556, 18446744073709551557, by decide, by decide,
    by decide, by decide, by decide, by decide⟩

/-- C03, the divisor `0` that stands for `2^64` (an engine range covering the whole 64-bit type):
the helper returns the quotient for `a * 2^63` instead of `a`, i.e. only the lowest bit of `a`
matters. -/
theorem c03_muldiv_zero (a b : Nat) (hb : b < 2 ^ 64) :
    muldiv a b 0 = (a % 2) * b / 2 := muldiv_zero a b hb

example : muldiv (2 ^ 64 - 2) 256 0 = 0 := by decide

/-! ## C04 -/

/-- C04: for a modulus fitting the type and `0 < x < m`, inversion terminates without overflow and
returns a `y < m` with `x * y ≡ gcd(x, m)`. -/
theorem c04_invert_gcd (T : IntTy) (m x : Nat) (hT : AnyTy T) (hm : m ≤ T.maxv)
    (hs : m = 0 → T.signed = false) (hx0 : 0 < x) (hx : x < modulus T m) :
    ∃ y, ConstMod.invert T m x = some y ∧ y < modulus T m ∧
      x * y % modulus T m = Nat.gcd x (modulus T m) % modulus T m := by
  obtain ⟨y, h1, h2, h3⟩ := ConstMod.invert_spec T m hT hm hs x hx0 hx
  refine ⟨y, h1, h2, ?_⟩
  have : ((x * y : ℕ) : ℤ) % (modulus T m : ℕ) = ((Nat.gcd x (modulus T m) : ℕ) : ℤ) % (modulus T m : ℕ) := by
    apply Int.emod_eq_emod_iff_emod_sub_eq_zero.2
    apply Int.emod_eq_zero_of_dvd
    push_cast
    rw [mul_comm (x : ℤ) y]
    exact h3
  exact_mod_cast this

example : ConstMod.invert ⟨32, false⟩ 18 4 = some 14 ∧ 4 * 14 % 18 = Nat.gcd 4 18 := by decide

/-- C04: if `x` is relatively prime to the modulus the result is the modular inverse. -/
theorem c04_invert_coprime (T : IntTy) (m x : Nat) (hT : AnyTy T) (hm : m ≤ T.maxv)
    (hs : m = 0 → T.signed = false) (hx0 : 0 < x) (hx : x < modulus T m)
    (hc : Nat.Coprime x (modulus T m)) :
    ∃ y, ConstMod.invert T m x = some y ∧ y < modulus T m ∧
      x * y % modulus T m = 1 % modulus T m := by
  obtain ⟨y, h1, h2, h3⟩ := c04_invert_gcd T m x hT hm hs hx0 hx
  rw [hc] at h3
  exact ⟨y, h1, h2, h3⟩

example : ConstMod.invert ⟨32, true⟩ 2147483647 16807 = some 1407677000 ∧
    16807 * 1407677000 % 2147483647 = 1 := by decide
example : ConstMod.invert ⟨32, false⟩ 0 12345 = some 1440005641 ∧
    12345 * 1440005641 % 2 ^ 32 = 1 := by decide

/-! ## C05 -/

/-- C05: signed subtraction is exact without overflow. -/
theorem c05_subtract_signed (w : Nat) (hw : 1 ≤ w) (x y : Int) (hx : InSigned w x)
    (hy : InSigned w y) (hxy : y ≤ x) : subtractSigned w x y = some (x - y).toNat :=
  subtractSigned_spec w hw x y hx hy hxy

example : subtractSigned 32 2147483647 (-2147483648) = some 4294967295 := by decide
example : subtractSigned 32 (-5) (-2147483648) = some 2147483643 := by decide

/-- C05: unsigned subtraction is exact. -/
theorem c05_subtract_unsigned (w x y : Nat) (hx : x < 2 ^ w) (hxy : y ≤ x) :
    subtractUnsigned w x y = x - y := by
  unfold subtractUnsigned
  rw [show x + 2 ^ w - y = (x - y) + 2 ^ w by omega, Nat.add_mod_right, Nat.mod_eq_of_lt (by omega)]

example : subtractUnsigned 64 (2 ^ 64 - 1) 1 = 2 ^ 64 - 2 := by decide

/-- C05: adding an unsigned offset to a signed value is exact without overflow whenever the sum is
representable. -/
theorem c05_add_signed (w1 w2 : Nat) (hw2 : 1 ≤ w2) (hw : w2 - 1 ≤ w1) (x : Nat) (y : Int)
    (hx : x < 2 ^ w1) (hy : InSigned w2 y) (hsum : InSigned w2 (x + y)) :
    addSigned w1 w2 x y = some (x + y) :=
  addSigned_spec w1 w2 hw2 hw x y hx hy hsum

example : addSigned 32 32 4294967295 (-2147483648) = some 2147483647 := by decide
example : addSigned 32 32 5 (-2147483648) = some (-2147483643) := by decide

/-- C05: the same for an unsigned destination. -/
theorem c05_add_unsigned (w2 x y : Nat) (hsum : x + y < 2 ^ w2) : addUnsigned w2 x y = x + y := by
  unfold addUnsigned
  rw [Nat.mod_eq_of_lt (a := x) (by omega), Nat.mod_eq_of_lt hsum]

example : addUnsigned 32 4294967290 5 = 4294967295 := by decide

/-- C05: the same for a signed destination with more digits than the offset type. -/
theorem c05_add_wide (w2 : Nat) (hw2 : 1 ≤ w2) (x : Nat) (y : Int) (hx : (x : Int) < 2 ^ (w2 - 1))
    (hsum : InSigned w2 (x + y)) : addWide w2 x y = some (x + y) := by
  unfold addWide
  rw [toSigned_small w2 x hw2 hx]
  exact signedArith_wrap hw2 hsum

example : addWide 64 4294967295 (-2147483648) = some 2147483647 := by decide

end Boost.Random
