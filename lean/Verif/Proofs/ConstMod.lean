import Verif.Spec.Arith
import Verif.Proofs.LargeArithmetic
import Mathlib.Data.Nat.Bitwise

namespace Boost.Random
open Spec

namespace IntTy
variable (T : IntTy)

theorem maxv_lt (hT : AnyTy T) : T.maxv < 2 ^ T.bits := by
  have h1 : 0 < 2 ^ T.bits := by positivity
  have h2 : (2:Nat) ^ (T.bits - 1) ≤ 2 ^ T.bits := Nat.pow_le_pow_right (by norm_num) (by omega)
  unfold maxv; split <;> omega

theorem maxv_le64 (hT : AnyTy T) : T.maxv < 2 ^ 64 :=
  lt_of_lt_of_le (maxv_lt T hT) (Nat.pow_le_pow_right (by norm_num) hT.2)

theorem fit_of_le (hT : AnyTy T) {v : Nat} (h : v ≤ T.maxv) : T.fit v = some v := by
  have := maxv_lt T hT
  unfold fit
  split
  · rfl
  · rw [Nat.mod_eq_of_lt (by omega)]

theorem maxv_lt16 (hT : AnyTy T) (h : T.bits ≤ 16) : T.maxv < 2 ^ 16 :=
  lt_of_lt_of_le (maxv_lt T hT) (Nat.pow_le_pow_right (by norm_num) h)

theorem arith_of_le (hT : AnyTy T) {v : Nat} (h : v ≤ T.maxv) : T.arith v = some v := by
  unfold arith
  split
  · next hb => have := maxv_lt16 T hT hb; rw [if_pos (by omega)]
  · exact fit_of_le T hT h

theorem add_of_le (hT : AnyTy T) {x y : Nat} (h : x + y ≤ T.maxv) : T.add x y = some (x + y) := by
  unfold add; rw [arith_of_le T hT h]; exact fit_of_le T hT h

theorem mul_of_le (hT : AnyTy T) {x y : Nat} (h : x * y ≤ T.maxv) : T.mul x y = some (x * y) := by
  unfold mul; rw [arith_of_le T hT h]; exact fit_of_le T hT h

/-- A sum or product of moderate size, stored in an unsigned type. -/
theorem arith_fit (hs : T.signed = false) {v : Nat} (h : T.bits ≤ 16 → v < 2 ^ 31) :
    (T.arith v).bind T.fit = some (v % 2 ^ T.bits) := by
  unfold arith
  split
  · next hb => rw [if_pos (h hb)]; simp [fit, hs]
  · simp [fit, hs]

theorem sub_of_le (hT : AnyTy T) {x y : Nat} (hx : x ≤ T.maxv) (h : y ≤ x) :
    T.sub x y = some (x - y) := by
  have := maxv_lt T hT
  unfold sub
  split
  · rfl
  · rw [Nat.add_comm, Nat.add_sub_assoc h, Nat.add_mod_left, Nat.mod_eq_of_lt (by omega)]

theorem div_of_pos {x y : Nat} (h : 0 < y) : T.div x y = some (x / y) := by
  unfold div; rw [if_neg (by omega)]

theorem mod_of_pos {x y : Nat} (h : 0 < y) : T.mod x y = some (x % y) := by
  unfold mod; rw [if_neg (by omega)]

end IntTy

namespace ConstMod
variable (T : IntTy) (m : Nat)

/-- Facts about the mask path: the modulus is a power of two dividing the word size. -/
theorem isMask_iff (hT : AnyTy T) (hm : m ≤ T.maxv) (h : isMask T m = true) :
    ∃ k, k ≤ T.bits ∧ modulus T m = 2 ^ k ∧ maskM T m = 2 ^ k - 1 := by
  have hb := IntTy.maxv_lt T hT
  unfold modulus
  rcases Nat.eq_zero_or_pos m with rfl | hpos
  · cases hs : T.signed
    · refine ⟨T.bits, le_refl _, ?_, ?_⟩
      · have : 0 < 2 ^ T.bits := by positivity
        simp [IntTy.maxv, hs]; omega
      · have : 0 < 2 ^ T.bits := by positivity
        have h1 : T.maxv + 1 = 2 ^ T.bits := by simp [IntTy.maxv, hs]; omega
        simp only [maskM, unsignedM, if_true, h1, Nat.mod_self, Nat.zero_add]
        exact Nat.mod_eq_of_lt (by omega)
    · have h0 : 0 < 2 ^ (T.bits - 1) := by positivity
      have h1 : T.maxv + 1 = 2 ^ (T.bits - 1) := by simp [IntTy.maxv, hs]; omega
      refine ⟨T.bits - 1, by omega, ?_, ?_⟩
      · simp [h1]
      · have h2 : (2:Nat) ^ (T.bits - 1) < 2 ^ T.bits :=
          Nat.pow_lt_pow_right (by norm_num) (by have := hT.1; omega)
        simp only [maskM, unsignedM, if_true, h1]
        rw [Nat.mod_eq_of_lt h2, Nat.add_comm, Nat.add_sub_assoc (by omega), Nat.add_mod_left,
          Nat.mod_eq_of_lt (by omega)]
  · have hne : m ≠ 0 := by omega
    have hmask : maskM T m = m - 1 := by
      simp only [maskM, unsignedM, if_neg hne]
      rw [Nat.add_comm, Nat.add_sub_assoc (by omega), Nat.add_mod_left, Nat.mod_eq_of_lt (by omega)]
    simp only [isMask, unsignedM, if_neg hne, beq_iff_eq] at h
    rw [hmask, Nat.land_comm] at h
    obtain ⟨k, hk⟩ := (Nat.and_sub_one_eq_zero_iff_isPowerOfTwo hne).1 h
    refine ⟨k, ?_, by rw [if_neg hne, hk], by rw [hmask, hk]⟩
    by_contra hc
    have : 2 ^ T.bits ≤ 2 ^ k := Nat.pow_le_pow_right (by norm_num) (by omega)
    omega

theorem mask_red (hT : AnyTy T) (hm : m ≤ T.maxv) (h : isMask T m = true) (v : Nat) :
    (v % 2 ^ T.bits) &&& maskM T m = v % modulus T m := by
  obtain ⟨k, hk, h1, h2⟩ := isMask_iff T m hT hm h
  rw [h1, h2, Nat.and_two_pow_sub_one_eq_mod]
  exact Nat.mod_mod_of_dvd _ (pow_dvd_pow 2 hk)

theorem not_isMask (hT : AnyTy T) (hm : m ≤ T.maxv) (h : isMask T m = false) :
    3 ≤ m ∧ ¬ ∃ k, m = 2 ^ k := by
  have hb := IntTy.maxv_lt T hT
  have hp : m ≠ 0 := by
    rintro rfl
    cases hs : T.signed
    · have : 0 < 2 ^ T.bits := by positivity
      have h1 : T.maxv + 1 = 2 ^ T.bits := by simp [IntTy.maxv, hs]; omega
      simp [isMask, unsignedM, h1] at h
    · have h1 : T.maxv + 1 = 2 ^ (T.bits - 1) := by
        have h0 : 0 < 2 ^ (T.bits - 1) := by positivity
        simp [IntTy.maxv, hs]; omega
      have h2 : (2:Nat) ^ (T.bits - 1) < 2 ^ T.bits :=
        Nat.pow_lt_pow_right (by norm_num) (by have := hT.1; omega)
      have h0 : 0 < 2 ^ (T.bits - 1) := by positivity
      have h3 : maskM T 0 = 2 ^ (T.bits - 1) - 1 := by
        simp only [maskM, unsignedM, if_true, h1]
        rw [Nat.mod_eq_of_lt h2, Nat.add_comm, Nat.add_sub_assoc (by omega), Nat.add_mod_left,
          Nat.mod_eq_of_lt (by omega)]
      have h4 : unsignedM T 0 = 2 ^ (T.bits - 1) := by simp [unsignedM, h1, Nat.mod_eq_of_lt h2]
      have : isMask T 0 = true := by
        simp only [isMask, h3, h4, beq_iff_eq]
        rw [Nat.land_comm]
        exact (Nat.and_sub_one_eq_zero_iff_isPowerOfTwo (by omega)).2 ⟨_, rfl⟩
      rw [this] at h; exact absurd h (by simp)
  have hnp : ¬ ∃ k, m = 2 ^ k := by
    intro hk
    have hmask : maskM T m = m - 1 := by
      simp only [maskM, unsignedM, if_neg hp]
      rw [Nat.add_comm, Nat.add_sub_assoc (by omega), Nat.add_mod_left, Nat.mod_eq_of_lt (by omega)]
    have h4 : unsignedM T m = m := by simp [unsignedM, hp]
    have : isMask T m = true := by
      simp only [isMask, hmask, h4, beq_iff_eq]
      rw [Nat.land_comm]
      exact (Nat.and_sub_one_eq_zero_iff_isPowerOfTwo hp).2 hk
    rw [this] at h; exact absurd h (by simp)
  refine ⟨?_, hnp⟩
  have h1 : m ≠ 1 := fun h1 => hnp ⟨0, by simp [h1]⟩
  have h2 : m ≠ 2 := fun h1 => hnp ⟨1, by simp [h1]⟩
  omega

theorem modulus_pos : 0 < modulus T m := by unfold modulus; split <;> omega

theorem modulus_of_pos (h : 0 < m) : modulus T m = m := by
  unfold modulus; rw [if_neg (by omega)]

/-- The mask applied to a sum or product that does not overflow `int`. -/
theorem masked_spec (hT : AnyTy T) (hm : m ≤ T.maxv) (h : isMask T m = true) (v : Nat) (hv : T.bits ≤ 16 → v < 2 ^ 31) :
    masked T m v = some (v % modulus T m) := by
  unfold masked
  rw [if_neg (fun h' => by have := hv h'.1; omega), mask_red T m hT hm h]

/-- A residue of a type promoted to `int`. -/
theorem modulus_le16 (hT : AnyTy T) (hm : m ≤ T.maxv) (h : T.bits ≤ 16) : modulus T m ≤ 2 ^ 16 := by
  have := IntTy.maxv_lt16 T hT h
  unfold modulus; split <;> omega

theorem modulus_le15 (hT : ArithTy T m) (hm : m ≤ T.maxv) (h : isMask T m = true) (hb : T.bits ≤ 16) :
    modulus T m ≤ 2 ^ 15 := by
  obtain ⟨k, hk, h1, -⟩ := isMask_iff T m hT hm h
  have h16 := modulus_le16 T m hT hm hb
  have hne := hT.2 hb
  rw [h1] at h16 hne ⊢
  have hk16 : k ≤ 16 := (Nat.pow_le_pow_iff_right (by norm_num)).1 h16
  have : k ≠ 16 := fun h => hne (by rw [h])
  exact Nat.pow_le_pow_right (by norm_num) (by omega)

/-- The largest value that `mult` and `mult_add` compute for a modulus of a type promoted to `int`. -/
theorem product_lt (hT : ArithTy T m) (hm : m ≤ T.maxv) (h : isMask T m = true) (hb : T.bits ≤ 16) {a x c : Nat}
    (ha : a < modulus T m) (hx : x < modulus T m) (hc : c < modulus T m) : a * x + c < 2 ^ 31 := by
  have hM := modulus_le15 T m hT hm h hb
  have : a * x ≤ 2 ^ 15 * 2 ^ 15 := Nat.mul_le_mul (by omega) (by omega)
  omega

theorem apply_spec (hT : AnyTy T) (hm : m ≤ T.maxv) (x : Nat) (hx : x ≤ T.maxv) :
    apply T m x = some (x % modulus T m) := by
  unfold apply
  cases h : isMask T m
  · obtain ⟨h3, _⟩ := not_isMask T m hT hm h
    simp only [Bool.false_eq_true, if_false]
    rw [IntTy.mod_of_pos T (by omega), modulus_of_pos T m (by omega)]
  · simp only [if_true]
    rw [← mask_red T m hT hm h, Nat.mod_eq_of_lt (lt_of_le_of_lt hx (IntTy.maxv_lt T hT))]

theorem add_spec (hT : AnyTy T) (hm : m ≤ T.maxv) (x c : Nat) (hx : x < modulus T m)
    (hc : c < modulus T m) : add T m x c = some ((x + c) % modulus T m) := by
  unfold add
  cases h : isMask T m
  · obtain ⟨h3, _⟩ := not_isMask T m hT hm h
    rw [modulus_of_pos T m (by omega)] at *
    simp only [Bool.false_eq_true, if_false]
    split
    · next h0 => rw [h0, Nat.add_zero, Nat.mod_eq_of_lt hx]
    · rw [IntTy.sub_of_le T hT hm hc.le]
      simp only [Option.bind_eq_bind, Option.bind_some]
      split
      · rw [IntTy.add_of_le T hT (by omega), Nat.mod_eq_of_lt (by omega)]
      · rw [IntTy.sub_of_le T hT (by omega) (by omega)]
        congr 1
        rw [Nat.mod_eq_sub_mod (by omega), Nat.mod_eq_of_lt (by omega)]
        omega
  · simp only [if_true]
    exact masked_spec T m hT hm h _ fun hb => by have := modulus_le16 T m hT hm hb; omega

theorem schrage_arith (m a v : Nat) (ha : 0 < a) (ham : a < m) (hr : m % a < m / a) (hv : v < m) :
    a * (v % (m / a)) < m ∧ (m % a) * (v / (m / a)) < m ∧
    (a * v : ℤ) = m * (v / (m / a) : ℕ) + (a * (v % (m / a)) : ℕ) - ((m % a) * (v / (m / a)) : ℕ) := by
  have hdm : a * (m / a) + m % a = m := Nat.div_add_mod m a
  have hra : m % a < a := Nat.mod_lt _ ha
  generalize m / a = q at *
  generalize m % a = r at *
  have hq : 0 < q := by omega
  have hvd : q * (v / q) + v % q = v := Nat.div_add_mod v q
  have hvm : v % q < q := Nat.mod_lt _ hq
  have hvl : v / q ≤ a := by
    rw [← Nat.lt_succ_iff]
    apply Nat.div_lt_of_lt_mul
    rw [Nat.mul_succ, Nat.mul_comm q a]; omega
  generalize v / q = d at *
  generalize v % q = e at *
  refine ⟨?_, ?_, ?_⟩
  · calc a * e < a * q := Nat.mul_lt_mul_of_pos_left hvm ha
      _ ≤ m := by omega
  · calc r * d ≤ r * a := Nat.mul_le_mul_left _ hvl
      _ < q * a := Nat.mul_lt_mul_of_pos_right hr ha
      _ ≤ m := by rw [Nat.mul_comm]; omega
  · have e1 : (m : ℤ) = a * q + r := by exact_mod_cast hdm.symm
    have e2 : (v : ℤ) = q * d + e := by exact_mod_cast hvd.symm
    rw [e1, e2]; push_cast; ring

theorem multSchrage_spec (hT : AnyTy T) (hm : m ≤ T.maxv) (a v : Nat) (ha : 0 < a) (ham : a < m)
    (hr : m % a < m / a) (hv : v < m) : multSchrage T m a v = some (a * v % m) := by
  obtain ⟨h1, h2, h3⟩ := schrage_arith m a v ha ham hr hv
  have hq : 0 < m / a := by omega
  unfold multSchrage
  rw [IntTy.div_of_pos T ha, IntTy.mod_of_pos T ha]
  simp only [Option.bind_eq_bind, Option.bind_some]
  rw [IntTy.mod_of_pos T hq, IntTy.div_of_pos T hq]
  simp only [Option.bind_some]
  rw [IntTy.mul_of_le T hT (by omega), IntTy.mul_of_le T hT (by omega)]
  simp only [Option.bind_some]
  generalize a * (v % (m / a)) = s at *
  generalize (m % a) * (v / (m / a)) = t at *
  generalize v / (m / a) = d at *
  have key : ∀ R : Nat, R < m → (∃ k : ℤ, (a * v : ℤ) = m * k + R) → a * v % m = R := by
    rintro R hR ⟨k, hk⟩
    have : ((a * v % m : ℕ) : ℤ) = R := by
      push_cast
      rw [hk, Int.add_comm, Int.add_mul_emod_self_left]
      exact Int.emod_eq_of_lt (by omega) (by exact_mod_cast hR)
    exact_mod_cast this
  unfold sub
  split
  · next hlt =>
    rw [IntTy.sub_of_le T hT (by omega) (by omega)]
    simp only [Option.bind_eq_bind, Option.bind_some]
    rw [IntTy.sub_of_le T hT hm (by omega), key (m - (t - s)) (by omega)]
    refine ⟨d - 1, ?_⟩
    rw [h3]; push_cast [Nat.cast_sub (show t - s ≤ m by omega), Nat.cast_sub hlt.le]; ring
  · next hlt =>
    rw [IntTy.sub_of_le T hT (by omega) (by omega), key (s - t) (by omega)]
    refine ⟨d, ?_⟩
    rw [h3]; push_cast [Nat.cast_sub (show t ≤ s by omega)]; ring

theorem multGeneral_spec (hT : AnyTy T) (hm : m ≤ T.maxv) (hw : WideOK m) (h3 : 3 ≤ m)
    (hnp : ¬ ∃ k, m = 2 ^ k) (a b : Nat) (ha : a < m) (hb : b < m) :
    multGeneral m a b = some (a * b % m) := by
  have h64 : m < 2 ^ 64 := lt_of_le_of_lt hm (IntTy.maxv_le64 T hT)
  unfold multGeneral
  rw [if_neg (by omega)]
  split
  · next h =>
    rw [Nat.le_div_iff_mul_le (by omega)] at h
    have : a * b < 2 ^ 64 := by
      calc a * b ≤ m * m := Nat.mul_le_mul ha.le hb.le
        _ < 2 ^ 64 := by omega
    rw [Nat.mod_eq_of_lt this]
  · next h =>
    rw [Nat.le_div_iff_mul_le (by omega)] at h
    rcases hw with hw | hw | hw
    · exfalso
      have hne : m ≠ 2 ^ 32 := fun h => hnp ⟨32, h⟩
      have : m * m ≤ (2 ^ 32 - 1) * (2 ^ 32 - 1) := Nat.mul_le_mul (by omega) (by omega)
      norm_num at this h
      omega
    · exact absurd hw hnp
    · unfold mulmod
      rw [muldivmod_exact a b m (by omega) h64 ha (by omega)
        (muldivmodSafe_of_digits a b m (by omega) h64 ha (by omega) hw)]

theorem mult_spec (hT : ArithTy T m) (hm : m ≤ T.maxv) (hw : WideOK m) (a x : Nat)
    (ha : a < modulus T m) (hx : x < modulus T m) :
    mult T m a x = some (a * x % modulus T m) := by
  unfold mult
  cases h : isMask T m
  · obtain ⟨h3, hnp⟩ := not_isMask T m hT hm h
    rw [modulus_of_pos T m (by omega)] at *
    simp only [Bool.false_eq_true, if_false]
    split
    · next h0 => simp [h0]
    split
    · next h1 => simp [h1, Nat.mod_eq_of_lt hx]
    split
    · next h2 =>
      rw [Nat.le_div_iff_mul_le (by omega)] at h2
      unfold multSmall
      have : a * x ≤ T.maxv := by
        calc a * x ≤ a * m := Nat.mul_le_mul_left _ hx.le
          _ ≤ _ := by rw [Nat.mul_comm]; exact h2
      rw [IntTy.arith_of_le T hT this]
      simp only [Option.bind_eq_bind, Option.bind_some]
      rw [IntTy.mod_of_pos T (by omega)]
    split
    · next h4 => exact multSchrage_spec T m hT hm a x (by omega) ha h4.2 hx
    · exact multGeneral_spec T m hT hm hw h3 hnp a x ha hx
  · simp only [if_true]
    exact masked_spec T m hT hm h _ fun hb => by have := product_lt T m hT hm h hb ha hx (modulus_pos T m); omega

theorem multAdd_spec (hT : ArithTy T m) (hm : m ≤ T.maxv) (hw : WideOK m) (a x c : Nat)
    (ha : a < modulus T m) (hx : x < modulus T m) (hc : c < modulus T m) :
    multAdd T m a x c = some ((a * x + c) % modulus T m) := by
  unfold multAdd
  cases h : isMask T m
  · obtain ⟨h3, hnp⟩ := not_isMask T m hT hm h
    simp only [Bool.false_eq_true, if_false]
    split
    · next h0 => simp [h0, Nat.mod_eq_of_lt hc]
    split
    · next h2 =>
      rw [modulus_of_pos T m (by omega)] at *
      rw [Nat.le_div_iff_mul_le (by omega)] at h2
      have : a * x ≤ a * m := Nat.mul_le_mul_left _ hx.le
      rw [Nat.mul_comm m a] at h2
      rw [IntTy.arith_of_le T hT (by omega)]
      simp only [Option.bind_eq_bind, Option.bind_some]
      rw [IntTy.arith_of_le T hT (by omega)]
      simp only [Option.bind_some]
      rw [IntTy.mod_of_pos T (by omega)]
    · rw [mult_spec T m hT hm hw a x ha hx]
      simp only [Option.bind_eq_bind, Option.bind_some]
      rw [add_spec T m hT hm _ _ (Nat.mod_lt _ (modulus_pos T m)) hc, Nat.mod_add_mod]
  · simp only [if_true]
    exact masked_spec T m hT hm h _ fun hb => product_lt T m hT hm h hb ha hx hc

theorem powLoop_spec (hT : ArithTy T m) (hm : m ≤ T.maxv) (hw : WideOK m) (e : Nat) :
    ∀ r a : Nat, r < modulus T m → a < modulus T m →
      powLoop T m r a e = some (r * a ^ e % modulus T m) := by
  induction e using Nat.strong_induction_on with
  | _ e ih =>
    intro r a hr ha
    have hM := modulus_pos T m
    rw [powLoop]
    split
    · next h => simp [h, Nat.mod_eq_of_lt hr]
    · next h =>
      rw [mult_spec T m hT hm hw r a hr ha, mult_spec T m hT hm hw a a ha ha]
      by_cases hodd : e % 2 = 1
      · simp only [hodd, if_true, Option.bind_eq_bind, Option.bind_some]
        rw [ih (e / 2) (by omega) _ _ (Nat.mod_lt _ hM) (Nat.mod_lt _ hM)]
        congr 1
        have he : e = 2 * (e / 2) + 1 := by omega
        conv_rhs => rw [he, pow_succ, pow_mul]
        rw [Nat.mul_mod, Nat.mod_mod, Nat.pow_mod, Nat.mod_mod, ← Nat.pow_mod, ← Nat.mul_mod]
        congr 1; ring
      · simp only [hodd, if_false, Option.bind_eq_bind, Option.bind_some]
        rw [ih (e / 2) (by omega) _ _ hr (Nat.mod_lt _ hM)]
        congr 1
        have he : e = 2 * (e / 2) := by omega
        conv_rhs => rw [he, pow_mul]
        rw [Nat.mul_mod, Nat.pow_mod, Nat.mod_mod, ← Nat.pow_mod, ← Nat.mul_mod]
        congr 2; ring

/-- Exact value of `pow`: the initial `result = 1` is not reduced, so `m = 1` differs. -/
theorem pow_spec (hT : ArithTy T m) (hm : m ≤ T.maxv) (hw : WideOK m) (a e : Nat) (h1 : 1 < modulus T m)
    (ha : a < modulus T m) : pow T m a e = some (a ^ e % modulus T m) := by
  unfold pow
  rw [powLoop_spec T m hT hm hw e 1 a h1 ha, Nat.one_mul]

/-- Invariant of the extended Euclid loop. `M` is the modulus, `c` the number to invert. -/
structure EuclidInv (M c l1 l2 n p : Nat) : Prop where
  det : n * l1 + p * l2 = M
  c2 : (M : ℤ) ∣ (l2 : ℤ) * c - n
  c1 : (M : ℤ) ∣ (l1 : ℤ) * c + p
  g : Nat.gcd n p = Nat.gcd c M

theorem EuclidInv.pHalf {M c l1 l2 n p : Nat} (h : EuclidInv M c l1 l2 n p) :
    EuclidInv M c (l1 + p / n * l2) l2 n (p - p / n * n) := by
  have hle : p / n * n ≤ p := Nat.div_mul_le_self p n
  refine ⟨?_, h.c2, ?_, ?_⟩
  · have := h.det
    zify [hle] at this ⊢
    rw [← this]; ring
  · have e : ((l1 + p / n * l2 : ℕ) : ℤ) * c + ((p - p / n * n : ℕ) : ℤ)
        = ((l1 : ℤ) * c + p) + (p / n : ℕ) * ((l2 : ℤ) * c - n) := by
      push_cast [hle]; ring
    rw [e]
    exact Int.dvd_add h.c1 (Dvd.dvd.mul_left h.c2 _)
  · rw [← h.g]
    have : p - p / n * n = p % n := by
      have := Nat.div_add_mod p n
      rw [Nat.mul_comm] at this; omega
    rw [this, Nat.gcd_comm n (p % n), ← Nat.gcd_rec]

theorem EuclidInv.nHalf {M c l1 l2 n p : Nat} (h : EuclidInv M c l1 l2 n p) :
    EuclidInv M c l1 (l2 + n / p * l1) (n - n / p * p) p := by
  have hle : n / p * p ≤ n := Nat.div_mul_le_self n p
  refine ⟨?_, ?_, h.c1, ?_⟩
  · have := h.det
    zify [hle] at this ⊢
    rw [← this]; ring
  · have e : ((l2 + n / p * l1 : ℕ) : ℤ) * c - ((n - n / p * p : ℕ) : ℤ)
        = ((l2 : ℤ) * c - n) + (n / p : ℕ) * ((l1 : ℤ) * c + p) := by
      push_cast [hle]; ring
    rw [e]
    exact Int.dvd_add h.c2 (Dvd.dvd.mul_left h.c1 _)
  · rw [← h.g]
    have : n - n / p * p = n % p := by
      have := Nat.div_add_mod n p
      rw [Nat.mul_comm] at this; omega
    rw [this, ← Nat.gcd_rec, Nat.gcd_comm]

/-- How the template argument `m` represents the modulus `M`. -/
def Represents (T : IntTy) (m M : Nat) : Prop :=
  (m = M ∧ M ≤ T.maxv) ∨ (m = 0 ∧ T.signed = false ∧ M = 2 ^ T.bits)

theorem represents_sub (hT : AnyTy T) {M l : Nat} (h : Represents T m M) (hl0 : 0 < l) (hl : l ≤ M) :
    T.sub m l = some (M - l) := by
  rcases h with ⟨rfl, h⟩ | ⟨rfl, hs, rfl⟩
  · exact IntTy.sub_of_le T hT h hl
  · unfold IntTy.sub
    simp only [hs, Bool.false_eq_true, if_false, Nat.zero_add]
    rw [Nat.mod_eq_of_lt (by omega)]

/-- `l1 += q * l2` as two stored operations, for a sum bounded by the modulus. -/
theorem represents_sum (hT : AnyTy T) {M x q y : Nat} (h : Represents T m M) (hv : x + q * y ≤ M) :
    ∃ t s, T.mul q y = some t ∧ T.add x t = some s ∧ (x + q * y < M → s = x + q * y) := by
  rcases h with ⟨rfl, h⟩ | ⟨rfl, hs, rfl⟩
  · exact ⟨q * y, x + q * y, IntTy.mul_of_le T hT (by omega), IntTy.add_of_le T hT (by omega), fun _ => rfl⟩
  · have hb : T.bits ≤ 16 → 2 ^ T.bits ≤ 2 ^ 16 := fun h => Nat.pow_le_pow_right (by norm_num) h
    have hle : q * y % 2 ^ T.bits ≤ q * y := Nat.mod_le _ _
    refine ⟨q * y % 2 ^ T.bits, (x + q * y % 2 ^ T.bits) % 2 ^ T.bits, IntTy.arith_fit T hs fun h => by have := hb h; omega,
      IntTy.arith_fit T hs fun h => by have := hb h; omega, fun h => ?_⟩
    rw [Nat.add_mod_mod, Nat.mod_eq_of_lt h]

/-- The result specification of inversion. -/
def IsInv (M c : Nat) (r : Option Nat) : Prop :=
  ∃ y, r = some y ∧ y < M ∧ (M : ℤ) ∣ (y : ℤ) * c - (Nat.gcd c M : ℕ)

theorem pHalf_final {M c l1 l2 n p : Nat} (hinv : EuclidInv M c l1 l2 n p) (hp : p = 0)
    (hl2 : l2 < M) : IsInv M c (some l2) := by
  refine ⟨l2, rfl, hl2, ?_⟩
  have := hinv.g
  rw [hp, Nat.gcd_zero_right] at this
  rw [← this]; exact hinv.c2

theorem nHalf_final (hT : AnyTy T) {M c l1 l2 n p : Nat} (hr : Represents T m M)
    (hinv : EuclidInv M c l1 l2 n p) (hn : n = 0)
    (hl1 : 0 < l1) (hl1M : l1 ≤ M) : IsInv M c (T.sub m l1) := by
  refine ⟨M - l1, represents_sub T m hT hr hl1 hl1M, by omega, ?_⟩
  have hg := hinv.g
  rw [hn, Nat.gcd_zero_left] at hg
  rw [← hg]
  obtain ⟨k, hk⟩ := hinv.c1
  refine ⟨c - k, ?_⟩
  have e : ((M - l1 : ℕ) : ℤ) * c - p = M * c - ((l1 : ℤ) * c + p) := by
    push_cast [hl1M]; ring
  rw [e, hk]; ring

theorem euclidLoop_spec (hT : AnyTy T) (M c : Nat) (hr : Represents T m M) :
    ∀ (fuel l1 l2 n p : Nat), n < fuel → 0 < n → n < p → 0 < l2 → l2 < M → p ≤ T.maxv →
      EuclidInv M c l1 l2 n p →
      IsInv M c (euclidLoop T m fuel l1 l2 n p) := by
  intro fuel
  induction fuel with
  | zero => intro l1 l2 n p h; omega
  | succ fuel ih =>
    intro l1 l2 n p hf hn hnp hl2 hl2M hpM hinv
    have hp' := hinv.pHalf
    have hq1 : 1 ≤ p / n := Nat.div_pos hnp.le hn
    have hqn : p / n * n ≤ p := Nat.div_mul_le_self p n
    have hmod : p - p / n * n = p % n := by
      have := Nat.div_add_mod p n
      rw [Nat.mul_comm] at this; omega
    have hml : p % n < n := Nat.mod_lt _ hn
    have hl1pos : 0 < l1 + p / n * l2 := by
      have := Nat.mul_pos hq1 hl2; omega
    have hnl : l1 + p / n * l2 ≤ n * (l1 + p / n * l2) := Nat.le_mul_of_pos_left _ hn
    have hl1' : l1 + p / n * l2 ≤ M := by
      have := hp'.det; omega
    obtain ⟨t, l1', ht, hadd, hl1x⟩ := represents_sum T m hT hr hl1'
    unfold euclidLoop
    rw [IntTy.div_of_pos T hn]
    simp only [Option.bind_eq_bind, Option.bind_some]
    rw [ht]
    simp only [Option.bind_some]
    rw [hadd, IntTy.mul_of_le T hT (by omega : p / n * n ≤ T.maxv)]
    simp only [Option.bind_some]
    rw [IntTy.sub_of_le T hT hpM hqn]
    simp only [Option.bind_some]
    rw [hmod] at hp' ⊢
    split
    · next h0 => exact pHalf_final hp' h0 hl2M
    · next h0 =>
      have hp0 : 0 < p % n := by omega
      have hlt : l1 + p / n * l2 < M := by
        have := hp'.det
        have := Nat.mul_pos hp0 hl2
        omega
      rw [hl1x hlt]
      generalize l1 + p / n * l2 = L1 at *
      generalize p % n = P at *
      clear hadd hl1x ht hmod hq1 hqn
      have hn' := hp'.nHalf
      have hqp : n / P * P ≤ n := Nat.div_mul_le_self n P
      have hmod2 : n - n / P * P = n % P := by
        have := Nat.div_add_mod n P
        rw [Nat.mul_comm] at this; omega
      have hml2 : n % P < P := Nat.mod_lt _ hp0
      have hpl : l2 + n / P * L1 ≤ P * (l2 + n / P * L1) := Nat.le_mul_of_pos_left _ hp0
      have hl2' : l2 + n / P * L1 ≤ M := by
        have := hn'.det; omega
      obtain ⟨t2, l2', ht2, hadd2, hl2x⟩ := represents_sum T m hT hr hl2'
      rw [IntTy.div_of_pos T hp0]
      simp only [Option.bind_some]
      rw [ht2]
      simp only [Option.bind_some]
      rw [hadd2, IntTy.mul_of_le T hT (by omega : n / P * P ≤ T.maxv)]
      simp only [Option.bind_some]
      rw [IntTy.sub_of_le T hT (by omega) hqp]
      simp only [Option.bind_some]
      rw [hmod2] at hn' ⊢
      split
      · next h1 => exact nHalf_final T m hT hr hn' h1 hl1pos hl1'
      · next h1 =>
        have hnpos : 0 < n % P := by omega
        have hlt2 : l2 + n / P * L1 < M := by
          have := hn'.det
          have := Nat.mul_pos hnpos hl1pos
          omega
        rw [hl2x hlt2]
        exact ih _ _ _ _ (by omega) hnpos hml2 (by omega) hlt2 (by omega) hn'

theorem invertEuclidian_spec (hT : AnyTy T) (hm : m ≤ T.maxv) (c : Nat) (hc0 : 0 < c) (hc : c < m) :
    IsInv m c (invertEuclidian T m c) := by
  refine euclidLoop_spec T m hT m c (Or.inl ⟨rfl, hm⟩) (c + 1) 0 1 c m (by omega) hc0 hc (by omega)
    (by omega) hm ⟨by omega, by simp, by simp, rfl⟩

theorem invertEuclidian0_spec (hT : AnyTy T) (hs : T.signed = false) (c : Nat) (hc0 : 0 < c)
    (hc : c < 2 ^ T.bits) : IsInv (2 ^ T.bits) c (invertEuclidian0 T 0 c) := by
  have hmax : T.maxv = 2 ^ T.bits - 1 := by simp [IntTy.maxv, hs]
  have hr : Represents T 0 (2 ^ T.bits) := Or.inr ⟨rfl, hs, rfl⟩
  have hb2 : 2 ≤ 2 ^ T.bits := by
    have := Nat.pow_le_pow_right (n := 2) (by norm_num) (show 1 ≤ T.bits by have := hT.1; omega)
    omega
  unfold invertEuclidian0
  split
  · next h1 => exact ⟨1, rfl, by omega, by simp [h1]⟩
  · next h1 =>
    have hqc : T.maxv / c * c ≤ T.maxv := Nat.div_mul_le_self _ _
    have hdm : T.maxv - T.maxv / c * c = T.maxv % c := by
      have := Nat.div_add_mod T.maxv c
      rw [Nat.mul_comm] at this; omega
    have hml : T.maxv % c < c := Nat.mod_lt _ hc0
    have hqle : T.maxv / c ≤ T.maxv := Nat.div_le_self _ _
    have hq1 : 1 ≤ T.maxv / c := Nat.div_pos (by omega) hc0
    rw [IntTy.div_of_pos T hc0]
    simp only [Option.bind_eq_bind, Option.bind_some]
    rw [IntTy.mul_of_le T hT (by omega : T.maxv / c * 1 ≤ T.maxv)]
    simp only [Option.bind_some, Nat.mul_one]
    rw [IntTy.add_of_le T hT (by omega : 0 + T.maxv / c ≤ T.maxv),
      IntTy.mul_of_le T hT hqc]
    simp only [Option.bind_some, Nat.zero_add]
    rw [IntTy.sub_of_le T hT (le_refl _) hqc]
    simp only [Option.bind_some]
    rw [hdm, IntTy.add_of_le T hT (by omega)]
    simp only [Option.bind_some]
    rw [if_neg (by omega)]
    have hinv : EuclidInv (2 ^ T.bits) c (T.maxv / c) 1 c (T.maxv % c + 1) := by
      have hM : (2 ^ T.bits) = c * (T.maxv / c) + (T.maxv % c + 1) := by
        have := Nat.div_add_mod T.maxv c
        omega
      refine ⟨by omega, by simp, ?_, ?_⟩
      · refine ⟨1, ?_⟩
        conv_rhs => rw [hM]
        push_cast; ring
      · rw [hM, Nat.gcd_mul_left_add_right]
    generalize T.maxv / c = L1 at *
    generalize hPd : T.maxv % c + 1 = P at *
    have hp0 : 0 < P := by omega
    have hn' := hinv.nHalf
    have hqp : c / P * P ≤ c := Nat.div_mul_le_self c P
    have hmod2 : c - c / P * P = c % P := by
      have := Nat.div_add_mod c P
      rw [Nat.mul_comm] at this; omega
    have hml2 : c % P < P := Nat.mod_lt _ hp0
    have hpl : 1 + c / P * L1 ≤ P * (1 + c / P * L1) := Nat.le_mul_of_pos_left _ hp0
    have hl2' : 1 + c / P * L1 ≤ 2 ^ T.bits := by
      have := hn'.det; omega
    obtain ⟨t2, l2', ht2, hadd2, hl2x⟩ := represents_sum T 0 hT hr hl2'
    rw [IntTy.div_of_pos T hp0]
    simp only [Option.bind_some]
    rw [ht2]
    simp only [Option.bind_some]
    rw [hadd2, IntTy.mul_of_le T hT (by omega : c / P * P ≤ T.maxv)]
    simp only [Option.bind_some]
    rw [IntTy.sub_of_le T hT (by omega) hqp]
    simp only [Option.bind_some]
    rw [hmod2] at hn' ⊢
    split
    · next h1 => exact nHalf_final T 0 hT hr hn' h1 (by omega) (by omega)
    · next h1 =>
      have hnpos : 0 < c % P := by omega
      have hlt2 : 1 + c / P * L1 < 2 ^ T.bits := by
        have := hn'.det
        have := Nat.mul_pos hnpos hq1
        omega
      rw [hl2x hlt2]
      exact euclidLoop_spec T 0 hT _ c hr _ _ _ _ _ (by omega) hnpos hml2 (by omega) hlt2
        (by omega) hn'

theorem invert_spec (hT : AnyTy T) (hm : m ≤ T.maxv) (hs : m = 0 → T.signed = false) (c : Nat)
    (hc0 : 0 < c) (hc : c < modulus T m) : IsInv (modulus T m) c (invert T m c) := by
  unfold invert
  rw [if_neg (by omega)]
  split
  · next h =>
    subst h
    have hM : modulus T 0 = 2 ^ T.bits := by
      have : 0 < 2 ^ T.bits := by positivity
      simp [modulus, IntTy.maxv, hs rfl]; omega
    rw [hM] at hc ⊢
    exact invertEuclidian0_spec T hT (hs rfl) c hc0 hc
  · next h =>
    rw [modulus_of_pos T m (by omega)] at *
    exact invertEuclidian_spec T m hT hm c hc0 hc

end ConstMod
end Boost.Random
