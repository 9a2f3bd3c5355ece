import Verif.Model.LargeArithmetic
import Mathlib.Tactic.Ring
import Mathlib.Tactic.Linarith

namespace Boost.Random

theorem integerLog2Impl_spec (j : Nat) : ∀ (t accum : Nat), 0 < t → t < 2 ^ 2 ^ (j + 1) →
    integerLog2Impl j t accum = Nat.log2 t + accum := by
  induction j with
  | zero =>
    intro t accum h0 h1
    have : t = 1 ∨ t = 2 ∨ t = 3 := by simp at h1; omega
    rcases this with rfl | rfl | rfl <;> simp [integerLog2Impl] <;> decide
  | succ j ih =>
    intro t accum h0 h1
    have hp : (2 : Nat) ^ 2 ^ (j + 1 + 1) = 2 ^ 2 ^ (j + 1) * 2 ^ 2 ^ (j + 1) := by
      rw [← pow_add]; congr 1; ring
    have hpos : 0 < 2 ^ 2 ^ (j + 1) := by positivity
    simp only [integerLog2Impl]
    by_cases hz : t >>> 2 ^ (j + 1) = 0
    · simp only [hz, ne_eq, not_true_eq_false, if_false, Nat.shiftRight_zero, Nat.add_zero]
      apply ih t accum h0
      rw [Nat.shiftRight_eq_div_pow] at hz
      exact (Nat.div_eq_zero_iff_lt hpos).1 hz
    · simp only [ne_eq, hz, not_false_eq_true, if_true]
      have hz' := hz
      rw [Nat.shiftRight_eq_div_pow] at hz'
      rw [ih _ _ (Nat.pos_of_ne_zero hz)]
      · have : t.log2 = (t >>> 2 ^ (j + 1)).log2 + 2 ^ (j + 1) := by
          rw [Nat.log2_eq_iff (by omega), Nat.shiftRight_eq_div_pow]
          set s := 2 ^ (j + 1)
          have hlo := Nat.log2_self_le hz'
          have hhi := Nat.lt_log2_self (n := t / 2 ^ s)
          constructor
          · calc 2 ^ ((t / 2 ^ s).log2 + s) = 2 ^ (t / 2 ^ s).log2 * 2 ^ s := by rw [pow_add]
              _ ≤ t / 2 ^ s * 2 ^ s := Nat.mul_le_mul_right _ hlo
              _ ≤ t := Nat.div_mul_le_self _ _
          · have : t / 2 ^ s + 1 ≤ 2 ^ ((t / 2 ^ s).log2 + 1) := hhi
            calc t < (t / 2 ^ s + 1) * 2 ^ s := by
                  have := Nat.lt_div_mul_add (a := t) hpos
                  rw [Nat.add_mul, Nat.one_mul]; exact this
              _ ≤ 2 ^ ((t / 2 ^ s).log2 + 1) * 2 ^ s := Nat.mul_le_mul_right _ this
              _ = 2 ^ ((t / 2 ^ s).log2 + s + 1) := by rw [← pow_add]; congr 1; ring
        omega
      · rw [Nat.shiftRight_eq_div_pow]
        rw [hp] at h1
        exact Nat.div_lt_of_lt_mul h1

theorem maxPow2LessExp_spec (digits : Nat) : ∀ (fuel j : Nat), digits < j + fuel →
    digits ≤ 2 * 2 ^ maxPow2LessExp digits fuel j := by
  intro fuel
  induction fuel with
  | zero =>
    intro j h
    have : j < 2 ^ j := Nat.lt_two_pow_self
    simp only [maxPow2LessExp]; omega
  | succ n ih =>
    intro j h
    simp only [maxPow2LessExp]
    split
    · exact ih (j + 1) (by omega)
    · omega

theorem integerLog2_eq (digits t : Nat) (h0 : 0 < t) (ht : t < 2 ^ digits) :
    integerLog2 digits t = Nat.log2 t := by
  unfold integerLog2
  rw [integerLog2Impl_spec _ _ _ h0, Nat.add_zero]
  refine lt_of_lt_of_le ht (Nat.pow_le_pow_right (by norm_num) ?_)
  have := maxPow2LessExp_spec digits digits 2 (by omega)
  rw [pow_succ]; omega

theorem mulDigits_spec (a b : Nat) (ha : a < 2 ^ 64) (hb : b < 2 ^ 64) :
    let (p0, p1, p2, p3) := mulDigits a b
    p0 < 2 ^ 32 ∧ p1 < 2 ^ 32 ∧ p2 < 2 ^ 32 ∧ p3 < 2 ^ 32 ∧
      p3 * 2 ^ 96 + p2 * 2 ^ 64 + p1 * 2 ^ 32 + p0 = a * b := by
  simp only [mulDigits, mulDigit]
  generalize ha0 : a % 2 ^ 32 = a0
  generalize ha1 : a / 2 ^ 32 % 2 ^ 32 = a1
  generalize hb0 : b % 2 ^ 32 = b0
  generalize hb1 : b / 2 ^ 32 % 2 ^ 32 = b1
  have a0l : a0 < 2 ^ 32 := by omega
  have a1l : a1 < 2 ^ 32 := by omega
  have b0l : b0 < 2 ^ 32 := by omega
  have b1l : b1 < 2 ^ 32 := by omega
  have hA : a = a1 * 2 ^ 32 + a0 := by omega
  have hB : b = b1 * 2 ^ 32 + b0 := by omega
  have key : ∀ x y : Nat, x < 2 ^ 32 → y < 2 ^ 32 → x * y ≤ (4294967295) * (4294967295) :=
    fun x y hx hy => Nat.mul_le_mul (by omega) (by omega)
  have h00 := key a0 b0 a0l b0l
  have h01 := key a0 b1 a0l b1l
  have h10 := key a1 b0 a1l b0l
  have h11 := key a1 b1 a1l b1l
  have hprod : a * b = a1 * b1 * 2 ^ 64 + (a1 * b0 + a0 * b1) * 2 ^ 32 + a0 * b0 := by
    rw [hA, hB]; ring
  rw [hprod]
  generalize a0 * b0 = x00 at *
  generalize a0 * b1 = x01 at *
  generalize a1 * b0 = x10 at *
  generalize a1 * b1 = x11 at *
  clear key hprod hA hB
  omega

/-- The only situation in which a division step goes wrong: the leading digit equals the leading
digit of the (normalised) modulus and the partial remainder does not fit a digit. -/
def divStepHit (m hi mid : Nat) : Prop := hi = m / 2 ^ 32 ∧ 2 ^ 32 ≤ m / 2 ^ 32 + mid

instance (m hi mid : Nat) : Decidable (divStepHit m hi mid) := by unfold divStepHit; infer_instance

theorem digits_lt (D lo : Nat) (hD : D < 2 ^ 32) (hlo : lo < 2 ^ 32) :
    D * 2 ^ 32 + lo < 2 ^ 64 := by omega

theorem div_finish (m m0 q rem N : Nat) (hm1 : 2 ^ 63 ≤ m) (hm2 : m < 2 ^ 64) (hm0 : m0 < 2 ^ 32)
    (hql : q < 2 ^ 32) (hreml : rem < 2 ^ 64)
    (hN : N + m0 * q = q * m + rem) (hbound : q * m + rem < (q + 1) * m + m0 * q) :
    (let diff := m0 * q
     let error := if diff > rem then (if diff - rem > m then 2 else 1) else 0
     ((q + 2 ^ 32 - error) % 2 ^ 32, (rem + error * m % 2 ^ 64 + 2 ^ 64 - diff) % 2 ^ 64)) =
      (N / m, N % m) := by
  have hdiff : m0 * q ≤ (4294967295) * (4294967295) := Nat.mul_le_mul (by omega) (by omega)
  simp only
  have hq0 : q = 0 → m0 * q = 0 := by rintro rfl; simp
  have hq1 : q = 1 → m0 * q = m0 := by rintro rfl; simp
  generalize hdf : m0 * q = diff at *
  have fin : ∀ q' R : Nat, R < m → N = q' * m + R → (N / m, N % m) = (q', R) := by
    intro q' R hR hNR
    have h1 : N / m = q' := by
      rw [hNR, Nat.add_comm, Nat.mul_comm, Nat.add_mul_div_left _ _ (by omega), Nat.div_eq_of_lt hR]
      omega
    have h2 : N % m = R := by
      rw [hNR, Nat.add_comm, Nat.mul_comm, Nat.add_mul_mod_self_left, Nat.mod_eq_of_lt hR]
    rw [h1, h2]
  by_cases h1 : diff > rem
  · simp only [h1, if_true]
    by_cases h2 : diff - rem > m
    · simp only [h2, if_true]
      have hq2 : 2 ≤ q := by
        rcases Nat.lt_or_ge q 2 with h | h
        · have : q = 0 ∨ q = 1 := by omega
          rcases this with h | h
          · have := hq0 h; omega
          · have := hq1 h; omega
        · exact h
      obtain ⟨q2, rfl⟩ : ∃ q2, q = q2 + 2 := ⟨q - 2, by omega⟩
      rw [fin q2 (rem + 2 * m - diff) (by omega) (by
        have : (q2 + 2) * m = q2 * m + 2 * m := by ring
        omega)]
      ext <;> simp only <;> omega
    · simp only [h2, if_false]
      have hq2 : 1 ≤ q := by
        rcases Nat.eq_zero_or_pos q with h | h
        · have := hq0 h; omega
        · exact h
      obtain ⟨q2, rfl⟩ : ∃ q2, q = q2 + 1 := ⟨q - 1, by omega⟩
      rw [fin q2 (rem + m - diff) (by omega) (by
        have : (q2 + 1) * m = q2 * m + m := by ring
        omega)]
      ext <;> simp only <;> omega
  · simp only [h1, if_false]
    rw [fin q (rem - diff) (by
        have : (q + 1) * m = q * m + m := by ring
        omega) (by omega)]
    ext <;> simp only <;> omega

theorem divStep_exact (m hi mid lo : Nat) (hm1 : 2 ^ 63 ≤ m) (hm2 : m < 2 ^ 64)
    (hmid : mid < 2 ^ 32) (hlo : lo < 2 ^ 32) (hlt : hi * 2 ^ 32 + mid < m)
    (hnohit : ¬ divStepHit m hi mid) :
    divStep m hi mid lo =
      ((hi * 2 ^ 64 + mid * 2 ^ 32 + lo) / m, (hi * 2 ^ 64 + mid * 2 ^ 32 + lo) % m) := by
  unfold divStepHit at hnohit
  generalize hm0d : m % 2 ^ 32 = m0
  generalize hm1d : m / 2 ^ 32 = m1 at *
  have hm0l : m0 < 2 ^ 32 := by omega
  have hM : m = m1 * 2 ^ 32 + m0 := by omega
  have hm1l : 2 ^ 31 ≤ m1 := by omega
  have hm1u : m1 < 2 ^ 32 := by omega
  have hhi : hi ≤ m1 := by omega
  obtain ⟨temp, htemp⟩ : ∃ t, t = hi * 2 ^ 32 + mid := ⟨_, rfl⟩
  obtain ⟨q, D, hq, hqD, hDl, hql, hbound⟩ : ∃ q D : Nat,
      (if hi = m1 then 4294967295 else temp / m1 % 2 ^ 32) = q ∧ temp = q * m1 + D ∧ D < 2 ^ 32 ∧
      q < 2 ^ 32 ∧ (q * m + D * 2 ^ 32 + lo < (q + 1) * m + m0 * q) := by
    by_cases h : hi = m1
    · refine ⟨4294967295, m1 + mid, by simp [h], ?_, ?_, by norm_num, ?_⟩
      · rw [htemp, h]; omega
      · have : ¬ 2 ^ 32 ≤ m1 + mid := fun h' => hnohit ⟨h, h'⟩
        omega
      · have : mid < m0 := by omega
        omega
    · have hlt' : hi < m1 := by omega
      have hq : temp / m1 < 2 ^ 32 := by
        apply Nat.div_lt_of_lt_mul
        have : m1 * 2 ^ 32 ≥ (hi + 1) * 2 ^ 32 := Nat.mul_le_mul_right _ hlt'
        omega
      have hdm : m1 * (temp / m1) + temp % m1 = temp := Nat.div_add_mod _ _
      have hml : temp % m1 < m1 := Nat.mod_lt _ (by omega)
      refine ⟨temp / m1, temp % m1, ?_, ?_, by omega, hq, ?_⟩
      · rw [if_neg h, Nat.mod_eq_of_lt hq]
      · rw [Nat.mul_comm]; exact hdm.symm
      · have hmul : (temp / m1 + 1) * m = temp / m1 * m + m := by ring
        rw [hmul]
        have := Nat.zero_le (m0 * (temp / m1))
        omega
  have hN : hi * 2 ^ 64 + mid * 2 ^ 32 + lo + m0 * q = q * m + (D * 2 ^ 32 + lo) := by
    have e1 : hi * 2 ^ 64 + mid * 2 ^ 32 = temp * 2 ^ 32 := by rw [htemp]; ring
    rw [e1, hqD, hM]; ring
  simp only [divStep]
  rw [hm0d, hm1d, ← htemp, hq]
  have hsub : (temp + 2 ^ 64 - q * m1) % 2 ^ 64 = D := by
    have : temp + 2 ^ 64 - q * m1 = D + 2 ^ 64 := by omega
    rw [this]; omega
  rw [hsub]
  have hrem : (D * 2 ^ 32 + lo) % 2 ^ 64 = D * 2 ^ 32 + lo := Nat.mod_eq_of_lt (digits_lt D lo hDl hlo)
  rw [hrem]
  exact div_finish m m0 q (D * 2 ^ 32 + lo) _ hm1 hm2 hm0l hql
    (digits_lt D lo hDl hlo) hN (by rw [← Nat.add_assoc]; exact hbound)

theorem hit_aux (hi mid lo m0 : Nat) (hm0 : m0 < 2 ^ 32) (hmid : mid < m0) (hlo : lo < 2 ^ 32)
    (h : 2 ^ 32 ≤ hi + mid) :
    4294967295 * (hi * 2 ^ 32 + m0) ≤ hi * 2 ^ 64 + mid * 2 ^ 32 + lo ∧
    hi * 2 ^ 64 + mid * 2 ^ 32 + lo < (4294967295 + 1) * (hi * 2 ^ 32 + m0) := by
  omega

theorem hit_aux2 (hi mid lo m0 : Nat) (hm0 : m0 < 2 ^ 32) (hmid : mid < m0) (hlo : lo < 2 ^ 32)
    (hhi : hi < 2 ^ 32) (h : 2 ^ 32 ≤ hi + mid) :
    m0 * 4294967295 > (hi + mid - 2 ^ 32) * 2 ^ 32 + lo := by
  omega

/-- In the overflow situation the quotient digit is always too small. -/
theorem divStep_hit_lt (m hi mid lo : Nat) (hm1 : 2 ^ 63 ≤ m) (hm2 : m < 2 ^ 64)
    (hmid : mid < 2 ^ 32) (hlo : lo < 2 ^ 32) (hlt : hi * 2 ^ 32 + mid < m)
    (hhit : divStepHit m hi mid) :
    (divStep m hi mid lo).1 < (hi * 2 ^ 64 + mid * 2 ^ 32 + lo) / m := by
  unfold divStepHit at hhit
  generalize hm0d : m % 2 ^ 32 = m0
  generalize hm1d : m / 2 ^ 32 = m1 at *
  obtain ⟨rfl, h⟩ := hhit
  have hM : m = hi * 2 ^ 32 + m0 := by omega
  have hmid' : mid < m0 := by omega
  have hhi : hi < 2 ^ 32 := by omega
  have htrue : (hi * 2 ^ 64 + mid * 2 ^ 32 + lo) / m = 4294967295 := by
    obtain ⟨x, y⟩ := hit_aux hi mid lo m0 (by omega) hmid' hlo h
    rw [← hM] at x y
    exact Nat.div_eq_of_lt_le x y
  rw [htrue]
  simp only [divStep]
  rw [hm0d, hm1d]
  simp only [if_true]
  have e1 : hi * 2 ^ 32 + mid + 2 ^ 64 - (4294967295) * hi = 2 ^ 64 + (hi + mid) := by omega
  have e2 : ((hi * 2 ^ 32 + mid + 2 ^ 64 - (4294967295) * hi) % 2 ^ 64 * 2 ^ 32 + lo) % 2 ^ 64
      = (hi + mid - 2 ^ 32) * 2 ^ 32 + lo := by
    rw [e1]; omega
  rw [e2]
  have hgt := hit_aux2 hi mid lo m0 (by omega) hmid' hlo hhi h
  simp only [hgt, if_true]
  split <;> omega

/-- No division step of `muldivmod a b m` hits the overflow situation. -/
def muldivmodSafe (a b m : Nat) : Prop :=
  let M := m * 2 ^ (63 - Nat.log2 m)
  let N := a * 2 ^ (63 - Nat.log2 m) * b
  ¬ divStepHit M (N / 2 ^ 96) (N / 2 ^ 64 % 2 ^ 32) ∧
  ¬ divStepHit M (N / 2 ^ 32 % M / 2 ^ 32) (N / 2 ^ 32 % M % 2 ^ 32)

instance (a b m : Nat) : Decidable (muldivmodSafe a b m) := by
  unfold muldivmodSafe; infer_instance

theorem normalise (m : Nat) (hm0 : 0 < m) (hm : m < 2 ^ 64) :
    Nat.log2 m ≤ 63 ∧ 2 ^ 63 ≤ m * 2 ^ (63 - Nat.log2 m) ∧ m * 2 ^ (63 - Nat.log2 m) < 2 ^ 64 := by
  have h1 := Nat.log2_self_le (n := m) (by omega)
  have h2 := Nat.lt_log2_self (n := m)
  have h3 : Nat.log2 m ≤ 63 := by
    by_contra h
    have : 2 ^ 64 ≤ 2 ^ Nat.log2 m := Nat.pow_le_pow_right (by norm_num) (by omega)
    omega
  refine ⟨h3, ?_, ?_⟩
  · calc 2 ^ 63 = 2 ^ Nat.log2 m * 2 ^ (63 - Nat.log2 m) := by rw [← pow_add]; congr 1; omega
      _ ≤ _ := Nat.mul_le_mul_right _ h1
  · calc m * 2 ^ (63 - Nat.log2 m) < 2 ^ (Nat.log2 m + 1) * 2 ^ (63 - Nat.log2 m) :=
          Nat.mul_lt_mul_of_pos_right h2 (by positivity)
      _ = 2 ^ 64 := by rw [← pow_add]; congr 1; omega

theorem muldivmod_unfold (a b m : Nat) (hm0 : 0 < m) (hm : m < 2 ^ 64) (ha : a < m)
    (hb : b < 2 ^ 64) :
    let s := 63 - Nat.log2 m
    let M := m * 2 ^ s
    let N := a * 2 ^ s * b
    N < M * 2 ^ 64 ∧
    muldivmod a b m =
      (let r1 := divStep M (N / 2 ^ 96) (N / 2 ^ 64 % 2 ^ 32) (N / 2 ^ 32 % 2 ^ 32)
       let r0 := divStep M (r1.2 / 2 ^ 32) (r1.2 % 2 ^ 32) (N % 2 ^ 32)
       (r1.1 * 2 ^ 32 + r0.1, r0.2 / 2 ^ s)) := by
  intro s M N
  obtain ⟨hl, hM1, hM2⟩ := normalise m hm0 hm
  have haM : a * 2 ^ s < M := Nat.mul_lt_mul_of_pos_right ha (by positivity)
  have hN : N < M * 2 ^ 64 := by
    calc N = a * 2 ^ s * b := rfl
      _ ≤ a * 2 ^ s * 2 ^ 64 := Nat.mul_le_mul_left _ hb.le
      _ < M * 2 ^ 64 := Nat.mul_lt_mul_of_pos_right haM (by positivity)
  refine ⟨hN, ?_⟩
  have hs : 63 - integerLog2 64 m = s := by rw [integerLog2_eq 64 m hm0 hm]
  have hA : a * 2 ^ s % 2 ^ 64 = a * 2 ^ s := Nat.mod_eq_of_lt (lt_trans haM hM2)
  have hMm : m * 2 ^ s % 2 ^ 64 = M := Nat.mod_eq_of_lt hM2
  have hmd := mulDigits_spec (a * 2 ^ s) b (lt_trans haM hM2) hb
  unfold muldivmod
  simp only [hs, hA, hMm]
  rcases hp : mulDigits (a * 2 ^ s) b with ⟨p0, p1, p2, p3⟩
  rw [hp] at hmd
  obtain ⟨h0, h1, h2, h3, hsum⟩ := hmd
  have hMne : M ≠ 0 := by omega
  simp only [hMne, if_false]
  have hNd : N = p3 * 2 ^ 96 + p2 * 2 ^ 64 + p1 * 2 ^ 32 + p0 := hsum.symm
  have e3 : N / 2 ^ 96 = p3 := by omega
  have e2 : N / 2 ^ 64 % 2 ^ 32 = p2 := by omega
  have e1 : N / 2 ^ 32 % 2 ^ 32 = p1 := by omega
  have e0 : N % 2 ^ 32 = p0 := by omega
  rw [e3, e2, e1, e0]

theorem join_digits (r x : Nat) :
    r / 2 ^ 32 * 2 ^ 64 + r % 2 ^ 32 * 2 ^ 32 + x = r * 2 ^ 32 + x := by omega

theorem join_lt (r M : Nat) (h : r < M) : r / 2 ^ 32 * 2 ^ 32 + r % 2 ^ 32 < M := by omega

theorem mod_lt32 (r : Nat) : r % 2 ^ 32 < 2 ^ 32 := Nat.mod_lt _ (by norm_num)

theorem muldivmod_exact (a b m : Nat) (hm0 : 0 < m) (hm : m < 2 ^ 64) (ha : a < m)
    (hb : b < 2 ^ 64) (hsafe : muldivmodSafe a b m) :
    muldivmod a b m = (a * b / m, a * b % m) := by
  obtain ⟨hN, hu⟩ := muldivmod_unfold a b m hm0 hm ha hb
  obtain ⟨hl, hM1, hM2⟩ := normalise m hm0 hm
  obtain ⟨hs1, hs0⟩ := hsafe
  rw [hu]
  have hNab : a * 2 ^ (63 - m.log2) * b = a * b * 2 ^ (63 - m.log2) := by ring
  have hfin : a * b / m = a * b * 2 ^ (63 - m.log2) / (m * 2 ^ (63 - m.log2)) :=
    (Nat.mul_div_mul_right _ _ (by positivity)).symm
  have hfin2 : a * b % m = a * b * 2 ^ (63 - m.log2) % (m * 2 ^ (63 - m.log2)) / 2 ^ (63 - m.log2) := by
    rw [Nat.mul_mod_mul_right, Nat.mul_div_cancel _ (by positivity)]
  rw [hfin, hfin2, ← hNab]
  generalize m * 2 ^ (63 - m.log2) = M at *
  generalize a * 2 ^ (63 - m.log2) * b = N at *
  have hlt1 : N / 2 ^ 96 * 2 ^ 32 + N / 2 ^ 64 % 2 ^ 32 < M := by omega
  rw [divStep_exact M _ _ (N / 2 ^ 32 % 2 ^ 32) hM1 hM2 (by omega) (by omega) hlt1 hs1]
  have hA : N / 2 ^ 96 * 2 ^ 64 + N / 2 ^ 64 % 2 ^ 32 * 2 ^ 32 + N / 2 ^ 32 % 2 ^ 32 = N / 2 ^ 32 := by
    omega
  rw [hA]
  have hr : N / 2 ^ 32 % M < M := Nat.mod_lt _ (by omega)
  simp only
  generalize hrd : N / 2 ^ 32 % M = r at *
  rw [divStep_exact M _ _ (N % 2 ^ 32) hM1 hM2 (mod_lt32 _) (mod_lt32 _) (join_lt r M hr) hs0]
  have hB := join_digits r (N % 2 ^ 32)
  rw [hB]
  simp only
  have hdm : M * (N / 2 ^ 32 / M) + r = N / 2 ^ 32 := by rw [← hrd]; exact Nat.div_add_mod _ _
  have hNN : N = M * (N / 2 ^ 32 / M * 2 ^ 32) + (r * 2 ^ 32 + N % 2 ^ 32) := by
    have : M * (N / 2 ^ 32 / M * 2 ^ 32) = M * (N / 2 ^ 32 / M) * 2 ^ 32 := by ring
    rw [this]; omega
  have hMpos : 0 < M := lt_of_lt_of_le (by norm_num) hM1
  have h1 : N / M = N / 2 ^ 32 / M * 2 ^ 32 + (r * 2 ^ 32 + N % 2 ^ 32) / M := by
    conv_lhs => rw [hNN]
    rw [Nat.mul_add_div hMpos]
  have h2 : N % M = (r * 2 ^ 32 + N % 2 ^ 32) % M := by
    conv_lhs => rw [hNN]
    rw [Nat.mul_add_mod]
  rw [h1, h2]

theorem digits_lt_div (x y n : Nat) (h : x < n / 2 ^ 32) (hy : y < 2 ^ 32) : x * 2 ^ 32 + y < n := by
  omega

theorem muldiv_lt (a b m : Nat) (hm0 : 0 < m) (hm : m < 2 ^ 64) (ha : a < m)
    (hb : b < 2 ^ 64) (hns : ¬ muldivmodSafe a b m) : (muldivmod a b m).1 < a * b / m := by
  obtain ⟨hN, hu⟩ := muldivmod_unfold a b m hm0 hm ha hb
  obtain ⟨hl, hM1, hM2⟩ := normalise m hm0 hm
  unfold muldivmodSafe at hns
  rw [hu]
  have hNab : a * 2 ^ (63 - m.log2) * b = a * b * 2 ^ (63 - m.log2) := by ring
  have hfin : a * b / m = a * b * 2 ^ (63 - m.log2) / (m * 2 ^ (63 - m.log2)) :=
    (Nat.mul_div_mul_right _ _ (by positivity)).symm
  rw [hfin, ← hNab]
  simp only at hns ⊢
  generalize m * 2 ^ (63 - m.log2) = M at *
  generalize a * 2 ^ (63 - m.log2) * b = N at *
  have hlt1 : N / 2 ^ 96 * 2 ^ 32 + N / 2 ^ 64 % 2 ^ 32 < M := by omega
  have hA : N / 2 ^ 96 * 2 ^ 64 + N / 2 ^ 64 % 2 ^ 32 * 2 ^ 32 + N / 2 ^ 32 % 2 ^ 32 = N / 2 ^ 32 := by
    omega
  have hq0 : ∀ x y z, (divStep M x y z).1 < 2 ^ 32 := by
    intro x y z; simp only [divStep]; exact Nat.mod_lt _ (by norm_num)
  have hdd : N / 2 ^ 32 / M = N / M / 2 ^ 32 := by
    rw [Nat.div_div_eq_div_mul, Nat.div_div_eq_div_mul, Nat.mul_comm]
  by_cases h1 : divStepHit M (N / 2 ^ 96) (N / 2 ^ 64 % 2 ^ 32)
  · have hw := divStep_hit_lt M _ _ (N / 2 ^ 32 % 2 ^ 32) hM1 hM2 (by omega) (by omega) hlt1 h1
    rw [hA, hdd] at hw
    have := hq0 ((divStep M (N / 2 ^ 96) (N / 2 ^ 64 % 2 ^ 32) (N / 2 ^ 32 % 2 ^ 32)).2 / 2 ^ 32)
      ((divStep M (N / 2 ^ 96) (N / 2 ^ 64 % 2 ^ 32) (N / 2 ^ 32 % 2 ^ 32)).2 % 2 ^ 32) (N % 2 ^ 32)
    exact digits_lt_div _ _ _ hw this
  · have h0 : divStepHit M (N / 2 ^ 32 % M / 2 ^ 32) (N / 2 ^ 32 % M % 2 ^ 32) := by
      by_contra h; exact hns ⟨h1, h⟩
    rw [divStep_exact M _ _ (N / 2 ^ 32 % 2 ^ 32) hM1 hM2 (by omega) (by omega) hlt1 h1, hA]
    simp only
    have hr : N / 2 ^ 32 % M < M := Nat.mod_lt _ (by omega)
    generalize hrd : N / 2 ^ 32 % M = r at *
    have hw := divStep_hit_lt M (r / 2 ^ 32) (r % 2 ^ 32) (N % 2 ^ 32) hM1 hM2 (mod_lt32 _)
      (mod_lt32 _) (join_lt r M hr) h0
    have hB := join_digits r (N % 2 ^ 32)
    rw [hB] at hw
    have hdm : M * (N / 2 ^ 32 / M) + r = N / 2 ^ 32 := by rw [← hrd]; exact Nat.div_add_mod _ _
    have hNN : N = M * (N / 2 ^ 32 / M * 2 ^ 32) + (r * 2 ^ 32 + N % 2 ^ 32) := by
      have : M * (N / 2 ^ 32 / M * 2 ^ 32) = M * (N / 2 ^ 32 / M) * 2 ^ 32 := by ring
      rw [this]; omega
    have hMpos : 0 < M := by omega
    have h1 : N / M = N / 2 ^ 32 / M * 2 ^ 32 + (r * 2 ^ 32 + N % 2 ^ 32) / M := by
      conv_lhs => rw [hNN]
      rw [Nat.mul_add_div hMpos]
    rw [h1]
    exact Nat.add_lt_add_left hw _

/-- The quotient is never too large. -/
theorem muldiv_le (a b m : Nat) (hm0 : 0 < m) (hm : m < 2 ^ 64) (ha : a < m) (hb : b < 2 ^ 64) :
    (muldivmod a b m).1 ≤ a * b / m := by
  by_cases h : muldivmodSafe a b m
  · rw [muldivmod_exact a b m hm0 hm ha hb h]
  · exact (muldiv_lt a b m hm0 hm ha hb h).le

theorem muldiv_wrong (a b m : Nat) (hm0 : 0 < m) (hm : m < 2 ^ 64) (ha : a < m)
    (hb : b < 2 ^ 64) (hns : ¬ muldivmodSafe a b m) : (muldivmod a b m).1 ≠ a * b / m :=
  (muldiv_lt a b m hm0 hm ha hb hns).ne

/-- A small multiplier never hits the overflow. -/
theorem muldivmodSafe_of_small (a b m : Nat) (hm0 : 0 < m) (hm : m < 2 ^ 64) (ha : a < m)
    (hb : b ≤ 2 ^ 31) : muldivmodSafe a b m := by
  obtain ⟨hl, hM1, hM2⟩ := normalise m hm0 hm
  unfold muldivmodSafe divStepHit
  simp only
  have haM : a * 2 ^ (63 - m.log2) < m * 2 ^ (63 - m.log2) :=
    Nat.mul_lt_mul_of_pos_right ha (by positivity)
  generalize m * 2 ^ (63 - m.log2) = M at *
  generalize a * 2 ^ (63 - m.log2) = A at *
  have hN : A * b ≤ A * 2 ^ 31 := Nat.mul_le_mul_left _ hb
  generalize A * b = N at *
  rw [Nat.mod_eq_of_lt (show N / 2 ^ 32 < M by omega)]
  omega

/-- A modulus whose normalised digits add up to at most `2^32` never hits the overflow. -/
theorem muldivmodSafe_of_digits (a b m : Nat) (hm0 : 0 < m) (hm : m < 2 ^ 64) (ha : a < m)
    (hb : b < 2 ^ 64)
    (hd : m * 2 ^ (63 - Nat.log2 m) % 2 ^ 32 + m * 2 ^ (63 - Nat.log2 m) / 2 ^ 32 ≤ 2 ^ 32) :
    muldivmodSafe a b m := by
  obtain ⟨hN, -⟩ := muldivmod_unfold a b m hm0 hm ha hb
  obtain ⟨hl, hM1, hM2⟩ := normalise m hm0 hm
  unfold muldivmodSafe divStepHit
  simp only
  generalize m * 2 ^ (63 - m.log2) = M at *
  generalize a * 2 ^ (63 - m.log2) * b = N at *
  have hlt1 : N / 2 ^ 96 * 2 ^ 32 + N / 2 ^ 64 % 2 ^ 32 < M := by omega
  have hr : N / 2 ^ 32 % M < M := Nat.mod_lt _ (by omega)
  generalize hrd : N / 2 ^ 32 % M = r at *
  omega

theorem muldiv_zero_aux (p0 p1 p2 p3 z : Nat) (h0 : p0 < 2 ^ 32) (h1 : p1 < 2 ^ 32)
    (h : p3 * 2 ^ 96 + p2 * 2 ^ 64 + p1 * 2 ^ 32 + p0 = z * 2 ^ 63) :
    p3 * 2 ^ 32 + p2 = z / 2 := by
  symm
  apply Nat.div_eq_of_lt_le
  · apply Nat.le_of_mul_le_mul_right (c := 2 ^ 63) _ (by norm_num)
    rw [← h]; nlinarith
  · apply Nat.lt_of_mul_lt_mul_right (a := 2 ^ 63)
    rw [← h]; nlinarith

theorem muldiv_zero (a b : Nat) (hb : b < 2 ^ 64) :
    muldiv a b 0 = (a % 2) * b / 2 := by
  have hs : 63 - integerLog2 64 0 = 63 := by decide
  have hA : a * 2 ^ 63 % 2 ^ 64 = (a % 2) * 2 ^ 63 := by omega
  have hmd := mulDigits_spec (a % 2 * 2 ^ 63) b (by omega) hb
  unfold muldiv muldivmod
  simp only [hs, hA, Nat.zero_mul, Nat.zero_mod, if_true]
  rcases hp : mulDigits (a % 2 * 2 ^ 63) b with ⟨p0, p1, p2, p3⟩
  rw [hp] at hmd
  obtain ⟨h0, h1, h2, h3, hsum⟩ := hmd
  simp only
  have : a % 2 * 2 ^ 63 * b = (a % 2 * b) * 2 ^ 63 := by ring
  rw [this] at hsum
  exact muldiv_zero_aux p0 p1 p2 p3 (a % 2 * b) h0 h1 hsum

end Boost.Random
