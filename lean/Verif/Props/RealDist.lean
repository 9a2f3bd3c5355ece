import Verif.Proofs.Canonical
import Verif.Proofs.Piecewise

/-!
# Properties C49, C50, C52, C64, C65, C67: distributions with floating-point results
-/

namespace Boost.Random
open Spec RealDist Finset

/-! Engines for the examples: 8 bits, `mt19937`, `mt19937_64`, `ecuyer1988`, and an engine that has all values of `int`. -/
def engByte : EngInfo := ⟨⟨8, false⟩, 0, 255⟩
def engMt : EngInfo := ⟨⟨32, false⟩, 0, 4294967295⟩
def engMt64 : EngInfo := ⟨⟨64, false⟩, 0, 18446744073709551615⟩
def engEcuyer : EngInfo := ⟨⟨32, true⟩, 1, 2147483562⟩
def engInt : EngInfo := ⟨⟨32, true⟩, -2147483648, 2147483647⟩

theorem engByte_ok : EngOK engByte := ⟨by decide, by decide, by decide, by decide⟩
theorem engMt_ok : EngOK engMt := ⟨by decide, by decide, by decide, by decide⟩
theorem engMt64_ok : EngOK engMt64 := ⟨by decide, by decide, by decide, by decide⟩
theorem engEcuyer_ok : EngOK engEcuyer := ⟨by decide, by decide, by decide, by decide⟩
theorem engInt_ok : EngOK engInt := ⟨by decide, by decide, by decide, by decide⟩

/-- There are roundings of every precision. -/
example : Rounding 53 (rn 53) ∧ Nearest 53 (rn 53) := ⟨Nearest.rounding (rn_nearest (by decide)), rn_nearest (by decide)⟩

theorem engineBits_facts {E : EngInfo} (hE : EngOK E) : 1 ≤ engineBits E ∧ 2 ^ engineBits E ≤ E.b ∧ E.b < 2 ^ (engineBits E + 1) ∧
    engineBits E ≤ E.ty.bits ∧ engineBits E = Nat.log2 E.b := by
  have hb2 := UniformInt.EngInfo.b_ge hE
  have hble := EngInfo.b_le hE
  have he : engineBits E = Nat.log2 E.b := by
    unfold engineBits EngInfo.b
    have := hE.lt
    congr 1
    omega
  rw [he]
  have h1 := Nat.log2_self_le (n := E.b) (by omega)
  have h2 := Nat.lt_log2_self (n := E.b)
  refine ⟨?_, h1, h2, ?_, rfl⟩
  · rw [Nat.le_log2 (by omega)]; omega
  · by_contra hlt
    have : 2 ^ E.ty.bits < 2 ^ Nat.log2 E.b := Nat.pow_lt_pow_right (by omega) (by omega)
    omega

/-! ## C49 -/

/-- C49 (partial: the last digit of the fraction is not empty): for an integer of `w` bits and a fraction of any precision, under any
rounding, no undefined shift is evaluated, the integer has `w` bits and the fraction is in `[0, 1)`. Missing: see `c49_shift_false`. -/
theorem c49_bounds_partial (digits w : Nat) (fl : ℚ → ℚ) (H : Rounding digits fl) (hd : 1 ≤ digits) (E : EngInfo) (hE : EngOK E) (hw1 : 1 ≤ w)
    (hw : w ≤ 30) (hsafe : engineBits E - w % engineBits E < digits → ¬ engineBits E ∣ digits + w) (xs : List Int) (hO : Outputs E xs) :
    intFloatPair fl E digits w xs ≠ .ub ∧
      ∀ r k rest, intFloatPair fl E digits w xs = .done (r, k) rest → 0 ≤ r ∧ r < 1 ∧ k < 2 ^ w := by
  obtain ⟨m1, m2, m3, m4, m5⟩ := engineBits_facts hE
  generalize engineBits E = m at *
  rw [intFloatPair_eq H hd hE m1 m2 m3 m4 m5 hw1 hw hsafe xs hO]
  have hs := Nat.mod_lt w (show 0 < m by omega)
  obtain ⟨p1, p2⟩ := pairNat_spec E m (w % m) hs.le (tailWidths m (digits - (m - w % m))) (w / m) 0 xs
  cases hp : pairNat E m (w % m) (tailWidths m (digits - (m - w % m))) (w / m) 0 xs with
  | more => exact ⟨by rintro ⟨⟩, by rintro _ _ _ ⟨⟩⟩
  | ub => exact absurd hp p1
  | done v rest =>
    refine ⟨by rintro ⟨⟩, ?_⟩
    rintro _ _ _ ⟨⟩
    obtain ⟨q1, q2⟩ := p2 v rest hp
    rw [tailWidths_sum] at q1
    rw [Nat.zero_add, one_mul, Nat.div_add_mod] at q2
    suffices h : 0 ≤ fracOf fl digits (m - w % m) v.1 ∧ fracOf fl digits (m - w % m) v.1 < 1 from ⟨h.1, h.2, q2⟩
    unfold fracOf
    split
    · rename_i hle
      rw [show m - w % m + (digits - (m - w % m)) = digits by omega] at q1
      refine ⟨by positivity, ?_⟩
      rw [div_lt_one (by positivity)]
      exact_mod_cast q1
    · rename_i hgt
      rw [show m - w % m + (digits - (m - w % m)) = m - w % m by omega] at q1
      exact bigFrac_range H hd (by omega) q1

/-- The engines and types of the library: `double` with engines of 32, 64, 31 and 24 bits. -/
example : [(engMt, 53), (engMt64, 53), (engEcuyer, 53), (⟨⟨32, false⟩, 0, 16777215⟩, 53), (engMt, 24), (engMt64, 64)].all fun (E, digits) =>
    decide (engineBits E - 8 % engineBits E < digits → ¬ engineBits E ∣ digits + 8) := by decide +kernel
#guard intFloatPair id engMt 53 8 [3141592653, 271828182, 1] = .done (2280260068286579 / 4503599627370496, 77) [1]

/-- C49 is false in general: when the digits of the engine exactly fill the fraction, the code shifts by `0 - 1`. Such are `float` with
an engine of 8 or 16 bits, and `long double` with `ranlux24` or an engine of 8 bits. -/
theorem c49_shift_false (fl : ℚ → ℚ) :
    (∀ xs, xs = List.replicate 4 (100 : Int) → intFloatPair fl engByte 24 8 xs = .ub) ∧
    (∀ xs, xs = List.replicate 2 (1000 : Int) → intFloatPair fl ⟨⟨16, false⟩, 0, 65535⟩ 24 8 xs = .ub) ∧
    (∀ xs, xs = List.replicate 3 (1000 : Int) → intFloatPair fl ⟨⟨32, false⟩, 0, 16777215⟩ 64 8 xs = .ub) := by
  refine ⟨?_, ?_, ?_⟩ <;> rintro _ rfl <;> rfl

/-! ## C67 -/

/-- C67 (partial: the first digit of the fraction is not longer than the precision): every pair of a multiple of `2^-digits` in `[0, 1)`
and an integer below `2^w` comes from the same number of sequences of engine values. Missing: see `c67_first_digit_false`. -/
theorem c67_uniform_partial (digits w : Nat) (fl : ℚ → ℚ) (H : Rounding digits fl) (hd : 1 ≤ digits) (E : EngInfo) (hE : EngOK E) (hw1 : 1 ≤ w)
    (hw : w ≤ 30) (hsafe : engineBits E - w % engineBits E < digits → ¬ engineBits E ∣ digits + w)
    (hfirst : engineBits E - w % engineBits E ≤ digits) (n N k N' k' : Nat) (hN : N < 2 ^ digits) (hk : k < 2 ^ w) (hN' : N' < 2 ^ digits)
    (hk' : k' < 2 ^ w) :
    count E (intFloatPair fl E digits w) n ((N : ℚ) / 2 ^ digits, k) = count E (intFloatPair fl E digits w) n ((N' : ℚ) / 2 ^ digits, k') := by
  obtain ⟨m1, m2, m3, m4, m5⟩ := engineBits_facts hE
  generalize engineBits E = m at *
  have hs := Nat.mod_lt w (show 0 < m by omega)
  rw [count_eq_cnt, count_eq_cnt]
  have key : ∀ N k : Nat, N < 2 ^ digits → k < 2 ^ w → cnt E (intFloatPair fl E digits w) n ((N : ℚ) / 2 ^ digits, k) =
      pairWays E m (w % m) (tailWidths m (digits - (m - w % m))) (w / m) n := by
    intro N k hN hk
    rw [cnt_congr_outputs E hE.lt.le (fun xs hO => intFloatPair_eq H hd hE m1 m2 m3 m4 m5 hw1 hw hsafe xs hO) n]
    have hf : ∀ p : Nat × Nat, (fracOf fl digits (m - w % m) p.1, p.2) = ((p.1 : ℚ) / 2 ^ digits, p.2) := by
      intro p; rw [fracOf, if_pos hfirst]
    simp only [hf]
    rw [cnt_map E (pairNat E m (w % m) (tailWidths m (digits - (m - w % m))) (w / m) 0) (fun p : Nat × Nat => ((p.1 : ℚ) / 2 ^ digits, p.2)) (N, k)
      (fun xs a rest _ _ h => by
        rw [Prod.mk.injEq] at h
        obtain ⟨h1, h2⟩ := h
        rw [div_left_inj' (by positivity)] at h1
        exact Prod.ext (by exact_mod_cast h1) h2) hE.lt.le n,
      cnt_pairNat hE.lt.le hs.le m2 _ (tailWidths_le (by omega)) _ _ _ _ _ (by
        rw [tailWidths_sum, show m - w % m + (digits - (m - w % m)) = digits by omega]; exact hN), if_pos]
    rw [Nat.div_add_mod]
    exact Nat.div_eq_of_lt hk
  rw [key N k hN hk, key N' k' hN' hk']

/-! A pair that needs two values of `mt19937` comes from one of the sequences of two values, so the counts are not all zero. -/
#guard intFloatPair id engMt 53 8 [256, 1] = .done (16777217 / 9007199254740992, 0) []
example : engineBits engMt = 32 ∧ engineBits engMt64 = 64 := by decide +kernel

/-- C67 is false for longer first digits: with `mt19937_64` and `double` the pair never has the fraction `2^-53`, under any rounding, since
the code clears one bit where it means to clear all bits below it; it has the fraction `0`. -/
theorem c67_first_digit_false (fl : ℚ → ℚ) (H : Rounding 53 fl) (k : Nat) (n : Nat) :
    count engMt64 (intFloatPair fl engMt64 53 8) n (1 / 2 ^ 53, k) = 0 ∧ 0 < count engMt64 (intFloatPair fl engMt64 53 8) 1 (0, 0) := by
  obtain ⟨m1, m2, m3, m4, m5⟩ := engineBits_facts engMt64_ok
  have he : engineBits engMt64 = 64 := by decide +kernel
  rw [he] at m1 m2 m3 m4 m5
  have heq : ∀ xs, Outputs engMt64 xs → _ := fun xs hO => intFloatPair_eq H (by decide) engMt64_ok m1 m2 m3 m4 m5 (w := 8) (by decide) (by decide) (by decide) xs hO
  have hw0 : tailWidths 64 (53 - (64 - 8 % 64)) = [] := by decide
  constructor
  · rw [count_eq_cnt]
    apply cnt_eq_zero engMt64_ok.lt.le
    intro xs hO h
    rw [heq xs hO] at h
    cases hp : pairNat engMt64 64 (8 % 64) (tailWidths 64 (53 - (64 - 8 % 64))) (8 / 64) 0 xs with
    | more => rw [hp] at h; cases h
    | ub => rw [hp] at h; cases h
    | done v rest =>
      rw [hp] at h
      simp only [Draw.map, Draw.done.injEq, Prod.mk.injEq] at h
      obtain ⟨⟨h1, _⟩, _⟩ := h
      rw [fracOf, if_neg (by decide), bigFrac] at h1
      rw [show 64 - 8 % 64 = 56 by decide, show 56 - 53 = 3 by decide] at h1
      have hfe : ∀ c : Nat, c < 2 ^ 53 → fl (fl (c : ℚ) * (1 / 2 ^ 56)) = (c : ℚ) / 2 ^ 56 := by
        intro c hc
        rw [fl_nat H hc, mul_one_div, fl_scaled H hc]
      have hcb : clearBit v.1 3 < 8 ∨ 16 ≤ clearBit v.1 3 := by
        unfold clearBit
        rw [Nat.testBit_eq_decide_div_mod_eq]
        by_cases hb : v.1 / 2 ^ 3 % 2 = 1
        · rw [if_pos (by simpa using hb)]; omega
        · rw [if_neg (by simpa using hb)]; omega
      rcases hcb with hc | hc
      · rw [hfe _ (by omega), div_eq_div_iff (by norm_num) (by norm_num)] at h1
        have h2 : (clearBit v.1 3 : ℚ) = 8 := by linarith
        have : clearBit v.1 3 = 8 := by exact_mod_cast h2
        omega
      · have h2 : fl (fl ((16 : Nat) : ℚ) * (1 / 2 ^ 56)) ≤ fl (fl (clearBit v.1 3 : ℚ) * (1 / 2 ^ 56)) := by
          apply H.mono
          exact mul_le_mul_of_nonneg_right (H.mono _ _ (by exact_mod_cast hc)) (by norm_num)
        rw [hfe 16 (by norm_num), h1] at h2
        norm_num at h2
  · rw [count_eq_cnt]
    have h : intFloatPair fl engMt64 53 8 [0] = .done (0, 0) [] := by
      have hO : Outputs engMt64 [0] := by intro z hz; rw [List.mem_singleton.1 hz]; decide
      rw [heq _ hO, hw0]
      have : pairNat engMt64 64 (8 % 64) [] (8 / 64) 0 [0] = .done (0, 0) [] := by decide +kernel
      rw [this]
      simp only [Draw.map]
      rw [fracOf, if_neg (by decide), bigFrac]
      simp [clearBit, fl_zero H]
    exact UniformInt.cnt_pos _ [0] (by intro z hz; rw [List.mem_singleton.1 hz]; decide) _ h

/-! ## C50 -/

/-- C50 (partial: the differences of engine values fit their type): in exact arithmetic, for `0 < p ≤ 1`, one engine value is read, and
exactly `⌊p * R⌋ + 1` of the `R + 1` values give `true`. Missing: see `c50_signed_false`. -/
theorem c50_count_partial (E : EngInfo) (hE : EngOK E) (hD : DiffOK E) (p : ℚ) (hp : 0 < p) (hp1 : p ≤ 1) :
    count E (bernoulli id E p) 1 true = ⌊p * ((E.max - E.min : Int) : ℚ)⌋₊ + 1 ∧
      ∀ x xs, E.min ≤ x → x ≤ E.max → ∃ b, bernoulli id E p (x :: xs) = .done b xs := by
  have hR : (0 : ℚ) ≤ ((E.max - E.min : Int) : ℚ) := by
    have := hE.lt
    exact_mod_cast (by omega : (0 : Int) ≤ E.max - E.min)
  refine ⟨bernoulli_count hE hD hp (fun n _ => rfl) (mul_nonneg hp.le hR) ?_, fun x xs h1 h2 => ⟨_, bernoulli_cons hE hD hp.ne' ⟨h1, h2⟩ xs⟩⟩
  calc p * ((E.max - E.min : Int) : ℚ) ≤ 1 * ((E.max - E.min : Int) : ℚ) := mul_le_mul_of_nonneg_right hp1 hR
    _ = _ := one_mul _

/-- C50 (partial as above): the probability of `true` is `p` up to the resolution of the engine. -/
theorem c50_error_partial (E : EngInfo) (hE : EngOK E) (hD : DiffOK E) (p : ℚ) (hp : 0 < p) (hp1 : p ≤ 1) :
    |(count E (bernoulli id E p) 1 true : ℚ) / ((E.max - E.min : Int) + 1 : ℚ) - p| ≤ 1 / ((E.max - E.min : Int) + 1 : ℚ) := by
  rw [(c50_count_partial E hE hD p hp hp1).1]
  have hR : (0 : ℚ) ≤ ((E.max - E.min : Int) : ℚ) := by
    have := hE.lt
    exact_mod_cast (by omega : (0 : Int) ≤ E.max - E.min)
  generalize ((E.max - E.min : Int) : ℚ) = R at *
  have hpR : 0 ≤ p * R := mul_nonneg hp.le hR
  have h1 := Nat.floor_le hpR
  have h2 := Nat.lt_floor_add_one (p * R)
  have h3 : (0 : ℚ) < R + 1 := by linarith
  have e : ((⌊p * R⌋₊ + 1 : Nat) : ℚ) / (R + 1) - p = ((⌊p * R⌋₊ + 1 : Nat) - p * (R + 1)) / (R + 1) := by
    rw [sub_div, mul_div_cancel_right₀ _ h3.ne']
  rw [e, abs_div, abs_of_pos h3]
  apply div_le_div_of_nonneg_right _ h3.le
  push_cast
  rw [abs_le]
  constructor <;> nlinarith

example : DiffOK engMt ∧ DiffOK engEcuyer := ⟨fun h => absurd h (by decide), fun _ => by decide⟩
#guard count ⟨⟨8, false⟩, 1, 6⟩ (bernoulli id ⟨⟨8, false⟩, 1, 6⟩ (1 / 3)) 1 true = 2

/-- C50 (partial as above): under any rounding, `p = 1` always gives `true`. -/
theorem c50_one_partial (digits : Nat) (fl : ℚ → ℚ) (H : Rounding digits fl) (E : EngInfo) (hE : EngOK E) (hD : DiffOK E) (x : Int)
    (h1 : E.min ≤ x) (h2 : x ≤ E.max) (xs : List Int) : bernoulli fl E 1 (x :: xs) = .done true xs := by
  rw [bernoulli_cons hE hD one_ne_zero ⟨h1, h2⟩, one_mul, fl_fl H]
  have : fl ((x - E.min : Int) : ℚ) ≤ fl ((E.max - E.min : Int) : ℚ) := H.mono _ _ (by exact_mod_cast (by omega : x - E.min ≤ E.max - E.min))
  rw [decide_eq_true this]

example : bernoulli (rn 24) engMt 1 [4294967295, 7] = .done true [7] :=
  c50_one_partial 24 (rn 24) (Nearest.rounding (rn_nearest (by decide))) engMt engMt_ok (by intro h; cases h) _ (by decide) (by decide) _

/-- C50 (partial as above): if the engine values are exact in the floating-point type, then the only error is that of one product. -/
theorem c50_rounded_partial (digits : Nat) (fl : ℚ → ℚ) (H : Rounding digits fl) (E : EngInfo) (hE : EngOK E) (hD : DiffOK E)
    (hex : E.max - E.min < 2 ^ digits) (p : ℚ) (hp : 0 < p) (hp1 : p ≤ 1) :
    count E (bernoulli fl E p) 1 true = ⌊fl (p * ((E.max - E.min : Int) : ℚ))⌋₊ + 1 := by
  have hlt := hE.lt
  obtain ⟨R, hR⟩ : ∃ R : Nat, (R : Int) = E.max - E.min := ⟨(E.max - E.min).toNat, by omega⟩
  have hnat : ∀ n : Nat, (n : ℤ) ≤ E.max - E.min → fl n = n := by
    intro n hn
    exact fl_nat H (by have : (n : Int) < 2 ^ digits := by omega
                       exact_mod_cast this)
  have hfR : fl ((E.max - E.min : Int) : ℚ) = ((E.max - E.min : Int) : ℚ) := by
    rw [← hR]
    have := hnat R (by omega)
    exact_mod_cast this
  have hR0 : (0 : ℚ) ≤ ((E.max - E.min : Int) : ℚ) := by exact_mod_cast (by omega : (0 : Int) ≤ E.max - E.min)
  refine bernoulli_count hE hD hp hnat (fl_nonneg H (mul_nonneg hp.le hR0)) ?_
  conv_rhs => rw [← hfR]
  apply H.mono
  calc p * ((E.max - E.min : Int) : ℚ) ≤ 1 * ((E.max - E.min : Int) : ℚ) := mul_le_mul_of_nonneg_right hp1 hR0
    _ = _ := one_mul _

example : engMt.max - engMt.min < 2 ^ 53 := by decide

/-- C50: `p = 0` gives `false` without reading the engine. -/
theorem c50_zero (fl : ℚ → ℚ) (E : EngInfo) (xs : List Int) : bernoulli fl E 0 xs = .done false xs := by unfold bernoulli; rw [if_pos rfl]

example : bernoulli id engMt 0 [5] = .done false [5] := c50_zero _ _ _

/-- C50 is false for engines whose differences overflow: the code subtracts in the type of the engine. -/
theorem c50_signed_false (fl : ℚ → ℚ) (p : ℚ) (hp : p ≠ 0) : EngOK engInt ∧ bernoulli fl engInt p [0] = .ub ∧ uniform01 fl engInt [0] = .ub := by
  refine ⟨engInt_ok, ?_, rfl⟩
  unfold bernoulli
  rw [if_neg hp]
  rfl

/-! ## C64 -/

/-- C64 (partial: the engine has the minimum 0, and a power of two values or so many that one value is enough): under any rounding the result
is in `[0, 1)`. Missing: see `c64_ecuyer_false`. -/
theorem c64_range_partial (digits bits : Nat) (fl : ℚ → ℚ) (H : Rounding digits fl) (hd : 1 ≤ digits) (E : EngInfo) (hE : EngOK E) (h0 : E.min = 0)
    (hcase : (∃ m, E.max + 1 = 2 ^ m) ∨ (2 : Int) ^ Nat.min bits digits ≤ E.max) : DrawsIn E (canonical fl E digits bits) 0 1 := by
  have hcase' : (∃ m, E.b = 2 ^ m) ∨ (2 : Int) ^ Nat.min bits digits ≤ E.max := by
    refine hcase.imp ?_ id
    rintro ⟨m, hm⟩
    refine ⟨m, ?_⟩
    have hlt := hE.lt
    have : ((E.b : Nat) : Int) = 2 ^ m := by rw [← hm]; unfold EngInfo.b; omega
    exact_mod_cast this
  intro xs hO
  obtain ⟨i1, i2⟩ := canonicalImpl_range H hd hE h0 bits hcase' xs hO
  unfold canonical
  cases hc : canonicalImpl fl E digits bits xs with
  | more => exact ⟨by rintro ⟨⟩, by rintro _ _ ⟨⟩⟩
  | ub => exact absurd hc i1
  | done v rest =>
    refine ⟨by rintro ⟨⟩, ?_⟩
    rintro _ _ ⟨⟩
    obtain ⟨a, b, c⟩ := i2 v rest hc
    obtain ⟨f1, f2⟩ := fixup H hd a b
    exact ⟨f1, f2, c⟩

example : (∃ m, engMt.max + 1 = 2 ^ m) ∧ (∃ m, engMt64.max + 1 = 2 ^ m) ∧ (2 : Int) ^ Nat.min 24 24 ≤ engMt.max := ⟨⟨32, by decide⟩, ⟨64, by decide⟩, by decide⟩
#guard canonical (rn 24) engMt 24 24 [4294967295, 3] = .done (16777215 / 16777216) [3]

/-- C64, in exact arithmetic, for every engine: the result is in `[0, 1)`. -/
theorem c64_exact (digits bits : Nat) (E : EngInfo) (hE : EngOK E) : DrawsIn E (canonical id E digits bits) 0 1 := by
  intro xs hO
  unfold canonical
  cases xs with
  | nil => exact ⟨by rintro ⟨⟩, by rintro _ _ ⟨⟩⟩
  | cons x xs =>
    have hx := hO x (by simp)
    have hlt := hE.lt
    have hb : ((E.max : ℚ) - E.min) + 1 = E.b := by
      have : E.max - E.min + 1 = ((E.b : Nat) : Int) := by unfold EngInfo.b; omega
      exact_mod_cast this
    have hd : (dig E x : ℚ) + 1 ≤ E.b := by exact_mod_cast dig_lt hx
    obtain ⟨i1, i2⟩ := canonicalLoop_exact hE (2 ^ Nat.min bits digits) xs (dig E x) E.b (fun z hz => hO z (by simp [hz])) (by positivity) hd
    have hc : canonicalImpl id E digits bits (x :: xs) = canonicalLoop id E E.b (2 ^ Nat.min bits digits) xs (dig E x) E.b := by
      unfold canonicalImpl
      simp only
      rw [EngInfo.diff_eq hE hx]
      simp only [id]
      rw [hb]
    rw [hc]
    cases hl : canonicalLoop id E E.b (2 ^ Nat.min bits digits) xs (dig E x) E.b with
    | more => exact ⟨by rintro ⟨⟩, by rintro _ _ ⟨⟩⟩
    | ub => exact absurd hl i1
    | done v rest =>
      refine ⟨by rintro ⟨⟩, ?_⟩
      rintro _ _ ⟨⟩
      obtain ⟨a, b, c⟩ := i2 v rest hl
      rw [if_neg b.ne]
      exact ⟨a, b, c.trans (List.suffix_cons _ _)⟩

#guard canonical id engEcuyer 53 53 [2147483562, 2147483562, 1] = .done (4611685649060207843 / 4611685649060207844) [1]

/-- C64 is false for `ecuyer1988` and `double`, under every rounding to nearest: two greatest values give `1 + 2^-52`, which the correction
does not catch. (With assertions enabled the program stops.) -/
theorem c64_ecuyer_false (fl : ℚ → ℚ) (H : Nearest 53 fl) :
    canonical fl engEcuyer 53 53 [2147483562, 2147483562] = .done (4503599627370497 / 4503599627370496) [] := by
  have R := Nearest.rounding H
  have hn : ∀ n : Nat, n < 2 ^ 53 → fl (n : ℚ) = n := fun n h => fl_nat R h
  have e0 : engEcuyer.diff 2147483562 = some 2147483561 := by decide +kernel
  have n1 : fl (2147483562 : ℚ) = 2147483562 := by exact_mod_cast hn 2147483562 (by norm_num)
  have n2 : fl (2147483561 : ℚ) = 2147483561 := by exact_mod_cast hn 2147483561 (by norm_num)
  have n3 : fl (1 : ℚ) = 1 := by exact_mod_cast hn 1 (by norm_num)
  have r1 : fl (2147483561 * 2147483562) = 4611685646912724480 := by
    have := nearest_eq H (x := 2147483561 * 2147483562) 9007198529126415 9 (by norm_num) (by norm_num) (by norm_num [abs_lt])
    rw [this]; norm_num
  have r2 : fl (2147483561 + 4611685646912724480) = 4611685649060208128 := by
    have := nearest_eq H (x := 2147483561 + 4611685646912724480) 9007198533320719 9 (by norm_num) (by norm_num) (by norm_num [abs_lt])
    rw [this]; norm_num
  have r3 : fl (2147483562 * 2147483562) = 4611685649060207616 := by
    have := nearest_eq H (x := 2147483562 * 2147483562) 9007198533320718 9 (by norm_num) (by norm_num) (by norm_num [abs_lt])
    rw [this]; norm_num
  have r4 : fl (4611685649060208128 / 4611685649060207616) = 4503599627370497 / 4503599627370496 := by
    have := nearest_eq H (x := 4611685649060208128 / 4611685649060207616) 4503599627370497 (-52) (by norm_num) (by norm_num) (by norm_num [abs_lt])
    rw [this]; norm_num
  have c1 : ((engEcuyer.max : Int) : ℚ) = 2147483562 := rfl
  have c2 : ((engEcuyer.min : Int) : ℚ) = 1 := rfl
  unfold canonical canonicalImpl
  simp only [e0, c1, c2]
  rw [n1, n3, show (2147483562 - 1 : ℚ) = 2147483561 by norm_num, n2, show (2147483561 + 1 : ℚ) = 2147483562 by norm_num, n1]
  unfold canonicalLoop
  rw [if_pos (by norm_num), e0]
  simp only
  have c3 : ((2147483561 : Nat) : ℚ) = 2147483561 := by norm_num
  rw [c3, n2, r1, r2, r3]
  unfold canonicalLoop
  rw [if_neg (by norm_num)]
  simp only [Draw.bind]
  rw [r4, if_neg (by norm_num)]

/-! ## C65 -/

/-- C65 (partial: the differences of engine values fit their type): under any rounding, `uniform_01` gives values in `[0, 1)`, and reading the
least engine value ends its loop. Missing: see `c50_signed_false`. -/
theorem c65_uniform01_partial (digits : Nat) (fl : ℚ → ℚ) (H : Rounding digits fl) (E : EngInfo) (hE : EngOK E) (hD : DiffOK E) :
    DrawsIn E (uniform01 fl E) 0 1 ∧ ∀ xs, uniform01 fl E (E.min :: xs) = .done 0 xs :=
  ⟨fun xs hO => ⟨(uniform01_range H hE hD xs hO).1, fun v rest h =>
    let h' := (uniform01_range H hE hD xs hO).2 v rest h
    ⟨h'.1, h'.2.1, h'.2.2.2⟩⟩, uniform01_min H hE hD⟩

#guard uniform01 id engMt [3221225472, 1] = .done (3 / 4) [1]

/-- C65: under any rounding, `uniform_real_distribution(lo, hi)` gives values in `[lo, hi)`, for every engine, and reading the least engine
value ends its loop. -/
theorem c65_uniform_real (digits : Nat) (fl : ℚ → ℚ) (H : Rounding digits fl) (E : EngInfo) (hE : EngOK E) (lo hi : ℚ) (hlo : Representable digits lo)
    (hlh : lo < hi) : DrawsIn E (uniformReal fl E lo hi) lo hi ∧ ∀ xs, uniformReal fl E lo hi (E.min :: xs) = .done lo xs :=
  ⟨fun xs hO => ⟨(uniformReal_range H hE hlh.le hlo xs hO).1, fun v rest h =>
    let h' := (uniformReal_range H hE hlh.le hlo xs hO).2 v rest h
    ⟨h'.1, h'.2.1, h'.2.2.2⟩⟩, uniformReal_min H hE hlh hlo⟩

example : Representable 53 (-5 / 2) := ⟨-5, -1, by norm_num, by norm_num⟩
#guard uniformReal id engInt (-5 / 2) 4 [2147483647, 0] = .done (-5 / 2 + 4294967295 / 4294967296 * (13 / 2)) [0]

/-! ## C52 -/

/-- What is claimed of a distribution with the given boundaries and weights: no undefined behaviour, and every value lies in an interval that
has a weight, so between the first and the last boundary. -/
def PcGood (fl : ℚ → ℚ) (E : EngInfo) (intervals weights : List ℚ) (d : Pc) : Prop :=
  ∀ xs, Outputs E xs → d.next fl E xs ≠ .ub ∧ ∀ v rest, d.next fl E xs = .done v rest →
    (∃ i a b w, intervals[i]? = some a ∧ intervals[i + 1]? = some b ∧ weights[i]? = some w ∧ w ≠ 0 ∧ a ≤ v ∧ v < b) ∧
    (∃ x y, intervals.head? = some x ∧ intervals.getLast? = some y ∧ x ≤ v ∧ v < y) ∧ rest <:+ xs

/-- The requirements on boundaries and weights: boundaries of the floating-point type that increase, one more than weights, and weights that
are not negative and not all zero. -/
structure PcValid (digits : Nat) (intervals weights : List ℚ) : Prop where
  len : intervals.length = weights.length + 1
  size : weights.length ≤ 2 ^ 64
  nonneg : ∀ x ∈ weights, 0 ≤ x
  pos : 0 < weights.sum
  sorted : intervals.Pairwise (· < ·)
  repr : ∀ x ∈ intervals, Representable digits x

section C52
variable {digits : Nat} {fl : ℚ → ℚ} {E : EngInfo}

theorem PcValid.nonempty {ivs ws : List ℚ} (V : PcValid digits ivs ws) : 0 < ws.length := by
  rcases ws with _ | ⟨a, l⟩
  · exact absurd V.pos (by simp)
  · simp

theorem PcValid.good (H : Rounding digits fl) (hE : EngOK E) (hD : DiffOK E) {ivs ws : List ℚ} (V : PcValid digits ivs ws) {bins : List (ℚ × Nat)}
    (hb : HoldsReal ws bins) : PcGood fl E ivs ws ⟨bins, ivs⟩ := by
  intro xs hO
  obtain ⟨h1, h2⟩ := next_range H hE hD (d := ⟨bins, ivs⟩) ⟨hb, V.len, V.nonempty, V.size, V.sorted, V.repr⟩ xs hO
  refine ⟨h1, fun v rest h => ?_⟩
  obtain ⟨h3, i, a, b, h4, h5, h6, h7, h8⟩ := h2 v rest h
  refine ⟨⟨i, a, b, ws.getD i 0, h4, h5, ?_, h6, h7, h8⟩, interval_bounds V.sorted h4 h5 h7 h8, h3⟩
  rw [List.getD_eq_getElem?_getD] at h6 ⊢
  cases hw : ws[i]? with
  | none => rw [hw] at h6; exact absurd rfl h6
  | some w => rfl

/-- C52, the iterator constructor (partial: the differences of engine values fit their type, see `c50_signed_false`). -/
theorem c52_iters_partial (H : Rounding digits fl) (hE : EngOK E) (hD : DiffOK E) (ivs ws extra : List ℚ) (V : PcValid digits ivs ws) :
    ∃ d, Pc.ofIters ivs (ws ++ extra) = some d ∧ PcGood fl E ivs ws d := by
  obtain ⟨t, h1, h2⟩ := binsParam_holds [(1, 0)] ws V.nonneg V.pos
  have hl := V.len
  have hn := V.nonempty
  refine ⟨⟨t, ivs⟩, ?_, V.good H hE hD h2⟩
  unfold Pc.ofIters
  rw [if_neg (by omega), if_pos (by rw [List.length_append]; omega), show ivs.length - 1 = ws.length by omega, List.take_left, h1]
  rfl

/-- C52, the initializer-list constructor (partial as above). -/
theorem c52_list_partial (H : Rounding digits fl) (hE : EngOK E) (hD : DiffOK E) (ivs : List ℚ) (f : ℚ → ℚ)
    (V : PcValid digits ivs ((midpoints ivs).map f)) : ∃ d, Pc.ofList ivs f = some d ∧ PcGood fl E ivs ((midpoints ivs).map f) d := by
  obtain ⟨t, h1, h2⟩ := binsParam_holds [(1, 0)] _ V.nonneg V.pos
  have hl := V.len
  have hn := V.nonempty
  refine ⟨⟨t, ivs⟩, ?_, V.good H hE hD h2⟩
  unfold Pc.ofList
  rw [if_neg (by omega), h1]
  rfl

/-- C52, the range constructor and construction from parameters (partial as above). -/
theorem c52_ranges_partial (H : Rounding digits fl) (hE : EngOK E) (hD : DiffOK E) (ivs ws : List ℚ) (V : PcValid digits ivs ws) :
    ∃ d, Pc.ofRanges ivs ws = some d ∧ Pc.ofParam (PcParam.ofRanges ivs ws) = some d ∧ PcGood fl E ivs ws d := by
  obtain ⟨t, h1, h2⟩ := realInit_holds [] ws V.nonneg V.pos
  have hl := V.len
  have hn := V.nonempty
  refine ⟨⟨t, ivs⟩, ?_, ?_, V.good H hE hD h2⟩
  · unfold Pc.ofRanges
    rw [if_neg (by omega), h1]
    rfl
  · unfold Pc.ofParam PcParam.ofRanges
    rw [if_neg (by omega), h1]
    rfl

/-- C52, the function constructor, for any number of intervals (partial as above; the boundaries are taken to be exact). -/
theorem c52_func_partial (H : Rounding digits fl) (hE : EngOK E) (hD : DiffOK E) (nw : Nat) (hnw : nw ≤ 2 ^ 64) (xmin xmax : ℚ) (hx : xmin < xmax)
    (f : ℚ → ℚ) (h0 : ∀ x ∈ (gridPoints (Nat.max nw 1) xmin xmax).map f, 0 ≤ x) (hs : 0 < ((gridPoints (Nat.max nw 1) xmin xmax).map f).sum)
    (hr : ∀ x ∈ gridBounds (Nat.max nw 1) xmin xmax, Representable digits x) :
    ∃ d, Pc.ofFunc nw xmin xmax f = some d ∧ Pc.ofParam (PcParam.ofFunc nw xmin xmax f) = some d ∧
      PcGood fl E (gridBounds (Nat.max nw 1) xmin xmax) ((gridPoints (Nat.max nw 1) xmin xmax).map f) d := by
  have hn : (if nw = 0 then 1 else nw) = Nat.max nw 1 := by
    show _ = max nw 1
    split <;> omega
  have hm : Nat.max nw 1 = max nw 1 := rfl
  have V : PcValid digits (gridBounds (Nat.max nw 1) xmin xmax) ((gridPoints (Nat.max nw 1) xmin xmax).map f) :=
    ⟨by rw [gridBounds_length, List.length_map, gridPoints_length], by rw [List.length_map, gridPoints_length]; omega, h0, hs,
      gridBounds_sorted (by omega) hx, hr⟩
  obtain ⟨t, h1, h2⟩ := realInit_holds [] _ h0 hs
  refine ⟨⟨t, gridBounds (Nat.max nw 1) xmin xmax⟩, ?_, ?_, V.good H hE hD h2⟩
  · unfold Pc.ofFunc
    simp only [hn]
    rw [h1]
    rfl
  · unfold Pc.ofParam PcParam.ofFunc
    simp only [hn]
    rw [h1]
    rfl

/-- C52, `param(parm)` on any distribution (partial as above): the new parameters replace the old ones completely. -/
theorem c52_set_param_partial (H : Rounding digits fl) (hE : EngOK E) (hD : DiffOK E) (old : Pc) (ivs ws : List ℚ) (V : PcValid digits ivs ws) :
    ∃ d, old.setParam ⟨ivs, ws⟩ = some d ∧ PcGood fl E ivs ws d := by
  obtain ⟨t, h1, h2⟩ := binsParam_holds old.bins ws V.nonneg V.pos
  exact ⟨⟨t, ivs⟩, by unfold Pc.setParam; rw [h1]; rfl, V.good H hE hD h2⟩

/-- C52: `param()` of a constructed distribution has the boundaries and the weights divided by their sum. -/
theorem c52_get_param (ivs ws : List ℚ) (V : PcValid digits ivs ws) :
    ∃ d, Pc.ofRanges ivs ws = some d ∧ d.getParam = some ⟨ivs, ws.map (· / ws.sum)⟩ := by
  obtain ⟨t, h1, h2, _, _⟩ := Discrete.realProbabilities_spec [] ws V.nonneg V.pos (by simp)
  have hl := V.len
  have hn := V.nonempty
  refine ⟨⟨t, ivs⟩, ?_, ?_⟩
  · unfold Pc.ofRanges
    rw [if_neg (by omega), h1]
    rfl
  · unfold Pc.getParam PcParam.ofRanges
    rw [h2]
    simp only [Option.map_some]
    rw [if_neg (by omega)]
    rfl

/-- C52: fewer than two boundaries give the default distribution on `[0, 1)` (iterator and initializer-list constructors). -/
theorem c52_default_partial (H : Rounding digits fl) (hd : 1 ≤ digits) (hE : EngOK E) (hD : DiffOK E) (ivs ws : List ℚ) (f : ℚ → ℚ) (h : ivs.length < 2) :
    ∃ d, Pc.ofIters ivs ws = some d ∧ Pc.ofList ivs f = some d ∧ PcGood fl E [0, 1] [1] d := by
  have V : PcValid digits [0, 1] [1] := by
    refine ⟨rfl, by norm_num, by simp, by simp, by simp, ?_⟩
    intro x hx
    rcases List.mem_cons.1 hx with rfl | hx
    · exact Representable.zero _
    · rw [List.mem_singleton.1 hx]; exact Representable.one hd
  refine ⟨.default, by unfold Pc.ofIters; rw [if_pos h], by unfold Pc.ofList; rw [if_pos h], ?_⟩
  refine V.good H hE hD ⟨rfl, ?_, ?_⟩
  · intro v
    rcases v with _ | v
    · simp [Discrete.contrib]
    · simp [Discrete.contrib]
  · intro i hi
    have : i = 0 := by simpa using hi
    subst this
    exact ⟨1, 0, rfl, by norm_num, by norm_num, Or.inl (by simp)⟩

end C52

/-- The example of the documentation: three intervals, the second without weight. -/
example : PcValid 24 [-1, 1 / 2, 3, 4] [1, 0, 5] := by
  refine ⟨rfl, by norm_num, by simp, by norm_num, by norm_num, ?_⟩
  intro x hx
  simp only [List.mem_cons, List.not_mem_nil, or_false] at hx
  rcases hx with rfl | rfl | rfl | rfl
  · exact ⟨-1, 0, by norm_num, by norm_num⟩
  · exact ⟨1, -1, by norm_num, by norm_num⟩
  · exact ⟨3, 0, by norm_num, by norm_num⟩
  · exact ⟨4, 0, by norm_num, by norm_num⟩
#guard (Pc.ofRanges [-1, 1 / 2, 3, 4] [1, 0, 5]).map (·.next id engMt [4, 4026531840, 2147483648]) = some (.done (7 / 2) [])
#guard gridBounds 4 0 1 = [0, 1 / 4, 1 / 2, 3 / 4, 1] && gridPoints 4 0 1 = [1 / 8, 3 / 8, 5 / 8, 7 / 8] && midpoints [0, 1, 3] = [1 / 2, 2]

/-- C52 is false for the range constructors with fewer than two boundaries: the weights are kept, though the boundaries become `[0, 1]`,
and the distribution reads a boundary that does not exist. This also happens through the parameters, which append a weight. -/
theorem c52_ranges_false (fl : ℚ → ℚ) (H : Rounding 53 fl) :
    (∃ d, Pc.ofRanges [] [0, 1] = some d ∧ d.next fl engMt [1, 0, 0] = .ub) ∧
    (∃ d, Pc.ofParam (PcParam.ofRanges [] [0]) = some d ∧ d.next fl engMt [1, 0, 0] = .ub) := by
  obtain ⟨t, h1, h2⟩ := realInit_holds [] [0, 1] (by simp) (by simp)
  have key : Pc.next fl engMt ⟨t, [0, 1]⟩ [1, 0, 0] = .ub := by
    have hg : UniformInt.generate engMt ⟨64, false⟩ 0 1 [1, 0, 0] = .done 0 [0, 0] := by decide +kernel
    obtain ⟨j, j1, j2, j3⟩ := h2.pick (i := 0) (by simp) (test := 0) le_rfl (by norm_num)
    have hj : j = 1 := by
      rcases j with _ | _ | j
      · exact absurd rfl j3
      · rfl
      · simp at j2
    unfold Pc.next
    simp only
    rw [h2.len]
    simp only [List.length_cons, List.length_nil]
    rw [show ((0 + 1 + 1 : Nat) : Int) - 1 = 1 by norm_num, hg]
    simp only [Draw.bind]
    rw [show (0 : Int) = engMt.min from rfl, uniform01_min H engMt_ok (fun h => absurd h (by decide))]
    simp only [Draw.bind]
    rw [show engMt.min.toNat = 0 from rfl, j1, hj]
    rfl
  refine ⟨⟨⟨t, [0, 1]⟩, by unfold Pc.ofRanges; rw [h1]; rfl, key⟩, ⟨⟨t, [0, 1]⟩, ?_, key⟩⟩
  unfold Pc.ofParam PcParam.ofRanges
  rw [if_pos (by simp), show ([0] ++ [1] : List ℚ) = [0, 1] from rfl, h1]
  rfl

end Boost.Random
