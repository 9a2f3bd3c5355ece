import Verif.Proofs.Period

/-!
# Properties C06-C12: congruential engines
-/

namespace Boost.Random
open Spec

/-- The parameters of the engines shipped with the library are valid. -/
theorem minstdRand0_valid : LcgValid minstdRand0 :=
  ⟨⟨by decide, by decide⟩, by decide, by decide, by decide, by decide, Or.inl (by decide), by decide⟩

theorem minstdRand_valid : LcgValid minstdRand :=
  ⟨⟨by decide, by decide⟩, by decide, by decide, by decide, by decide, Or.inl (by decide), by decide⟩

theorem rand48_valid : LcgValid rand48Lcg :=
  ⟨⟨by decide, by decide⟩, by decide, by decide, by decide, by decide,
    Or.inr (Or.inl ⟨48, by decide⟩), by decide⟩

/-! ## C06 -/

/-- C06: from every state, the value returned by the `(n+1)`-st call and the new state are the
`(n+1)`-fold iterate of `x ↦ (a x + c) mod m`, with no undefined behaviour. (`LcgValid` excludes
only the moduli for which C02 fails.) -/
theorem c06_recurrence_partial (E : Lcg) (h : LcgValid E) (n x : Nat) (hx : x < modulus E.T E.m) :
    calls E.next n x = some ((fun y => (E.a * y + E.c) % modulus E.T E.m)^[n] x) :=
  Lcg.calls_spec h n x hx

example : LcgValid minstdRand0 ∧ (1 : Nat) < modulus minstdRand0.T minstdRand0.m :=
  ⟨minstdRand0_valid, by decide⟩
example : calls minstdRand0.next 3 1 = some 1622650073 := by decide +kernel

/-- C06: the recurrence fails for 64-bit moduli that defeat the 128-bit helper (C03), e.g. the largest
64-bit prime. -/
theorem c06_recurrence_false : ∃ (E : Lcg) (x y : Nat), StdTy E.T ∧ E.m ≤ E.T.maxv ∧ E.a < E.m ∧
    E.c < E.m ∧ E.min ≤ x ∧ x ≤ E.max ∧ E.next x = some y ∧ y ≠ (E.a * x + E.c) % E.m := by
  refine ⟨⟨⟨64, false⟩, 18446744073709551556, 0, 18446744073709551557⟩, 18446744073709551556, _,
    ⟨by decide, by decide⟩, by decide, by decide, by decide, by decide, by decide, rfl, by decide⟩

/-- C06, range: values stay within `[min(), max()]` for every number of calls when `c ≠ 0`, or when
`c = 0` and the multiplier is relatively prime to the modulus. -/
theorem c06_range_partial (E : Lcg) (h : LcgValid E)
    (hc : E.c ≠ 0 ∨ Nat.Coprime E.a (modulus E.T E.m)) (n x : Nat)
    (hx : E.min ≤ x ∧ x ≤ E.max) :
    ∃ y, calls E.next n x = some y ∧ E.min ≤ y ∧ y ≤ E.max := by
  have hmax : ∀ y, y ≤ E.max ↔ y < modulus E.T E.m := by
    intro y
    unfold Lcg.max modulus
    split
    · omega
    · omega
  have hM := ConstMod.modulus_pos E.T E.m
  refine ⟨_, Lcg.calls_spec h n x ((hmax x).1 hx.2), ?_, (hmax _).2 (lcg_iterate_lt _ _ _ hM _ _ ((hmax x).1 hx.2))⟩
  by_cases hc0 : E.c = 0
  · have hcop := hc.resolve_left (by simp [hc0])
    unfold Lcg.min at *
    rw [if_pos hc0] at *
    have hne : ∀ n, (lcgStep E.a E.c (modulus E.T E.m))^[n] x ≠ 0 := by
      intro n
      induction n with
      | zero => simp only [Function.iterate_zero, id_eq]; omega
      | succ n ih =>
        rw [Function.iterate_succ_apply']
        have hlt := lcg_iterate_lt E.a E.c _ hM n x ((hmax x).1 hx.2)
        generalize (lcgStep E.a E.c (modulus E.T E.m))^[n] x = y at *
        unfold lcgStep
        rw [hc0, Nat.add_zero]
        intro h0
        have hd := Nat.dvd_of_mod_eq_zero h0
        have := Nat.le_of_dvd (by omega) (hcop.symm.dvd_of_dvd_mul_left hd)
        omega
    exact Nat.pos_of_ne_zero (hne n)
  · unfold Lcg.min; rw [if_neg hc0]; exact Nat.zero_le _

example : Nat.Coprime minstdRand0.a (modulus minstdRand0.T minstdRand0.m) := by decide +kernel

/-- C06: the range claim fails for a multiplicative engine whose multiplier shares a factor with the
modulus: `a = 3, c = 0, m = 9` reaches 0, below `min() = 1`. -/
theorem c06_range_false : ∃ (E : Lcg) (x y : Nat), LcgValid E ∧ E.min ≤ x ∧ x ≤ E.max ∧
    E.next x = some y ∧ y < E.min :=
  ⟨⟨⟨32, false⟩, 3, 0, 9⟩, 3, 0,
    ⟨⟨by decide, by decide⟩, by decide, by decide, by decide, by decide, Or.inl (by decide), by decide⟩,
    by decide, by decide, by decide, by decide⟩

/-! ## C07 -/

/-- C07 (under the exact side condition `DiscardOK` of the closed form): `discard(z)` is `z` calls,
for every state and every `z`. -/
theorem c07_discard_partial (E : Lcg) (h : LcgValid E) (hd : DiscardOK E) (z x : Nat)
    (hx : x < modulus E.T E.m) : E.discard z x = calls E.next z x := by
  rw [Lcg.calls_spec h z x hx, Lcg.discard_spec h hd z x hx]

example : DiscardOK rand48Lcg := ⟨by decide, Or.inr (by decide +kernel), Or.inl (by decide +kernel)⟩

/-- C07 for prime moduli: no side condition but `a > 1`. -/
theorem c07_discard_prime (E : Lcg) (h : LcgValid E) (hp : (modulus E.T E.m).Prime) (ha : 1 < E.a)
    (z x : Nat) (hx : x < modulus E.T E.m) : E.discard z x = calls E.next z x := by
  have haM := h.a_lt
  have h1 : Nat.Coprime (E.a - 1) (modulus E.T E.m) :=
    (Nat.coprime_of_lt_prime (by omega) (by omega) hp).symm
  have h2 : Nat.Coprime E.a (modulus E.T E.m) :=
    (Nat.coprime_of_lt_prime (by omega) (by omega) hp).symm
  refine c07_discard_partial E h ⟨ha, Or.inr ?_, Or.inr (Or.inl h2)⟩ z x hx
  rw [h1, Nat.div_one]; exact h1

/-- C07 for multiplicative engines (`c = 0`) with a multiplier relatively prime to the modulus: no
side condition but `a > 1`. -/
theorem c07_discard_multiplicative (E : Lcg) (h : LcgValid E) (hc : E.c = 0) (ha : 1 < E.a)
    (hcop : Nat.Coprime E.a (modulus E.T E.m)) (z x : Nat) (hx : x < modulus E.T E.m) :
    E.discard z x = calls E.next z x :=
  c07_discard_partial E h ⟨ha, Or.inl hc, Or.inr (Or.inl hcop)⟩ z x hx

example : (⟨⟨32, false⟩, 7, 0, 100⟩ : Lcg).discard 5 3 = some (7 ^ 5 * 3 % 100) := by decide +kernel

/-- C07 for power-of-two moduli (including `m = 0`) of unsigned type: no side condition but `a > 1`. -/
theorem c07_discard_two_pow (E : Lcg) (h : LcgValid E) (k : Nat) (hk : modulus E.T E.m = 2 ^ k)
    (hs : E.T.signed = false) (ha : 1 < E.a)
    (z x : Nat) (hx : x < modulus E.T E.m) : E.discard z x = calls E.next z x := by
  have haM := h.a_lt
  refine c07_discard_partial E h ⟨ha, Or.inr ?_, Or.inr (Or.inr ⟨hs, k, hk⟩)⟩ z x hx
  rw [hk] at *
  -- (a-1)/gcd(a-1,2^k) is odd
  obtain ⟨j, hj, hg⟩ := (Nat.dvd_prime_pow Nat.prime_two).1 (Nat.gcd_dvd_right (E.a - 1) (2 ^ k))
  rw [hg]
  have hdvd : 2 ^ j ∣ E.a - 1 := hg ▸ Nat.gcd_dvd_left (E.a - 1) (2 ^ k)
  have hjk : j < k := by
    by_contra hc
    have : 2 ^ k ≤ 2 ^ j := Nat.pow_le_pow_right (by norm_num) (by omega)
    have := Nat.le_of_dvd (by omega) hdvd
    omega
  have hodd : ¬ 2 ∣ (E.a - 1) / 2 ^ j := by
    intro h2
    have h3 : 2 ^ (j + 1) ∣ E.a - 1 := by
      obtain ⟨w, hw⟩ := h2
      refine ⟨w, ?_⟩
      rw [pow_succ, mul_assoc, ← hw, Nat.mul_div_cancel' hdvd]
    have h4 : 2 ^ (j + 1) ∣ 2 ^ j := by
      rw [← hg]; exact Nat.dvd_gcd h3 (pow_dvd_pow 2 (by omega))
    have := Nat.le_of_dvd (by positivity) h4
    rw [pow_succ] at this
    have : 0 < 2 ^ j := by positivity
    omega
  exact (((Nat.Prime.coprime_iff_not_dvd Nat.prime_two).2 hodd).symm).pow_right k

/-- C07 for the shipped engines, every state and every `z`. -/
theorem c07_discard_minstd_rand0 (z x : Nat) (hx : x < 2147483647) :
    minstdRand0.discard z x = calls minstdRand0.next z x :=
  c07_discard_prime minstdRand0 minstdRand0_valid M31_prime (by decide) z x hx

theorem c07_discard_minstd_rand (z x : Nat) (hx : x < 2147483647) :
    minstdRand.discard z x = calls minstdRand.next z x :=
  c07_discard_prime minstdRand minstdRand_valid M31_prime (by decide) z x hx

example : minstdRand0.discard 10000 1 = some 1043618065 := by decide +kernel

/-- C07 is false in general: dividing by the gcd can leave a non-invertible factor. The parameters
`a = 97, c = 1, m = 144` even satisfy the Hull-Dobell full-period condition. -/
theorem c07_discard_false : ∃ (E : Lcg) (z x y y' : Nat), LcgValid E ∧ 1 < E.a ∧ E.min ≤ x ∧ x ≤ E.max ∧
    E.discard z x = some y ∧ calls E.next z x = some y' ∧ y ≠ y' :=
  ⟨⟨⟨32, false⟩, 97, 1, 144⟩, 2, 0, 52, 98,
    ⟨⟨by decide, by decide⟩, by decide, by decide, by decide, by decide, Or.inl (by decide), by decide⟩,
    by decide, by decide, by decide, by decide +kernel, by decide +kernel, by decide⟩

/-- C07 is false for `a = 1` (a legal, full-period engine for every `c` relatively prime to `m`):
`discard` divides by zero. -/
theorem c07_discard_a_one_false : ∃ (E : Lcg) (z x : Nat), LcgValid E ∧ E.a = 1 ∧ E.min ≤ x ∧ x ≤ E.max ∧
    E.discard z x = none ∧ calls E.next z x = some 1 :=
  ⟨⟨⟨32, false⟩, 1, 1, 10⟩, 1, 0,
    ⟨⟨by decide, by decide⟩, by decide, by decide, by decide, by decide, Or.inl (by decide), by decide⟩,
    by decide, by decide, by decide, by decide +kernel, by decide +kernel⟩

/-! ## C08 -/

/-- C08: every seed of the integer type, negative or not, gives a state in `[min(), max()]`; it is `x0` reduced to its
non-negative residue, except that a multiplicative engine replaces the residue 0 by 1. -/
theorem c08_seed (E : Lcg) (hgt : 1 < modulus E.T E.m) (x0 : Int) (hx : E.m = 0 → 0 ≤ x0 ∧ x0 ≤ E.T.maxv) :
    (E.min : Int) ≤ E.seed x0 ∧ E.seed x0 ≤ E.max ∧
    E.seed x0 = if E.c = 0 ∧ x0 % (modulus E.T E.m : Int) = 0 then 1 else x0 % (modulus E.T E.m : Int) := by
  unfold Lcg.seed Lcg.min Lcg.max
  unfold modulus at *
  by_cases hm : E.m = 0
  · obtain ⟨hx1, hx2⟩ := hx hm
    clear hx
    simp only [hm, if_true] at *
    have h1 : x0 % ((E.T.maxv + 1 : ℕ) : Int) = x0 := Int.emod_eq_of_lt hx1 (by push_cast; omega)
    rw [h1, if_neg (show ¬ x0 < 0 by omega)]
    split <;> split <;> omega
  · simp only [hm, if_false] at *
    have hmpos : (0 : Int) < E.m := by omega
    have h2 : (if Int.tmod x0 E.m < 0 then Int.tmod x0 E.m + E.m else Int.tmod x0 E.m) = x0 % (E.m : Int) := by
      have hlt := Int.emod_lt_of_pos x0 hmpos
      have hnn := Int.emod_nonneg x0 (show (E.m : Int) ≠ 0 by omega)
      have hab : |Int.tmod x0 E.m| < E.m := by
        rw [Int.abs_eq_natAbs, Int.natAbs_tmod, Int.natAbs_natCast]
        exact_mod_cast Nat.mod_lt _ (by omega)
      rw [abs_lt] at hab
      have hd1 := Int.mul_tdiv_add_tmod x0 E.m
      have hd2 := Int.mul_ediv_add_emod x0 E.m
      have hcong : (E.m : Int) ∣ Int.tmod x0 E.m - x0 % E.m :=
        ⟨x0 / E.m - Int.tdiv x0 E.m, by rw [mul_sub]; omega⟩
      obtain ⟨q, hq⟩ := hcong
      have hqb : q = 0 ∨ q = -1 := by
        by_contra hcon
        have : q ≥ 1 ∨ q ≤ -2 := by omega
        rcases this with hh | hh <;> nlinarith
      rcases hqb with rfl | rfl
      · rw [if_neg (by omega)]; omega
      · rw [if_pos (by omega)]; omega
    rw [h2]
    have hlt := Int.emod_lt_of_pos x0 hmpos
    have hnn := Int.emod_nonneg x0 (show (E.m : Int) ≠ 0 by omega)
    split <;> split <;> omega

/-- C08: distinct seeds in `[min(), max()]` give distinct states. -/
theorem c08_seed_injective (E : Lcg) (hgt : 1 < modulus E.T E.m) (x y : Int)
    (hx : (E.min : Int) ≤ x ∧ x ≤ E.max) (hy : (E.min : Int) ≤ y ∧ y ≤ E.max)
    (he : E.seed x = E.seed y) : x = y := by
  have key : ∀ x : Int, (E.min : Int) ≤ x ∧ x ≤ E.max → E.seed x = x := by
    intro x hx
    have hs := (c08_seed E hgt x (by
      intro hm; rw [Lcg.max, if_pos hm] at hx; exact ⟨by omega, hx.2⟩)).2.2
    have h1 : x % (modulus E.T E.m : Int) = x := by
      apply Int.emod_eq_of_lt (by omega)
      unfold Lcg.max at hx; unfold modulus at *
      split at hx <;> simp_all <;> omega
    rw [hs, h1]
    unfold Lcg.min at hx
    split <;> [skip; rfl]
    rename_i hc
    rw [if_pos hc.1] at hx; omega
  rw [← key x hx, ← key y hy, he]

example : minstdRand0.seed (-5) = 2147483642 ∧ minstdRand0.seed 0 = 1 := by decide

/-! ## C09 -/

/-- C09, round trip: reading what was written (with anything following) into any engine restores
the state, so all future values agree, and leaves the stream good and positioned after the text. -/
theorem c09_round_trip (E : Lcg) (hm : E.m ≤ E.T.maxv) (x y : Nat) (rest : List Tok)
    (hx : E.min ≤ x ∧ x ≤ E.max) :
    E.read ⟨Lcg.write x ++ rest, true⟩ y = (⟨rest, true⟩, x) := by
  have hfit : x ≤ E.T.maxv := by
    unfold Lcg.max at hx; split at hx <;> omega
  unfold Lcg.read Lcg.write IStream.readInt
  simp only [List.singleton_append, if_true]
  have h1 : -(E.T.maxv : Int) - 1 ≤ (x : Int) ∧ (x : Int) ≤ E.T.maxv := by omega
  have h2 : 0 ≤ (x : Int) ∧ (x : Int) ≤ E.T.maxv := by omega
  have h3 : (E.min : Int) ≤ (x : Int) ∧ (x : Int) ≤ E.max := by omega
  simp [h1, h2, h3]

example : minstdRand0.read ⟨Lcg.write 12345 ++ [Tok.num 7], true⟩ 1 = (⟨[Tok.num 7], true⟩, 12345) := by
  decide

/-- C09, rejection: a number outside `[min(), max()]` (or no number) sets the fail bit and leaves the
engine unchanged. For unsigned types the number must not be negative (a negative number wraps). -/
theorem c09_reject (E : Lcg) (v : Int) (rest : List Tok) (y : Nat)
    (hv : v < E.min ∨ (E.max : Int) < v) (hneg : E.T.signed = false → 0 ≤ v) :
    ∃ s', E.read ⟨Tok.num v :: rest, true⟩ y = (s', y) ∧ s'.ok = false := by
  have h3 : ¬ ((E.min : Int) ≤ v ∧ v ≤ E.max) := by omega
  unfold Lcg.read IStream.readInt
  simp only [if_true]
  by_cases hs : E.T.signed = true
  · simp only [hs, if_true]
    split
    · rename_i heq
      split at heq
      · simp only [Prod.mk.injEq, Option.some.injEq] at heq
        obtain ⟨rfl, rfl⟩ := heq
        rw [if_neg h3]; exact ⟨_, rfl, rfl⟩
      · simp at heq
    · rename_i heq
      split at heq
      · simp at heq
      · simp only [Prod.mk.injEq] at heq
        obtain ⟨_, rfl⟩ := heq
        exact ⟨_, rfl, rfl⟩
  · have hn := hneg (by simpa using hs)
    simp only [hs, if_false, Bool.false_eq_true]
    split
    · rename_i heq
      split at heq
      · simp only [Prod.mk.injEq, Option.some.injEq] at heq
        obtain ⟨rfl, rfl⟩ := heq
        rw [if_neg h3]; exact ⟨_, rfl, rfl⟩
      · rw [if_neg (by omega)] at heq; simp at heq
    · rename_i heq
      split at heq
      · simp at heq
      · rw [if_neg (by omega)] at heq
        simp only [Prod.mk.injEq] at heq
        obtain ⟨_, rfl⟩ := heq
        exact ⟨_, rfl, rfl⟩

example : minstdRand0.read ⟨[Tok.num 0], true⟩ 99 = (⟨[], false⟩, 99) := by decide

/-- C09: whatever the stream contains, reading never takes the engine out of `[min(), max()]`; and when
it reports success the number read was the state. -/
theorem c09_read_in_range (E : Lcg) (s : IStream) (y : Nat) (hy : E.min ≤ y ∧ y ≤ E.max) :
    E.min ≤ (E.read s y).2 ∧ (E.read s y).2 ≤ E.max ∧
    ((E.read s y).1.ok = false → (E.read s y).2 = y) := by
  unfold Lcg.read
  split
  · split
    · rename_i v s' heq hc
      refine ⟨by simp only; omega, by simp only; omega, ?_⟩
      intro hok
      simp only at hok
      unfold IStream.readInt at heq
      split at heq <;> [skip; simp at heq]
      split at heq
      · simp at heq
      · simp at heq
      · repeat' (split at heq)
        all_goals simp only [Prod.mk.injEq, reduceCtorEq, false_and] at heq
        all_goals (obtain ⟨_, rfl⟩ := heq; simp at hok)
    · exact ⟨hy.1, hy.2, fun _ => rfl⟩
  · exact ⟨hy.1, hy.2, fun _ => rfl⟩

example : minstdRand0.min ≤ 5 ∧ 5 ≤ minstdRand0.max := by decide

/-! ## C10 -/

/-- C10: from every state of `minstd_rand0`, every value of `[1, 2^31-2]` is reached by exactly one
number of calls below `2^31-2`. -/
theorem c10_minstd_rand0 (x v : Nat) (hx : 1 ≤ x ∧ x ≤ 2 ^ 31 - 2) (hv : 1 ≤ v ∧ v ≤ 2 ^ 31 - 2) :
    ∃! n, n < 2 ^ 31 - 2 ∧ calls minstdRand0.next n x = some v := by
  have : Fact (Nat.Prime 2147483647) := ⟨M31_prime⟩
  have := mlcg_full_period 2147483647 16807 (order_M31 16807 (by decide +kernel)) x v
    (by omega) (by omega) (by omega) (by omega)
  simp only [Lcg.calls_spec minstdRand0_valid _ x (show x < modulus minstdRand0.T minstdRand0.m by
    show x < 2147483647; omega), Option.some.injEq]
  exact this

/-- C10: the same for `minstd_rand`. -/
theorem c10_minstd_rand (x v : Nat) (hx : 1 ≤ x ∧ x ≤ 2 ^ 31 - 2) (hv : 1 ≤ v ∧ v ≤ 2 ^ 31 - 2) :
    ∃! n, n < 2 ^ 31 - 2 ∧ calls minstdRand.next n x = some v := by
  have : Fact (Nat.Prime 2147483647) := ⟨M31_prime⟩
  have := mlcg_full_period 2147483647 48271 (order_M31 48271 (by decide +kernel)) x v
    (by omega) (by omega) (by omega) (by omega)
  simp only [Lcg.calls_spec minstdRand_valid _ x (show x < modulus minstdRand.T minstdRand.m by
    show x < 2147483647; omega), Option.some.injEq]
  exact this

/-- C10: the internal state of `rand48` visits all `2^48` values. -/
theorem c10_rand48 (x v : Nat) (hx : x < 2 ^ 48) (hv : v < 2 ^ 48) :
    ∃! n, n < 2 ^ 48 ∧ calls rand48Lcg.next n x = some v := by
  have := lcg_full_period_two_pow 48 rand48Lcg.a 0xB (by norm_num) (by decide) (by decide) x v hx hv
  simp only [Lcg.calls_spec rand48_valid _ x (show x < modulus rand48Lcg.T rand48Lcg.m from hx),
    Option.some.injEq]
  exact this

example : calls minstdRand.next 1 1 = some 48271 ∧ calls rand48Lcg.next 1 0 = some 11 := by decide

/-! ## C11 -/

/-- C11: seeding puts the state at `x0 * 2^16 + 0x330e`; distinct 32-bit seeds give distinct states. -/
theorem c11_seed (x0 : Nat) (hx : x0 < 2 ^ 32) : Rand48.seed x0 = (x0 * 2 ^ 16 + 0x330e : Nat) := by
  have h1 : Rand48.cnv x0 = x0 * 2 ^ 16 + 0x330e := by
    unfold Rand48.cnv
    rw [← Nat.shiftLeft_add_eq_or_of_lt (by norm_num), Nat.shiftLeft_eq]
  unfold Rand48.seed
  rw [(c08_seed rand48Lcg (by decide) _ (by intro h; exact absurd h (by decide))).2.2, h1,
    if_neg (by intro h; exact absurd h.1 (by decide))]
  show ((x0 * 2 ^ 16 + 0x330e : Nat) : Int) % ((281474976710656 : Nat) : Int) = _
  rw [← Int.natCast_mod, Nat.mod_eq_of_lt (by omega)]

theorem c11_seed_injective (x y : Nat) (hx : x < 2 ^ 32) (hy : y < 2 ^ 32)
    (h : Rand48.seed x = Rand48.seed y) : x = y := by
  rw [c11_seed x hx, c11_seed y hy] at h
  omega

/-- C11: a call advances the 48-bit state by the `lrand48` recurrence and returns its bits 17..47, a
value in `[0, 2^31-1]`. -/
theorem c11_next (x : Nat) (hx : x < 2 ^ 48) :
    let x' := (0x5DEECE66D * x + 0xB) % 2 ^ 48
    Rand48.next x = some (x' / 2 ^ 17, x') ∧ x' / 2 ^ 17 ≤ 0x7FFFFFFF ∧
    ∀ i < 31, (x' / 2 ^ 17).testBit i = x'.testBit (i + 17) := by
  intro x'
  have h1 : rand48Lcg.next x = some x' := Lcg.next_spec rand48_valid x hx
  have hlt : x' < 2 ^ 48 := Nat.mod_lt _ (by norm_num)
  clear_value x'
  refine ⟨?_, by omega, ?_⟩
  · unfold Rand48.next
    rw [h1]
    simp only [Option.bind_eq_bind, Option.bind_some, Nat.shiftRight_eq_div_pow]
    rw [Nat.mod_eq_of_lt (by omega)]
  · intro i _
    rw [Nat.testBit_div_two_pow]

/-- C11: `discard(z)` is `z` calls, for every state and `z`. -/
theorem c11_discard (z x : Nat) (hx : x < 2 ^ 48) :
    Rand48.discard z x = calls (fun y => (Rand48.next y).map (·.2)) z x := by
  have h1 : (fun y => (Rand48.next y).map (·.2)) = rand48Lcg.next := by
    funext y
    unfold Rand48.next
    cases rand48Lcg.next y <;> rfl
  rw [h1]
  exact c07_discard_two_pow rand48Lcg rand48_valid 48 (by decide) (by decide) (by decide) z x hx

example : Rand48.seed 1 = 78606 ∧ Rand48.next 78606 = some (89400484, 11717900325121) := by decide

/-! ## C12 -/

/-- Valid inversive engines: prime `p` fitting the type for which modular products are exact. -/
structure IcgValid (E : Icg) : Prop where
  ty : ArithTy E.T E.p
  p_fits : E.p ≤ E.T.maxv
  prime : E.p.Prime
  a_lt : E.a < E.p
  b_lt : E.b < E.p
  wide : WideOK E.p

/-- C12: for a prime modulus each call computes `a * x⁻¹ + b` in the field `ℤ/p` (with `0⁻¹ = 0`) and
returns the representative in `[0, p)`. Partial only in that `WideOK` excludes the moduli of C02's
counterexample. The sign of `b` is `+` (the documentation says `-b`). -/
theorem c12_next_partial (E : Icg) (h : IcgValid E) (x : Nat) (hx : x < E.p) :
    ∃ y, E.next x = some y ∧ y < E.p ∧ (y : ZMod E.p) = E.a * (x : ZMod E.p)⁻¹ + E.b := by
  have : Fact E.p.Prime := ⟨h.prime⟩
  have hp0 : E.p ≠ 0 := h.prime.ne_zero
  have hM : modulus E.T E.p = E.p := ConstMod.modulus_of_pos _ _ (Nat.pos_of_ne_zero hp0)
  have hma : ∀ i, i < E.p → ConstMod.multAdd E.T E.p E.a i E.b = some ((E.a * i + E.b) % E.p) := by
    intro i hi
    have := ConstMod.multAdd_spec E.T E.p h.ty h.p_fits h.wide E.a i E.b
      (hM.symm ▸ h.a_lt) (hM.symm ▸ hi) (hM.symm ▸ h.b_lt)
    rw [hM] at this; exact this
  unfold Icg.next
  by_cases hx0 : x = 0
  · subst hx0
    have : ConstMod.invert E.T E.p 0 = some 0 := by simp [ConstMod.invert]
    rw [this]
    simp only [Option.bind_eq_bind, Option.bind_some]
    refine ⟨_, hma 0 h.prime.pos, Nat.mod_lt _ h.prime.pos, ?_⟩
    rw [ZMod.natCast_mod]; simp
  · obtain ⟨i, hi, hlt, hinv⟩ := ConstMod.invert_spec E.T E.p h.ty h.p_fits (by intro h0; exact absurd h0 hp0) x
      (by omega) (hM.symm ▸ hx)
    rw [hM] at hlt hinv
    rw [hi]
    simp only [Option.bind_eq_bind, Option.bind_some]
    refine ⟨_, hma i hlt, Nat.mod_lt _ h.prime.pos, ?_⟩
    rw [ZMod.natCast_mod]
    have hcop : Nat.gcd x E.p = 1 := (Nat.coprime_of_lt_prime (by omega) hx h.prime).symm
    rw [hcop] at hinv
    have hz : ((i : ZMod E.p)) * x = 1 := by
      have := (ZMod.intCast_zmod_eq_zero_iff_dvd _ E.p).2 hinv
      push_cast at this
      exact sub_eq_zero.1 this
    push_cast; rw [eq_inv_of_mul_eq_one_left hz]

example : IcgValid hellekalek1995 :=
  ⟨⟨by decide, by decide⟩, by decide, M31_prime, by decide, by decide, Or.inl (by decide)⟩

/-- C12, range: outputs lie in `[min(), max()]` for every number of calls, and `discard` is that many
calls. Partial: `a ≠ 0` (see `c12_range_false`) and `WideOK`. -/
theorem c12_range_partial (E : Icg) (h : IcgValid E) (ha : E.a ≠ 0) (n x : Nat) (hx : E.min ≤ x ∧ x ≤ E.max) :
    ∃ y, E.discard n x = some y ∧ calls E.next n x = some y ∧ E.min ≤ y ∧ y ≤ E.max := by
  have : Fact E.p.Prime := ⟨h.prime⟩
  have hpos := h.prime.pos
  induction n generalizing x with
  | zero => exact ⟨x, rfl, rfl, hx.1, hx.2⟩
  | succ n ih =>
    have hxp : x < E.p := by unfold Icg.max at hx; omega
    obtain ⟨y, hy, hlt, hz⟩ := c12_next_partial E h x hxp
    have hy2 : E.min ≤ y ∧ y ≤ E.max := by
      refine ⟨?_, by unfold Icg.max; omega⟩
      unfold Icg.min at *
      split <;> [skip; omega]
      rename_i hb
      rw [if_pos hb] at hx
      by_contra hcon
      have hy0 : y = 0 := by omega
      subst hy0
      rw [hb] at hz
      simp only [Nat.cast_zero, add_zero] at hz
      have hane : (E.a : ZMod E.p) ≠ 0 := by
        intro h0
        have := Nat.le_of_dvd (by omega) ((ZMod.natCast_eq_zero_iff _ _).1 h0)
        have := h.a_lt; omega
      have hxne : (x : ZMod E.p) ≠ 0 := by
        intro h0
        have := Nat.le_of_dvd (by omega) ((ZMod.natCast_eq_zero_iff _ _).1 h0)
        omega
      exact mul_ne_zero hane (inv_ne_zero hxne) hz.symm
    obtain ⟨w, h1, h2, h3⟩ := ih y hy2
    exact ⟨w, by simp [Icg.discard, hy, h1], by simp [calls, hy, h2], h3⟩

/-- C12: the degenerate parameters `a = b = 0` produce 0, below `min() = 1`. -/
theorem c12_range_false : ∃ (E : Icg) (x y : Nat), IcgValid E ∧ E.min ≤ x ∧ x ≤ E.max ∧
    E.next x = some y ∧ y < E.min :=
  ⟨⟨⟨32, false⟩, 0, 0, 7⟩, 1, 0, ⟨⟨by decide, by decide⟩, by decide, by decide, by decide, by decide,
    Or.inl (by decide)⟩, by decide, by decide, by decide, by decide⟩

example : hellekalek1995.a ≠ 0 ∧ hellekalek1995.min ≤ 1 ∧ 1 ≤ hellekalek1995.max := by decide

end Boost.Random
