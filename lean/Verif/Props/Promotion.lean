import Verif.Spec.Promotion
import Verif.Props.Arith
import Verif.Props.Lcg
import Verif.Props.UniformInt
import Verif.Proofs.HullDobell

/-!
# Properties C150-C151: integer types narrower than `int`
-/

namespace Boost.Random
open Spec

/-! ## C150 -/

theorem ConstMod.narrow_arith {T : IntTy} {m : Nat} (hT : Narrow T) (h : modulus T m ≠ 2 ^ 16) : ArithTy T m :=
  ⟨⟨hT.1, by have := hT.2; omega⟩, fun _ => h⟩

theorem ConstMod.narrow_wide {T : IntTy} {m : Nat} (hT : Narrow T) (hm : m ≤ T.maxv) : WideOK m := by
  have := IntTy.maxv_lt16 T ⟨hT.1, by have := hT.2; omega⟩ hT.2
  exact Or.inl (by omega)

/-- C150 (guarded by the modulus): for every type narrower than `int` and every modulus but `2^16` all
operations of `const_mod` are exact and free of undefined behaviour. -/
theorem c150_const_mod_partial (T : IntTy) (m : Nat) (hT : Narrow T) (hm : m ≤ T.maxv) (h16 : modulus T m ≠ 2 ^ 16)
    (a x c : Nat) (ha : a < modulus T m) (hx : x < modulus T m) (hc : c < modulus T m) :
    ConstMod.add T m x c = some ((x + c) % modulus T m) ∧
    ConstMod.mult T m a x = some (a * x % modulus T m) ∧
    ConstMod.multAdd T m a x c = some ((a * x + c) % modulus T m) ∧
    (1 < modulus T m → ∀ e, ConstMod.pow T m a e = some (a ^ e % modulus T m)) ∧
    ((m = 0 → T.signed = false) → 0 < x → ∃ y, ConstMod.invert T m x = some y ∧ y < modulus T m ∧
      x * y % modulus T m = Nat.gcd x (modulus T m) % modulus T m) := by
  have hA := ConstMod.narrow_arith hT h16
  have hw := ConstMod.narrow_wide hT hm
  exact ⟨c02_add T m x c hA.1 hm hx hc, c02_mult_partial T m a x hA hm hw ha hx, c02_mult_add_partial T m a x c hA hm hw ha hx hc,
    fun h1 e => c02_pow_partial T m a e hA hm hw h1 ha, fun hs hx0 => c04_invert_gcd T m x hA.1 hm hs hx0 hx⟩

/-- `unsigned char` with modulus 251, `short` with modulus `2^15` (a mask), `uint16_t` with modulus 65521. -/
example : ConstMod.multAdd ⟨8, false⟩ 251 250 250 250 = some 0 := by decide
example : ConstMod.mult ⟨16, true⟩ 0 32767 32767 = some 1 := by decide
example : ConstMod.multAdd ⟨16, false⟩ 65521 65520 65520 7 = some 8 := by decide
example : ConstMod.invert ⟨16, false⟩ 0 12345 = some 48649 ∧ 12345 * 48649 % 2 ^ 16 = 1 := by decide
example : Narrow ⟨16, false⟩ ∧ modulus ⟨16, false⟩ 65521 ≠ 2 ^ 16 := ⟨⟨by decide, by decide⟩, by decide⟩

theorem ConstMod.isMask16 : ConstMod.isMask u16 0 = true := by decide

theorem ConstMod.masked16 (v : Nat) : ConstMod.masked u16 0 v = if v < 2 ^ 31 then some (v % 2 ^ 16) else none := by
  by_cases hv : v < 2 ^ 31
  · rw [if_pos hv]
    exact ConstMod.masked_spec u16 0 ⟨by decide, by decide⟩ (by decide) ConstMod.isMask16 v fun _ => hv
  · rw [if_neg hv]
    unfold ConstMod.masked
    rw [if_pos ⟨by decide, by omega⟩]

/-- C150, the excluded modulus: for `uint16_t` and `m = 0` the products are computed in `int`. They are exact
if and only if they are below `2^31`, and undefined behaviour otherwise. -/
theorem c150_sixteen (a x c : Nat) :
    ConstMod.mult u16 0 a x = (if a * x < 2 ^ 31 then some (a * x % 2 ^ 16) else none) ∧
    ConstMod.multAdd u16 0 a x c = (if a * x + c < 2 ^ 31 then some ((a * x + c) % 2 ^ 16) else none) := by
  unfold ConstMod.mult ConstMod.multAdd
  rw [ConstMod.isMask16]
  exact ⟨ConstMod.masked16 _, ConstMod.masked16 _⟩

example : ConstMod.mult u16 0 46340 46341 = some (46340 * 46341 % 2 ^ 16) ∧ ConstMod.mult u16 0 46341 46341 = none := by decide

/-- C150: the calls of such an engine follow the recurrence as long as no product on the way reaches `2^31`,
and are undefined from the first one that does. -/
theorem c150_calls (a c : Nat) : ∀ (n x : Nat), x < 2 ^ 16 →
    calls (lcg16 a c).next n x =
      if ∀ i < n, a * (lcgStep a c (2 ^ 16))^[i] x + c < 2 ^ 31 then some ((lcgStep a c (2 ^ 16))^[n] x) else none := by
  intro n
  induction n with
  | zero => intro x _; simp [calls]
  | succ n ih =>
    intro x hx
    have hnext : (lcg16 a c).next x = if a * x + c < 2 ^ 31 then some (lcgStep a c (2 ^ 16) x) else none :=
      (c150_sixteen a x c).2
    unfold calls
    rw [hnext]
    by_cases h0 : a * x + c < 2 ^ 31
    · rw [if_pos h0, Option.bind_some, ih (lcgStep a c (2 ^ 16) x) (Nat.mod_lt _ (by norm_num))]
      have hiff : (∀ i < n, a * (lcgStep a c (2 ^ 16))^[i] (lcgStep a c (2 ^ 16) x) + c < 2 ^ 31) ↔
          ∀ i < n + 1, a * (lcgStep a c (2 ^ 16))^[i] x + c < 2 ^ 31 := by
        constructor
        · intro h i hi
          rcases i with - | i
          · exact h0
          · rw [Function.iterate_succ_apply]; exact h i (by omega)
        · intro h i hi
          rw [← Function.iterate_succ_apply]; exact h (i + 1) (by omega)
      rw [if_congr hiff rfl rfl, Function.iterate_succ_apply]
    · rw [if_neg h0, Option.bind_none, if_neg]
      intro h
      exact h0 (h 0 (by omega))

example : calls (lcg16 5 3).next 3 1 = some 218 := by decide

/-- C150 (guarded): with a multiplier so small that `a * 65535 + c` is below `2^31`, every call from every
state is defined and follows the recurrence. -/
theorem c150_small_partial (a c : Nat) (h : a * 65535 + c < 2 ^ 31) (n x : Nat) (hx : x < 2 ^ 16) :
    calls (lcg16 a c).next n x = some ((lcgStep a c (2 ^ 16))^[n] x) := by
  rw [c150_calls a c n x hx, if_pos]
  intro i _
  have h1 : (lcgStep a c (2 ^ 16))^[i] x ≤ 65535 := by
    have := lcg_iterate_lt a c (2 ^ 16) (by norm_num) i x hx
    omega
  have := Nat.mul_le_mul_left a h1
  omega

example : 32000 * 65535 + 12345 < 2 ^ 31 := by decide

/-- C150 is false for the modulus `2^16` of a 16-bit type: an engine with a larger multiplier that meets the
conditions for the full period runs into undefined behaviour within one period, from every seed. -/
theorem c150_full_period_false (a c : Nat) (hd : HullDobell a c (2 ^ 16)) (h : 2 ^ 31 ≤ a * 65535 + c) (x : Nat)
    (hx : x < 2 ^ 16) : ∃ n ≤ 2 ^ 16, calls (lcg16 a c).next n x = none := by
  obtain ⟨i, ⟨hi, hv⟩, -⟩ := lcg_full_period a c (2 ^ 16) (by norm_num) hd x 65535 hx (by norm_num)
  refine ⟨i + 1, by omega, ?_⟩
  rw [c150_calls a c (i + 1) x hx, if_neg]
  intro hall
  have := hall i (by omega)
  rw [hv] at this
  omega

/-- The engine with multiplier 47485 and increment 1 (a known multiplier for 16 bits) is undefined at its
second call from the default seed 1. -/
example : (2 : Nat) ^ 31 ≤ 47485 * 65535 + 1 ∧ calls (lcg16 47485 1).next 1 1 = some 47486 ∧
    calls (lcg16 47485 1).next 2 1 = none := by decide

/-- C150: `discard` and `pow` run into it as well. -/
theorem c150_discard_false : ∃ a c z x, 1 < a ∧ a < 2 ^ 16 ∧ x < 2 ^ 16 ∧ Nat.Coprime a (2 ^ 16) ∧
    ConstMod.pow u16 0 a 2 = none ∧ (lcg16 a c).discard z x = none :=
  ⟨47485, 1, 2, 1, by decide, by decide, by decide, by decide, by decide +kernel, by decide +kernel⟩

/-! ## C151 -/

namespace UniformInt

theorem castT_of_inTy {T : IntTy} (hT : 1 ≤ T.bits) {v : Nat} (h : InTy T v) : castT T v = v := by
  unfold castT InTy at *
  have hp := pow_cast T.bits
  cases hs : T.signed
  · simp only [hs, Bool.false_eq_true, if_false] at *
    rw [Nat.mod_eq_of_lt (by omega)]
  · simp only [hs, if_true] at *
    exact toSigned_small T.bits v hT h.2

end UniformInt

/-- C151 (guarded as in C38): the number drawn, and the engine values used, do not depend on the integer type
of the distribution, which may be narrower than `int`, nor on that of the engine: whatever types can hold the
parameters and the engine's values, the result is the same. -/
theorem c151_types_partial (E E' : EngInfo) (hE : EngOK E) (hE' : EngOK E') (hv : SameValues E E') (T T' : IntTy)
    (mn mx : Int) (hP : ParamOK T mn mx) (hP' : ParamOK T' mn mx) (hg : ¬ ExactPower E mn mx ∨ mn = 0)
    (xs : List Int) (hxs : Outputs E xs) :
    UniformInt.generate E T mn mx xs = UniformInt.generate E' T' mn mx xs := by
  obtain ⟨h1, h2⟩ := hv
  have hxs' : Outputs E' xs := by unfold Outputs at *; rwa [← h1, ← h2]
  have hdig : dig E = dig E' := by funext x; unfold dig; rw [h1]
  have hb : E.b = E'.b := by unfold EngInfo.b; rw [h1, h2]
  have hx : ExactPower E' mn mx ↔ ExactPower E mn mx := by unfold ExactPower; rw [h1, h2]
  unfold UniformInt.generate
  rw [UniformInt.generateAux_eq hE _ T mn mx xs hP hxs, UniformInt.generateAux_eq hE' _ T' mn mx xs hP' hxs', hdig, hb]
  obtain ⟨c1, -⟩ := UniformInt.core_rest (e := dig E') (UniformInt.EngInfo.b_ge hE') (xs.length + 1)
    ((mx - mn).toNat + 1) xs (fun x hx => dig_lt (hxs' x hx)) (Nat.succ_pos _)
  cases hc : UniformInt.core E'.b (dig E') (xs.length + 1) ((mx - mn).toNat + 1) xs with
  | more => rfl
  | ub => rfl
  | done v rest =>
    obtain ⟨-, hv⟩ := c1 _ _ hc
    simp only [Draw.map]
    congr 1
    have hle := hP.le
    unfold UniformInt.out
    by_cases hp : ExactPower E mn mx
    · rw [if_pos hp, if_pos (hx.2 hp)]
      have hmn : mn = 0 := hg.resolve_left (fun h => h hp)
      subst hmn
      rw [UniformInt.castT_of_inTy hP.bits (inTy_of_between hP.min_ty hP.max_ty (by omega) (by omega)),
        UniformInt.castT_of_inTy hP'.bits (inTy_of_between hP'.min_ty hP'.max_ty (by omega) (by omega))]
    · rw [if_neg hp, if_neg (fun h => hp (hx.1 h))]

/-- `signed char`, `short` and `long long` from a die: 252 values, three digits and a final step. -/
example : UniformInt.generate die ⟨8, true⟩ (-126) 125 [3, 5, 6, 2, 4, 4] = Draw.done 80 [4, 4] ∧
    UniformInt.generate die ⟨16, true⟩ (-126) 125 [3, 5, 6, 2, 4, 4] = Draw.done 80 [4, 4] ∧
    UniformInt.generate ⟨⟨8, false⟩, 1, 6⟩ ⟨64, true⟩ (-126) 125 [3, 5, 6, 2, 4, 4] = Draw.done 80 [4, 4] := by decide
example : ParamOK ⟨8, true⟩ (-126) 125 ∧ ParamOK ⟨64, true⟩ (-126) 125 ∧ SameValues die ⟨⟨8, false⟩, 1, 6⟩ ∧
    ¬ ExactPower die (-126) 125 :=
  ⟨⟨by decide, by decide, by decide, by decide⟩, ⟨by decide, by decide, by decide, by decide⟩, ⟨rfl, rfl⟩, by
    rw [UniformInt.exactPower_nat die_ok (by decide)]
    rintro ⟨k, hk, h⟩
    have hk3 : k ≤ 3 ∨ 4 ≤ k := by omega
    rcases hk3 with h3 | h4
    · interval_cases k <;> revert h <;> decide
    · have : die.b ^ 4 ≤ die.b ^ k := Nat.pow_le_pow_right (by decide) h4
      have h6 : die.b ^ 4 = 1296 := by decide
      have h7 : ((125 : Int) - -126).toNat + 1 = 252 := by decide
      omega⟩

/-- C151 is false where the early return forgets the lower bound (C38): `signed char` and `short` get
different numbers. -/
theorem c151_types_false : ∃ (E : EngInfo) (mn mx : Int) (xs : List Int), EngOK E ∧ Outputs E xs ∧
    ParamOK ⟨8, true⟩ mn mx ∧ ParamOK ⟨16, true⟩ mn mx ∧
    UniformInt.generate E ⟨8, true⟩ mn mx xs ≠ UniformInt.generate E ⟨16, true⟩ mn mx xs :=
  ⟨eng4, -128, 127, [15, 15], eng4_ok, by simp [Outputs, eng4], ⟨by decide, by decide, by decide, by decide⟩,
    ⟨by decide, by decide, by decide, by decide⟩, by decide⟩

/-- C151: `uniform_smallint` too, for all parameters. -/
theorem c151_smallint (E E' : EngInfo) (hE : EngOK E) (hE' : EngOK E') (hv : SameValues E E') (T T' : IntTy)
    (mn mx : Int) (hP : ParamOK T mn mx) (hP' : ParamOK T' mn mx) (xs : List Int) (hxs : Outputs E xs) :
    UniformSmallint.generate E T mn mx xs = UniformSmallint.generate E' T' mn mx xs := by
  obtain ⟨h1, h2⟩ := hv
  cases xs with
  | nil =>
    unfold UniformSmallint.generate
    rw [subtractT_spec hP.bits hP.max_ty hP.min_ty hP.le, EngInfo.brange_eq hE,
      subtractT_spec hP'.bits hP'.max_ty hP'.min_ty hP'.le, EngInfo.brange_eq hE']
  | cons x xs =>
    have hx := hxs x (by simp)
    rw [(c40_value E hE T mn mx hP x xs hx).1, (c40_value E' hE' T' mn mx hP' x xs (by rw [← h1, ← h2]; exact hx)).1, h1]

example : UniformSmallint.generate die ⟨8, true⟩ (-1) 2 [6, 3] = UniformSmallint.generate die ⟨32, true⟩ (-1) 2 [6, 3] := by decide

/-- C151: and `random_number_generator`. -/
theorem c151_rng (E E' : EngInfo) (hE : EngOK E) (hE' : EngOK E') (hv : SameValues E E') (T T' : IntTy)
    (hT : 1 ≤ T.bits) (hT' : 1 ≤ T'.bits) (n : Int) (hn : 0 < n) (hnT : InTy T n) (hnT' : InTy T' n)
    (xs : List Int) (hxs : Outputs E xs) :
    randomNumberGenerator E T n xs = randomNumberGenerator E' T' n xs := by
  have key : ∀ (F : EngInfo) (S : IntTy), 1 ≤ S.bits → InTy S n →
      ParamOK S 0 (n - 1) ∧ randomNumberGenerator F S n xs = UniformInt.generate F S 0 (n - 1) xs := by
    intro F S hS hnS
    have h0 : InTy S 0 := by
      unfold InTy InSigned at *
      have : (0 : Int) < 2 ^ (S.bits - 1) := by positivity
      have : (0 : Int) < 2 ^ S.bits := by positivity
      split <;> omega
    have h1 : InTy S (n - 1) := inTy_of_between h0 hnS (by omega) (by omega)
    refine ⟨⟨hS, h0, h1, by omega⟩, ?_⟩
    unfold randomNumberGenerator
    unfold InTy at h1
    cases hs : S.signed
    · simp only [hs, Bool.false_eq_true, if_false] at h1 ⊢
      rw [Int.emod_eq_of_lt h1.1 h1.2]
    · simp only [hs, if_true] at h1 ⊢
      rw [signedArith_some h1]
      simp only [wrapSigned_eq hS h1]
  rw [(key E T hT hnT).2, (key E' T' hT' hnT').2]
  exact c151_types_partial E E' hE hE' hv T T' 0 (n - 1) (key E T hT hnT).1 (key E' T' hT' hnT').1 (Or.inr rfl) xs hxs

example : randomNumberGenerator die ⟨8, true⟩ 36 [6, 6] = Draw.done 35 [] ∧
    randomNumberGenerator die ⟨64, false⟩ 36 [6, 6] = Draw.done 35 [] := by decide

end Boost.Random
