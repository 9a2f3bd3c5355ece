import Verif.Proofs.UniformCount
import Mathlib.Data.Rat.Defs
import Mathlib.Tactic.FieldSimp

/-!
# Properties C38-C40 and C53: uniform integers
-/

namespace Boost.Random
open Spec Finset

/-- a die: an engine with the six values 1..6 -/
def die : EngInfo := ⟨⟨32, true⟩, 1, 6⟩
/-- an engine with sixteen values -/
def eng4 : EngInfo := ⟨⟨32, false⟩, 0, 15⟩

theorem die_ok : EngOK die := ⟨by decide, by decide, by decide, by decide⟩
theorem eng4_ok : EngOK eng4 := ⟨by decide, by decide, by decide, by decide⟩

/-! ## C38 -/

/-- C38, no undefined behaviour and no read past the needed values: for all parameters, engines and
engine outputs the draw either returns a value, leaving a suffix of the outputs unread, or has used up
the outputs given. -/
theorem c38_no_ub (E : EngInfo) (hE : EngOK E) (T : IntTy) (mn mx : Int) (hP : ParamOK T mn mx)
    (xs : List Int) (hxs : Outputs E xs) :
    UniformInt.generate E T mn mx xs ≠ Draw.ub ∧
    ∀ v rest, UniformInt.generate E T mn mx xs = Draw.done v rest → rest <:+ xs := by
  rw [UniformInt.generate_eq_K hE hP xs hxs]
  have h := UniformInt.core_rest (UniformInt.EngInfo.b_ge hE) (xs.length + 1) ((mx - mn).toNat + 1) xs
    (UniformInt.outputs_dig hE hxs) (Nat.succ_pos _)
  change _ ∧ UniformInt.K E.b (dig E) ((mx - mn).toNat + 1) xs ≠ _ at h
  change (∀ v rest, UniformInt.K E.b (dig E) ((mx - mn).toNat + 1) xs = _ → _) ∧ _ at h
  cases hc : UniformInt.K E.b (dig E) ((mx - mn).toNat + 1) xs with
  | more => simp [Draw.map]
  | ub => exact absurd hc h.2
  | done a rest =>
    refine ⟨by rintro ⟨⟩, ?_⟩
    rintro v rest' ⟨⟩
    exact (h.1 _ _ hc).1

/-- C38 (guarded): the value is in `[mn, mx]`, unless the size of the range is a power `≥ 2` of the
number of engine values while `mn ≠ 0` and the range is not the whole type. `c38_range_iff` shows
that this guard is exact. -/
theorem c38_range_partial (E : EngInfo) (hE : EngOK E) (T : IntTy) (mn mx : Int) (hP : ParamOK T mn mx)
    (hg : ¬ ExactPower E mn mx ∨ mn = 0 ∨ FullRange T mn mx)
    (xs : List Int) (hxs : Outputs E xs) (v : Int) (rest : List Int)
    (h : UniformInt.generate E T mn mx xs = Draw.done v rest) : mn ≤ v ∧ v ≤ mx := by
  rw [UniformInt.generate_eq_K hE hP xs hxs] at h
  cases hc : UniformInt.K E.b (dig E) ((mx - mn).toNat + 1) xs with
  | more => rw [hc] at h; cases h
  | ub => rw [hc] at h; cases h
  | done a rest' =>
    rw [hc] at h
    simp only [Draw.map, Draw.done.injEq] at h
    rw [← h.1]
    exact UniformInt.out_range hP hg a (UniformInt.K_done_lt hE (Nat.succ_pos _) hxs hc).1

example : ¬ ExactPower die 1 100 ∧ ParamOK ⟨32, true⟩ 1 100 := by
  refine ⟨?_, ⟨by decide, by decide, by decide, by decide⟩⟩
  rintro ⟨k, hk, h⟩
  have h' : (100 : Int) = 6 ^ k := h
  have : 2 ≤ k := hk
  rcases Nat.lt_or_ge k 3 with h3 | h3
  · have : k = 2 := by omega
    subst this; norm_num at h'
  · have : (6 : Int) ^ 3 ≤ 6 ^ k := pow_le_pow_right₀ (by norm_num) h3
    rw [← h'] at this; norm_num at this
example : UniformInt.generate die ⟨32, true⟩ 1 100 [3, 5, 2, 6] = Draw.done 27 [6] := by decide

/-- C38, the exact extent of the defect: all values are in `[mn, mx]` for all engine outputs if and only
if the guard holds. -/
theorem c38_range_iff (E : EngInfo) (hE : EngOK E) (T : IntTy) (mn mx : Int) (hP : ParamOK T mn mx) :
    (∀ xs v rest, Outputs E xs → UniformInt.generate E T mn mx xs = Draw.done v rest → mn ≤ v ∧ v ≤ mx) ↔
    (¬ ExactPower E mn mx ∨ mn = 0 ∨ FullRange T mn mx) := by
  constructor
  · intro hall
    by_contra hcon
    rw [not_or, not_or, not_not] at hcon
    obtain ⟨hep, hm0, hfull⟩ := hcon
    obtain ⟨k, hk, hN⟩ := (UniformInt.exactPower_nat hE hP.le).1 hep
    have hle := hP.le
    have hsz := UniformInt.size_le hP
    have h2 := UniformInt.two_pow_half hP
    have hpc := pow_cast T.bits
    have h3 := pow_cast (T.bits - 1)
    have hmn := hP.min_ty
    have hmx := hP.max_ty
    have hval : ∀ v, v < (mx - mn).toNat + 1 → mn ≤ castT T v ∧ castT T v ≤ mx := by
      intro v hv
      rw [hN] at hv
      obtain ⟨xs, h1, h4⟩ := UniformInt.K_surj_pow hE k hk v hv
      apply hall xs _ [] h1
      rw [UniformInt.generate_eq_K hE hP xs h1, hN, h4]
      simp only [Draw.map, UniformInt.out]
      rw [if_pos hep]
    unfold FullRange at hfull
    have c0 := hval 0 (by omega)
    have c1 := hval (mx - mn).toNat (by omega)
    unfold InTy InSigned at hmn hmx
    rcases castT_cases T hP.bits 0 (by omega) with ⟨g0, _⟩ | ⟨_, g0, _⟩
    · rw [g0] at c0
      rcases castT_cases T hP.bits (mx - mn).toNat (by omega) with ⟨g, _⟩ | ⟨hs, g', g⟩
      · rw [g] at c1; omega
      · rw [g] at c1
        simp only [hs, if_true] at hmn hmx
        -- the offset 2^(w-1) wraps to the minimum of the type, 2^(w-1)-1 stays the maximum
        have c2 := hval (2 ^ (T.bits - 1)) (by omega)
        have c3 := hval (2 ^ (T.bits - 1) - 1) (by omega)
        rcases castT_cases T hP.bits (2 ^ (T.bits - 1)) (by omega) with ⟨_, k2⟩ | ⟨_, _, k2⟩
        · have := k2 hs; omega
        · rcases castT_cases T hP.bits (2 ^ (T.bits - 1) - 1) (by omega) with ⟨k3, _⟩ | ⟨_, k3, _⟩
          · rw [k2] at c2; rw [k3] at c3; omega
          · omega
    · have : (0 : Int) < 2 ^ (T.bits - 1) := by positivity
      simp only [Nat.cast_zero] at g0
      omega
  · intro hg xs v rest hxs h
    exact c38_range_partial E hE T mn mx hP hg xs hxs v rest h

/-- C38 is false: with a 16-valued engine, `uniform_int_distribution<int>(10, 265)` (256 = 16² values)
returns 0; with a die, `uniform_int_distribution<int>(1, 36)` returns 0. -/
theorem c38_range_false :
    UniformInt.generate eng4 ⟨32, true⟩ 10 265 [0, 0] = Draw.done 0 [] ∧
    UniformInt.generate die ⟨32, true⟩ 1 36 [1, 1] = Draw.done 0 [] := by decide

/-! ## C39 -/

/-- C39 (same guard as C38): for every number `n`, all values of `[mn, mx]` are returned for equally
many of the `n`-tuples of engine values that are used up exactly. -/
theorem c39_uniform_partial (E : EngInfo) (hE : EngOK E) (T : IntTy) (mn mx : Int) (hP : ParamOK T mn mx)
    (hg : ¬ ExactPower E mn mx ∨ mn = 0 ∨ FullRange T mn mx) (n : Nat) (v v' : Int)
    (hv : mn ≤ v ∧ v ≤ mx) (hv' : mn ≤ v' ∧ v' ≤ mx) :
    count E (UniformInt.generate E T mn mx) n v = count E (UniformInt.generate E T mn mx) n v' := by
  obtain ⟨u, hu, rfl⟩ := UniformInt.out_surj hP hg v hv
  obtain ⟨u', hu', rfl⟩ := UniformInt.out_surj hP hg v' hv'
  rw [UniformInt.count_generate hE hP n u hu, UniformInt.count_generate hE hP n u' hu']
  exact UniformInt.cnt_K_uniform hE _ u u' hu hu' n

/-- C39 is not vacuous: every value of `[mn, mx]` is returned for some engine outputs. -/
theorem c39_attained_partial (E : EngInfo) (hE : EngOK E) (T : IntTy) (mn mx : Int) (hP : ParamOK T mn mx)
    (hg : ¬ ExactPower E mn mx ∨ mn = 0 ∨ FullRange T mn mx) (v : Int) (hv : mn ≤ v ∧ v ≤ mx) :
    ∃ n, 0 < count E (UniformInt.generate E T mn mx) n v := by
  obtain ⟨u, hu, rfl⟩ := UniformInt.out_surj hP hg v hv
  obtain ⟨xs, h1, h2⟩ := UniformInt.K_zero hE ((mx - mn).toNat + 1) (Nat.succ_pos _)
  refine ⟨xs.length, ?_⟩
  rw [UniformInt.count_generate hE hP _ u hu, UniformInt.cnt_K_uniform hE _ u 0 hu (Nat.succ_pos _)]
  exact UniformInt.cnt_pos _ xs h1 0 h2

/-- C39 outside the guard: the values are uniform, but over the wrong set, `mn` having been forgotten. -/
theorem c39_uniform_exact_power (E : EngInfo) (hE : EngOK E) (T : IntTy) (mn mx : Int) (hP : ParamOK T mn mx)
    (hep : ExactPower E mn mx) (n : Nat) (i j : Nat) (hi : (i : Int) ≤ mx - mn) (hj : (j : Int) ≤ mx - mn) :
    count E (UniformInt.generate E T mn mx) n (castT T i) = count E (UniformInt.generate E T mn mx) n (castT T j) := by
  have hle := hP.le
  have ho : ∀ u : Nat, castT T u = UniformInt.out E T mn mx u := by
    intro u; unfold UniformInt.out; rw [if_pos hep]
  rw [ho, ho, UniformInt.count_generate hE hP n i (by omega), UniformInt.count_generate hE hP n j (by omega)]
  exact UniformInt.cnt_K_uniform hE _ i j (by omega) (by omega) n

/-- C39 is false as stated: a die asked for 1..36 never returns 36 but returns 1. -/
theorem c39_uniform_false : count die (UniformInt.generate die ⟨32, true⟩ 1 36) 2 36 = 0 ∧
    count die (UniformInt.generate die ⟨32, true⟩ 1 36) 2 1 = 1 := by decide +kernel

example : count die (UniformInt.generate die ⟨32, true⟩ (-3) 6) 2 (-3) = 3 ∧
    count die (UniformInt.generate die ⟨32, true⟩ (-3) 6) 2 6 = 3 := by decide +kernel

/-! ## C40 -/

/-- C40: one engine value is used and the result is `mn + (x - min) mod (range + 1)` when the engine has
more values than the range, `mn + (x - min)` otherwise; so it is in `[mn, mx]`. -/
theorem c40_value (E : EngInfo) (hE : EngOK E) (T : IntTy) (mn mx : Int) (hP : ParamOK T mn mx)
    (x : Int) (xs : List Int) (hx : E.min ≤ x ∧ x ≤ E.max) :
    UniformSmallint.generate E T mn mx (x :: xs) = Draw.done (mn + (x - E.min) % (mx - mn + 1)) xs ∧
    mn ≤ mn + (x - E.min) % (mx - mn + 1) ∧ mn + (x - E.min) % (mx - mn + 1) ≤ mx := by
  have hle := hP.le
  have hpos : 0 < mx - mn + 1 := by omega
  have h1 := Int.emod_nonneg (x - E.min) (show mx - mn + 1 ≠ 0 by omega)
  have h2 := Int.emod_lt_of_pos (x - E.min) hpos
  refine ⟨?_, by omega, by omega⟩
  have hsz := UniformInt.size_le hP
  have hble := EngInfo.b_le hE
  have hd := dig_lt hx
  have hmod : (((dig E x) % ((mx - mn).toNat + 1) : Nat) : Int) = (x - E.min) % (mx - mn + 1) := by
    push_cast
    congr 1
    · unfold dig; omega
    · omega
  unfold UniformSmallint.generate
  rw [subtractT_spec hP.bits hP.max_ty hP.min_ty hle, EngInfo.brange_eq hE]
  simp only [EngInfo.diff_eq hE hx]
  by_cases hc : E.b - 1 ≤ (mx - mn).toNat
  · rw [if_pos hc, Nat.mod_eq_of_lt (a := dig E x) (by omega), addT_spec hP.bits (by omega) hP.min_ty
      (inTy_of_between hP.min_ty hP.max_ty (by omega) (by omega))]
    simp only
    rw [← hmod, Nat.mod_eq_of_lt (by omega)]
  · rw [if_neg hc]
    have hb := UniformInt.EngInfo.b_ge hE
    rw [Nat.mod_eq_of_lt (a := (mx - mn).toNat) (by omega), UniformInt.uns_add (by omega) (by omega),
      Nat.mod_eq_of_lt (a := (mx - mn).toNat + 1) (by omega)]
    simp only
    rw [if_neg (by omega)]
    have hlt : dig E x % ((mx - mn).toNat + 1) < (mx - mn).toNat + 1 := Nat.mod_lt _ (by omega)
    rw [Nat.mod_eq_of_lt (b := 2 ^ T.bits) (by omega), addT_spec hP.bits (by omega) hP.min_ty
      (inTy_of_between hP.min_ty hP.max_ty (by omega) (by omega)), hmod]

example : UniformSmallint.generate die ⟨32, true⟩ (-1) 2 [6, 3] = Draw.done 0 [3] := by decide

theorem sum_ite_lt (a b : Nat) (A B : Rat) (h : a ≤ b) :
    ∑ i ∈ range b, (if i < a then A else B) = a * A + (b - a : Nat) * B := by
  obtain ⟨t, rfl⟩ := Nat.exists_eq_add_of_le h
  rw [sum_range_add]
  have h1 : ∑ i ∈ range a, (if i < a then A else B) = ∑ i ∈ range a, A :=
    sum_congr rfl fun i hi => if_pos (mem_range.1 hi)
  have h2 : ∑ i ∈ range t, (if a + i < a then A else B) = ∑ i ∈ range t, B :=
    sum_congr rfl fun i _ => if_neg (by omega)
  rw [h1, h2]
  simp

theorem card_mod_eq (b N i : Nat) (hi : i < N) :
    ((List.range b).countP fun d => decide (d % N = i)) = b / N + if i < b % N then 1 else 0 := by
  have hN : 0 < N := by omega
  induction b with
  | zero => simp
  | succ b ih =>
    rw [List.range_succ, List.countP_append, ih]
    have h1 := Nat.div_add_mod b N
    have h2 := Nat.mod_lt b hN
    by_cases hw : b % N + 1 = N
    · have h3 : (b + 1) / N = b / N + 1 := by
        have : b + 1 = N * (b / N + 1) := by rw [Nat.mul_add]; omega
        rw [this, Nat.mul_div_cancel_left _ hN]
      have h4 : (b + 1) % N = 0 := by
        have : b + 1 = N * (b / N + 1) := by rw [Nat.mul_add]; omega
        rw [this]; exact Nat.mul_mod_right _ _
      rw [h3, h4]
      by_cases he : b % N = i
      · simp [he]
      · simp [he]
        omega
    · have h3 : (b + 1) / N = b / N := by
        apply Nat.div_eq_of_lt_le
        · rw [Nat.mul_comm]; omega
        · rw [Nat.mul_comm, Nat.mul_add]; omega
      have h4 : (b + 1) % N = b % N + 1 := by
        have := Nat.div_add_mod (b + 1) N
        rw [h3] at this; omega
      rw [h3, h4]
      by_cases he : b % N = i
      · simp [he]
      · simp only [List.countP_cons, List.countP_nil, he]
        simp
        split <;> split <;> omega

/-- C40: number of engine values that give `mn + i`. -/
theorem c40_count (E : EngInfo) (hE : EngOK E) (T : IntTy) (mn mx : Int) (hP : ParamOK T mn mx) (i : Nat)
    (hi : (i : Int) ≤ mx - mn) :
    let rOut := (mx - mn).toNat + 1
    let rBase := (E.max - E.min).toNat + 1
    count E (UniformSmallint.generate E T mn mx) 1 (mn + i) = rBase / rOut + if i < rBase % rOut then 1 else 0 := by
  intro rOut rBase
  have hle := hP.le
  rw [← card_mod_eq rBase rOut i (by omega)]
  unfold count
  simp only [tuples, List.map_cons, List.map_nil]
  rw [show ((List.range ((E.max - E.min).toNat + 1)).flatMap fun d : Nat => [[E.min + (d : Int)]]) =
    (List.range rBase).map fun d : Nat => [E.min + (d : Int)] by rw [List.map_eq_flatMap]]
  rw [List.countP_map]
  apply List.countP_congr
  intro d hd
  have hd' := List.mem_range.1 hd
  have hlt := hE.lt
  simp only [Function.comp, decide_eq_true_eq]
  rw [(c40_value E hE T mn mx hP (E.min + (d : Int)) [] (by omega)).1]
  have : (E.min + (d : Int) - E.min) % (mx - mn + 1) = ((d % rOut : Nat) : Int) := by
    push_cast; congr 1 <;> omega
  rw [this]
  simp only [Draw.done.injEq, and_true]
  omega

/-- C40, the documented bound: with `p(i)` the fraction of engine values giving `mn + i` and
`p_uniform = 1 / r_out`, the sum of `(p(i)/p_uniform - 1)^2` is
`r_out/r_base^2 * (r_base mod r_out) * (r_out - r_base mod r_out)`. -/
theorem c40_quantization (E : EngInfo) (hE : EngOK E) (T : IntTy) (mn mx : Int) (hP : ParamOK T mn mx) :
    let rOut := (mx - mn).toNat + 1
    let rBase := (E.max - E.min).toNat + 1
    let p : Nat → Rat := fun i => (count E (UniformSmallint.generate E T mn mx) 1 (mn + i) : Rat) / rBase
    ∑ i ∈ range rOut, (p i / (1 / rOut) - 1) ^ 2 =
      (rOut : Rat) / rBase ^ 2 * (rBase % rOut : Nat) * (rOut - (rBase % rOut : Nat)) := by
  intro rOut rBase p
  have hle := hP.le
  have hO : (rOut : Rat) ≠ 0 := by simp [rOut]; positivity
  have hB : (rBase : Rat) ≠ 0 := by simp [rBase]; positivity
  have hs : rBase % rOut < rOut := Nat.mod_lt _ (by omega)
  have hdm : (rBase : Rat) = rOut * (rBase / rOut : Nat) + (rBase % rOut : Nat) := by
    exact_mod_cast (Nat.div_add_mod rBase rOut).symm
  have hterm : ∀ i ∈ range rOut, (p i / (1 / rOut) - 1) ^ 2 =
      if i < rBase % rOut then ((rOut - (rBase % rOut : Nat) : Rat) / rBase) ^ 2
      else (((rBase % rOut : Nat) : Rat) / rBase) ^ 2 := by
    intro i hi
    have hi' := mem_range.1 hi
    have := c40_count E hE T mn mx hP i (by omega)
    simp only [p]
    rw [this]
    change ((((rBase / rOut + if i < rBase % rOut then 1 else 0) : Nat) : Rat) / rBase / (1 / rOut) - 1) ^ 2 = _
    generalize rBase / rOut = q at *
    generalize rBase % rOut = s at *
    split
    · congr 1
      rw [div_div_eq_mul_div, div_one, div_mul_eq_mul_div, div_sub_one hB]
      congr 1
      push_cast; rw [hdm]; ring
    · rw [div_div_eq_mul_div, div_one, div_mul_eq_mul_div, div_sub_one hB, ← neg_sq, ← neg_div]
      congr 2
      push_cast; rw [hdm]; ring
  rw [sum_congr rfl hterm, sum_ite_lt _ _ _ _ hs.le]
  rw [Nat.cast_sub hs.le]
  field_simp
  ring

example : count die (UniformSmallint.generate die ⟨32, true⟩ 0 3) 1 0 = 2 := by decide +kernel

/-! ## C53 -/

/-- C53: for every `n > 0` of the type the result is in `[0, n)`, without undefined behaviour. -/
theorem c53_range (E : EngInfo) (hE : EngOK E) (T : IntTy) (hT : 1 ≤ T.bits) (n : Int) (hn : 0 < n) (hnT : InTy T n)
    (xs : List Int) (hxs : Outputs E xs) :
    randomNumberGenerator E T n xs ≠ Draw.ub ∧
    ∀ v rest, randomNumberGenerator E T n xs = Draw.done v rest → 0 ≤ v ∧ v < n := by
  have h0 : InTy T 0 := by
    unfold InTy InSigned at *
    have : (0 : Int) < 2 ^ (T.bits - 1) := by positivity
    have : (0 : Int) < 2 ^ T.bits := by positivity
    split <;> omega
  have h1 : InTy T (n - 1) := inTy_of_between h0 hnT (by omega) (by omega)
  have hP : ParamOK T 0 (n - 1) := ⟨hT, h0, h1, by omega⟩
  have he : randomNumberGenerator E T n xs = UniformInt.generate E T 0 (n - 1) xs := by
    unfold randomNumberGenerator
    unfold InTy at h1
    cases hs : T.signed
    · simp only [hs, Bool.false_eq_true, if_false] at h1 ⊢
      rw [Int.emod_eq_of_lt h1.1 h1.2]
    · simp only [hs, if_true] at h1 ⊢
      rw [signedArith_some h1]
      simp only [wrapSigned_eq hT h1]
  rw [he]
  refine ⟨(c38_no_ub E hE T 0 (n - 1) hP xs hxs).1, fun v rest h => ?_⟩
  have := c38_range_partial E hE T 0 (n - 1) hP (Or.inr (Or.inl rfl)) xs hxs v rest h
  omega

/-- C53: all values of `[0, n)` are equally likely, and all are possible. -/
theorem c53_uniform (E : EngInfo) (hE : EngOK E) (T : IntTy) (hT : 1 ≤ T.bits) (n : Int) (hn : 0 < n) (hnT : InTy T n)
    (v v' : Int) (hv : 0 ≤ v ∧ v < n) (hv' : 0 ≤ v' ∧ v' < n) :
    (∀ k, count E (randomNumberGenerator E T n) k v = count E (randomNumberGenerator E T n) k v') ∧
    ∃ k, 0 < count E (randomNumberGenerator E T n) k v := by
  have h0 : InTy T 0 := by
    unfold InTy InSigned at *
    have : (0 : Int) < 2 ^ (T.bits - 1) := by positivity
    have : (0 : Int) < 2 ^ T.bits := by positivity
    split <;> omega
  have h1 : InTy T (n - 1) := inTy_of_between h0 hnT (by omega) (by omega)
  have hP : ParamOK T 0 (n - 1) := ⟨hT, h0, h1, by omega⟩
  have he : randomNumberGenerator E T n = UniformInt.generate E T 0 (n - 1) := by
    funext xs
    unfold randomNumberGenerator
    unfold InTy at h1
    cases hs : T.signed
    · simp only [hs, Bool.false_eq_true, if_false] at h1 ⊢
      rw [Int.emod_eq_of_lt h1.1 h1.2]
    · simp only [hs, if_true] at h1 ⊢
      rw [signedArith_some h1]
      simp only [wrapSigned_eq hT h1]
  rw [he]
  exact ⟨fun k => c39_uniform_partial E hE T 0 (n - 1) hP (Or.inr (Or.inl rfl)) k v v' (by omega) (by omega),
    c39_attained_partial E hE T 0 (n - 1) hP (Or.inr (Or.inl rfl)) v (by omega)⟩

example : randomNumberGenerator die ⟨32, true⟩ 36 [6, 6] = Draw.done 35 [] := by decide
example : randomNumberGenerator die ⟨64, false⟩ 4 [6, 2] = Draw.done 1 [] := by decide

end Boost.Random
