import Verif.Proofs.DiscreteRealWitness
import Verif.Proofs.BinomialWitness
import Verif.Proofs.NearPow
import Verif.Props.RealDist

/-!
# Properties C73, C74, C75, C76: the binomial distribution

`Binomial.init` constructs `binomial_distribution<IntType, RealType>(t, p)` for a signed `IntType` of `bits` bits, `Binomial.next` draws a number. The
input are the results of `uniform_01`, of which all that is known here is that they lie in `[0, 1)`.
-/

namespace Boost.Random
open Spec RealDist Binomial

/-! ## C73: inversion in exact arithmetic -/

section
variable {bits t : Nat} {p : ℝ}

theorem mirror_min : (if 1 / 2 < p then exactOps.fl (1 - p) else p) = min p (1 - p) := by
  split
  · rw [min_eq_right (by linarith)]; rfl
  · rw [min_eq_left (by linarith)]

theorem init_exact (h0 : 0 ≤ p) (h1 : p ≤ 1) (ht : t + 1 < 2 ^ (bits - 1)) :
    Binomial.init exactOps bits t p = some ⟨t, p, ⌊((t : ℝ) + 1) * min p (1 - p)⌋,
      if ⌊((t : ℝ) + 1) * min p (1 - p)⌋ < 11 then .inl ((1 - min p (1 - p)) ^ t) else .inr (btrd exactOps t (min p (1 - p)))⟩ := by
  have hp : (0 : Int) < 2 ^ (bits - 1) := by positivity
  have ht' : ((t : Int) + 1) < 2 ^ (bits - 1) := by exact_mod_cast ht
  unfold Binomial.init
  rw [if_pos ⟨by omega, ht'⟩]
  dsimp only
  rw [mirror_min]
  have hmn : 0 ≤ min p (1 - p) := le_min h0 (by linarith)
  have hm1 : min p (1 - p) ≤ 1 := (min_le_left _ _).trans h1
  have e : exactOps.fl (exactOps.fl (((t : Int) + 1 : Int) : ℝ) * min p (1 - p)) = ((t : ℝ) + 1) * min p (1 - p) := by
    simp only [exactOps, id]; push_cast; rfl
  rw [e]
  have hnn : 0 ≤ ((t : ℝ) + 1) * min p (1 - p) := by positivity
  have hc : castSigned bits (((t : ℝ) + 1) * min p (1 - p)) = some ⌊((t : ℝ) + 1) * min p (1 - p)⌋ := by
    unfold castSigned
    dsimp only
    rw [if_pos hnn, if_pos]
    refine ⟨by have := Int.floor_nonneg.2 hnn; omega, lt_of_le_of_lt ?_ ht'⟩
    rw [Int.floor_le_iff]
    push_cast
    have : ((t : ℝ) + 1) * min p (1 - p) ≤ ((t : ℝ) + 1) * 1 := mul_le_mul_of_nonneg_left hm1 (by positivity)
    linarith
  rw [hc]
  have hpw : exactOps.fl (exactOps.pow (exactOps.fl (1 - min p (1 - p))) (exactOps.fl ((t : Int) : ℝ))) = (1 - min p (1 - p)) ^ t := by
    simp only [exactOps, id, Int.cast_natCast, Real.rpow_natCast]
  rw [hpw]

/-- When fewer than eleven successes (or failures, if these are the less probable) are expected, the distribution inverts the cumulative
distribution function: it takes one value of `uniform_01`, and the number of the less probable outcomes is the least whose cumulative
probability reaches that value, or the first that is cut off because its probability is below `eps` and falling. -/
theorem c73_inversion {eps : ℝ} (h0 : 0 ≤ p) (h1 : p ≤ 1) (ht : t + 1 < 2 ^ (bits - 1)) (hm : (t + 1) * min p (1 - p) < 11) :
    ∃ d, Binomial.init exactOps bits t p = some d ∧ ∀ u, 0 ≤ u → u < 1 → ∀ vs, ∃ k : Nat, k ≤ t ∧ Binomial.next exactOps bits eps d (u :: vs) = .done k vs ∧
      IsLeast {x | u ≤ cdf (binPmf t (min p (1 - p))) x ∨ Cut (binPmf t (min p (1 - p))) eps x} (if 1 / 2 < p then t - k else k) := by
  refine ⟨_, init_exact h0 h1 ht, fun u hu0 hu vs => ?_⟩
  have hfl : ⌊((t : ℝ) + 1) * min p (1 - p)⌋ < 11 := by rw [Int.floor_lt]; exact_mod_cast hm
  rw [if_pos hfl]
  have hm1 : min p (1 - p) < 1 := by
    rcases le_or_gt p (1 / 2) with h | h
    · exact lt_of_le_of_lt (min_le_left _ _) (by linarith)
    · exact lt_of_le_of_lt (min_le_right _ _) (by linarith)
  obtain ⟨y, e, hy, hL⟩ := invert_exact (bits := bits) (eps := eps) hm1 hu (show t < 2 ^ (bits - 1) by omega)
  have hpp : (0 : Int) < 2 ^ (bits - 1) := by positivity
  have ht' : ((t : Int) + 1) < 2 ^ (bits - 1) := by exact_mod_cast ht
  unfold Binomial.next
  dsimp only
  rw [mirror_min, e]
  dsimp only
  by_cases hp : 1 / 2 < p
  · simp only [if_pos hp]
    rw [if_pos ⟨by omega, by omega⟩]
    refine ⟨t - y, by omega, ?_, ?_⟩
    · rw [Nat.cast_sub hy]
    · rw [Nat.sub_sub_self hy]; exact hL
  · simp only [if_neg hp]
    rw [if_pos ⟨by omega, by omega⟩]
    exact ⟨y, hy, rfl, hL⟩

/-- Five throws of a coin in `int`. -/
example : (0 : ℝ) ≤ 1 / 2 ∧ (1 / 2 : ℝ) ≤ 1 ∧ 5 + 1 < 2 ^ (32 - 1) ∧ ((5 : Nat) + 1 : ℝ) * min (1 / 2) (1 - 1 / 2) < 11 := by norm_num

theorem binPmf_mirror {k : Nat} (hk : k ≤ t) : binPmf t (1 - p) (t - k) = binPmf t p k := by
  unfold binPmf
  rw [Nat.choose_symm hk, Nat.sub_sub_self hk, sub_sub_cancel]
  ring

theorem isLeast_no_cut {u eps : ℝ} {f : Nat → ℝ} {x : Nat} (hx : ∀ j ≤ x, ¬ Cut f eps j) :
    IsLeast {k | u ≤ cdf f k ∨ Cut f eps k} x ↔ IsLeast {k | u ≤ cdf f k} x := by
  constructor
  · rintro ⟨a, b⟩
    exact ⟨a.resolve_right (hx x le_rfl), fun j hj => b (Or.inl hj)⟩
  · rintro ⟨a, b⟩
    refine ⟨Or.inl a, fun j hj => ?_⟩
    by_contra hlt
    rcases hj with hj | hj
    · exact hlt (b hj)
    · exact hx j (by omega) hj

/-- The values of `u` that give `k` successes have the measure of the binomial probability of `k`, when the loop does not cut off before. -/
theorem c73_probability {eps : ℝ} (h0 : 0 ≤ p) (h1 : p ≤ 1) (ht : t + 1 < 2 ^ (bits - 1)) (hm : (t + 1) * min p (1 - p) < 11) {k : Nat} (hk : k ≤ t)
    (hcut : ∀ j ≤ (if 1 / 2 < p then t - k else k), ¬ Cut (binPmf t (min p (1 - p))) eps j) :
    ∃ d, Binomial.init exactOps bits t p = some d ∧
      MeasureTheory.volume {u : ℝ | 0 ≤ u ∧ u < 1 ∧ Binomial.next exactOps bits eps d [u] = .done k []} = ENNReal.ofReal (binPmf t p k) := by
  obtain ⟨d, hd, hn⟩ := c73_inversion (eps := eps) h0 h1 ht hm
  refine ⟨d, hd, ?_⟩
  have hnn : ∀ k, 0 ≤ binPmf t (min p (1 - p)) k := binPmf_nonneg (le_min h0 (by linarith)) ((min_le_left _ _).trans h1)
  have e : binPmf t p k = binPmf t (min p (1 - p)) (if 1 / 2 < p then t - k else k) := by
    by_cases hp : 1 / 2 < p
    · rw [if_pos hp, min_eq_right (by linarith), binPmf_mirror hk]
    · rw [if_neg hp, min_eq_left (by linarith)]
  have hle : (if 1 / 2 < p then t - k else k) ≤ t := by split <;> omega
  rw [e, ← volume_cdf hnn ((cdf_mono hnn hle).trans_eq cdf_binPmf)]
  congr 1
  ext u
  simp only [Set.mem_ofPred_eq]
  refine and_congr_right fun a => and_congr_right fun b => ?_
  obtain ⟨k', hk', e', hL⟩ := hn u a b []
  rw [e']
  constructor
  · intro h
    injection h with h _
    have h : k' = k := by exact_mod_cast h
    rw [h] at hL
    exact (isLeast_no_cut hcut).1 hL
  · intro h
    have := hL.unique ((isLeast_no_cut hcut).2 h)
    have : k' = k := by split at this <;> omega
    rw [this]

/-- Two of five throws of a coin: `10 / 32`. -/
example : (∀ j ≤ (if (1 / 2 : ℝ) < 1 / 2 then 5 - 2 else 2), ¬ Cut (binPmf 5 (min (1 / 2 : ℝ) (1 - 1 / 2))) (2 / 2 ^ 53) j) ∧ binPmf 5 (1 / 2 : ℝ) 2 = 10 / 32 := by
  constructor
  · intro j hj hc
    rw [if_neg (by norm_num)] at hj
    have := hc.2.1
    rw [show min (1 / 2 : ℝ) (1 - 1 / 2) = 1 / 2 by norm_num] at this
    have : j = 0 ∨ j = 1 ∨ j = 2 := by omega
    rcases this with rfl | rfl | rfl <;> norm_num [binPmf, Nat.choose] at this
  · norm_num [binPmf, Nat.choose]

end

/-- C73 is false for the largest number of trials: the constructor adds one to it, which is undefined. -/
theorem c73_init_false {K : Type} [Field K] [LinearOrder K] [FloorRing K] (o : RealOps K) (bits : Nat) (p : K) :
    Binomial.init o bits (2 ^ (bits - 1) - 1) p = none := by
  unfold Binomial.init
  rw [if_neg]
  rintro ⟨_, h⟩
  omega

example : InSigned 32 (2 ^ (32 - 1) - 1) := by decide

/-! ## C74: inversion with rounding -/

/-- Rounding to nearest, any library functions (of which `pow` is positive here): inversion ends, has no undefined behaviour, and its result is
at most one outside the range from `0` to `t`. -/
theorem c74_range_partial {P : Nat} (hP : 2 ≤ P) {fl : ℚ → ℚ} (H : Nearest P fl) (o : RealOps ℚ) (ho : o.fl = fl) {bits t : Nat} (ht : t + 1 < 2 ^ (bits - 1))
    {p : ℚ} (hp : Representable P p) (h0 : 0 ≤ p) (h1 : p ≤ 1) {d : Binomial.Dist ℚ} (hd : Binomial.init o bits t p = some d) {qn : ℚ} (hq : d.u = .inl qn) (hq0 : 0 < qn)
    {u : ℚ} (hu : u ≤ 1) (vs : List ℚ) : ∃ k : Int, Binomial.next o bits (2 / 2 ^ P) d (u :: vs) = .done k vs ∧ -1 ≤ k ∧ k ≤ t + 1 ∧
      (p ≤ 1 / 2 → 0 ≤ k) ∧ (1 / 2 < p → k ≤ t) := by
  have R := Boost.Random.Nearest.rounding H
  unfold Binomial.init at hd
  split at hd
  swap
  · cases hd
  dsimp only at hd
  split at hd
  · cases hd
  rename_i m _
  have hd := Option.some.inj hd
  have e1 : d.t = t := by rw [← hd]
  have e2 : d.p = p := by rw [← hd]
  have hqr : Representable P qn := by
    rw [← hd] at hq
    dsimp only at hq
    split at hq
    · rw [← Sum.inl.inj hq, ho]; exact R.repr _
    · cases hq
  have hpr : Representable P (if 1 / 2 < p then o.fl (1 - p) else p) := by
    split
    · rw [ho]; exact R.repr _
    · exact hp
  have hph : 0 ≤ (if 1 / 2 < p then o.fl (1 - p) else p) ∧ (if 1 / 2 < p then o.fl (1 - p) else p) ≤ 1 / 2 := by
    split
    · rename_i h
      rw [ho]
      constructor
      · rw [← R.exact _ (Representable.zero P)]; exact R.mono _ _ (by linarith)
      · rw [← R.exact (1 / 2) (by simpa using Representable.inv_two_pow (by omega : 1 ≤ P) 1)]; exact R.mono _ _ (by linarith)
    · exact ⟨h0, by linarith⟩
  obtain ⟨y, hy, hy'⟩ := invert_range hP H o ho ht hpr hph.1 hph.2 hqr hq0 hu
  have hpp : (1 : Int) ≤ 2 ^ (bits - 1) := by exact_mod_cast Nat.one_le_two_pow
  have ht' : ((t : Int) + 1) < 2 ^ (bits - 1) := by exact_mod_cast ht
  unfold Binomial.next
  dsimp only
  rw [hq, e1, e2]
  dsimp only
  rw [hy]
  dsimp only
  by_cases hp : 1 / 2 < p
  · simp only [if_pos hp]
    rw [if_pos ⟨by omega, by omega⟩]
    exact ⟨_, rfl, by omega, by omega, fun h => absurd hp (not_lt.2 h), fun _ => by omega⟩
  · simp only [if_neg hp]
    rw [if_pos ⟨by omega, by omega⟩]
    exact ⟨_, rfl, by omega, by omega, fun _ => by omega, fun h => absurd h hp⟩

/-- `binomial_distribution<int, float>(3, 53/128)`. -/
example : Representable 24 (53 / 128) ∧ (0 : ℚ) < 421875 / 2097152 := ⟨⟨53, -7, by norm_num, by norm_num⟩, by norm_num⟩

theorem init_double {fl : ℚ → ℚ} (H : Nearest 53 fl) (o : RealOps ℚ) (ho : o.fl = fl) (hpow : o.pow (37 / 64) 3 = (37 / 64) ^ 3) {p : ℚ} (hp : p = 27 / 64 ∨ p = 37 / 64) :
    ∃ m, Binomial.init o 32 3 p = some ⟨3, p, m, .inl (50653 / 262144)⟩ := by
  subst ho
  have R := Boost.Random.Nearest.rounding H
  have e0 : (if 1 / 2 < p then o.fl (1 - p) else p) = 27 / 64 := by
    rcases hp with rfl | rfl
    · rw [if_neg (by norm_num)]
    · rw [if_pos (by norm_num)]; exact fl_exact R 27 (-6) (by norm_num) (by norm_num) (by norm_num)
  have e1 : o.fl (((3 : Int) + 1 : Int) : ℚ) = 4 := fl_exact R 4 0 (by norm_num) (by norm_num) (by norm_num)
  have e2 : o.fl (4 * (27 / 64)) = 27 / 16 := fl_exact R 27 (-4) (by norm_num) (by norm_num) (by norm_num)
  have e3 : o.fl (1 - 27 / 64) = 37 / 64 := fl_exact R 37 (-6) (by norm_num) (by norm_num) (by norm_num)
  have e4 : o.fl ((3 : Int) : ℚ) = 3 := fl_exact R 3 0 (by norm_num) (by norm_num) (by norm_num)
  have e5 : o.fl ((37 / 64) ^ 3) = 50653 / 262144 := fl_exact R 50653 (-18) (by norm_num) (by norm_num) (by norm_num)
  have e6 : castSigned 32 (27 / 16 : ℚ) = some 1 := by
    unfold castSigned
    have : ⌊(27 / 16 : ℚ)⌋ = 1 := by rw [Int.floor_eq_iff]; norm_num
    rw [this]
    norm_num [InSigned]
  refine ⟨1, ?_⟩
  unfold Binomial.init
  rw [if_pos (by decide)]
  dsimp only
  rw [e0, e1, e2, e6]
  dsimp only
  rw [e3, e4, hpow, e5, if_pos (by norm_num)]

/-- C74 is false for the range: three trials of probability 27/64 in `double` give four successes, and three trials of probability 37/64 give
minus one, for the largest value of `uniform_01`, which `mt19937_64` can give. -/
theorem c74_range_false {fl : ℚ → ℚ} (H : Nearest 53 fl) (o : RealOps ℚ) (ho : o.fl = fl) (hpow : o.pow (37 / 64) 3 = (37 / 64) ^ 3) :
    (∃ d, Binomial.init o 32 3 (27 / 64) = some d ∧ Binomial.next o 32 (2 / 2 ^ 53) d [1 - 1 / 2 ^ 53] = .done 4 []) ∧
    (∃ d, Binomial.init o 32 3 (37 / 64) = some d ∧ Binomial.next o 32 (2 / 2 ^ 53) d [1 - 1 / 2 ^ 53] = .done (-1) []) ∧
    uniform01 fl engMt64 [2 ^ 64 - 2 ^ 11] = .done (1 - 1 / 2 ^ 53) [] := by
  have e := invert_double H o ho (bits := 32) (by decide)
  have eu : (1 - 1 / 2 ^ 53 : ℚ) = 9007199254740991 / 9007199254740992 := by norm_num
  have R := Boost.Random.Nearest.rounding H
  refine ⟨?_, ?_, ?_⟩
  · obtain ⟨m, hd⟩ := init_double H o ho hpow (Or.inl rfl)
    refine ⟨_, hd, ?_⟩
    unfold Binomial.next
    dsimp only
    rw [if_neg (by norm_num), eu, e]
    dsimp only
    simp only [if_neg (show ¬ (1 / 2 : ℚ) < 27 / 64 by norm_num)]
    rw [if_pos (by decide)]
    rfl
  · obtain ⟨m, hd⟩ := init_double H o ho hpow (Or.inr rfl)
    refine ⟨_, hd, ?_⟩
    have h1 : o.fl (1 - 37 / 64) = 27 / 64 := by subst ho; exact fl_exact R 27 (-6) (by norm_num) (by norm_num) (by norm_num)
    unfold Binomial.next
    dsimp only
    rw [if_pos (by norm_num), h1, eu, e]
    dsimp only
    simp only [if_pos (show (1 / 2 : ℚ) < 37 / 64 by norm_num)]
    rw [if_pos (by decide)]
    rfl
  · have f1 : fl ((18446744073709551615 : Int) : ℚ) = 2 ^ 64 := fl_near_pow (by decide) H 64 (by norm_num) (by norm_num)
    have f2 : fl 1 = 1 := R.exact _ (Representable.one (by decide))
    have f3 : fl (2 ^ 64 + 1) = 2 ^ 64 := fl_near_pow (by decide) H 64 (by norm_num) (by norm_num)
    have f4 : fl (1 / 2 ^ 64) = 1 / 2 ^ 64 := R.exact _ (Representable.inv_two_pow (by decide) 64)
    have f5 : fl ((18446744073709549568 : Int) : ℚ) = 18446744073709549568 := fl_exact R 9007199254740991 11 (by norm_num) (by norm_num) (by norm_num)
    have f6 : fl (18446744073709549568 * (1 / 2 ^ 64)) = 1 - 1 / 2 ^ 53 := fl_exact R 9007199254740991 (-53) (by norm_num) (by norm_num) (by norm_num)
    unfold uniform01
    have g1 : subTy engMt64.ty engMt64.max engMt64.min = some 18446744073709551615 := by decide
    have g2 : subTy engMt64.ty (2 ^ 64 - 2 ^ 11) engMt64.min = some 18446744073709549568 := by decide
    rw [g1, g2]
    dsimp only
    rw [f1, f2, f3, f4, f5, f6, if_pos (by norm_num)]

/-- Such operations exist. -/
example : ∃ o : RealOps ℚ, Nearest 53 o.fl ∧ o.pow (37 / 64) 3 = (37 / 64) ^ 3 := ⟨⟨rn 53, id, id, id, fun x _ => x ^ 3⟩, rn_nearest (by decide), rfl⟩

/-! ## C75: rejection in exact arithmetic -/

section
variable {bits t : Nat} {p : ℝ}

theorem init_btrd (h0 : 0 ≤ p) (h1 : p ≤ 1) (ht : t + 1 < 2 ^ (bits - 1)) (hm : 11 ≤ (t + 1) * min p (1 - p)) :
    Binomial.init exactOps bits t p = some ⟨t, p, ⌊((t : ℝ) + 1) * min p (1 - p)⌋, .inr (btrd exactOps t (min p (1 - p)))⟩ := by
  rw [init_exact h0 h1 ht, if_neg]
  rw [not_lt, Int.le_floor]
  exact_mod_cast hm

theorem min_half : min p (1 - p) ≤ 1 / 2 := by
  rcases le_or_gt p (1 / 2) with h | h
  · exact (min_le_left _ _).trans h
  · exact (min_le_right _ _).trans (by linarith)

/-- When at least eleven successes and failures are expected, every number that is returned is from `0` to `t`; and for values up to a fifth the
first value of `uniform_01` is enough. -/
theorem c75_range_partial {eps : ℝ} (h0 : 0 ≤ p) (h1 : p ≤ 1) (ht : t + 1 < 2 ^ (bits - 1)) (hm : 11 ≤ (t + 1) * min p (1 - p)) :
    ∃ d, Binomial.init exactOps bits t p = some d ∧ Binomial.min ≤ Binomial.max d ∧
      (∀ vs : List ℝ, (∀ v ∈ vs, 0 ≤ v) → ∀ k rest, Binomial.next exactOps bits eps d vs = .done k rest → Binomial.min ≤ k ∧ k ≤ Binomial.max d) ∧
      ∀ v, 0 ≤ v → v ≤ 1 / 5 → ∀ vs, ∃ k, Binomial.next exactOps bits eps d (v :: vs) = .done k vs := by
  have hp0 : 0 ≤ min p (1 - p) := le_min h0 (by linarith)
  have hpp : (1 : Int) ≤ 2 ^ (bits - 1) := by exact_mod_cast Nat.one_le_two_pow
  have ht' : ((t : Int) + 1) < 2 ^ (bits - 1) := by exact_mod_cast ht
  refine ⟨_, init_btrd h0 h1 ht hm, by simp only [Binomial.min, Binomial.max]; omega, ?_, ?_⟩
  · intro vs hv k rest h
    simp only [Binomial.min, Binomial.max]
    unfold Binomial.next at h
    dsimp only at h
    cases hg : generate exactOps bits (btrd exactOps t (min p (1 - p))) t ⌊((t : ℝ) + 1) * min p (1 - p)⌋ vs with
    | more => rw [hg] at h; cases h
    | ub => rw [hg] at h; cases h
    | done k' rest' =>
      obtain ⟨a, b⟩ := generate_range hp0 min_half hm _ vs hv k' rest' hg
      rw [hg] at h
      simp only [Draws.bind] at h
      by_cases hp : 1 / 2 < p
      · simp only [if_pos hp] at h
        rw [if_pos ⟨by omega, by omega⟩] at h
        injection h with h _
        omega
      · simp only [if_neg hp] at h
        rw [if_pos ⟨by omega, by omega⟩] at h
        injection h with h _
        omega
  · intro v hv hle vs
    have hur : 1 / 5 ≤ (btrd exactOps t (min p (1 - p))).urvr := by
      obtain ⟨s1, _⟩ := sigma_facts hp0 min_half hm
      simp only [btrd, exactOps, id, Int.cast_natCast]
      have : 42 / 10 / (115 / 100 + 253 / 100 * Real.sqrt (t * min p (1 - p) * (1 - min p (1 - p)))) ≤ 68 / 100 := by
        rw [div_le_iff₀ (by linarith)]; linarith
      linarith
    obtain ⟨k, hk⟩ := generate_immediate hp0 min_half hm (show t < 2 ^ (bits - 1) by omega) ⌊((t : ℝ) + 1) * min p (1 - p)⌋ hv (hle.trans hur) vs
    have hr := generate_range hp0 min_half hm ⌊((t : ℝ) + 1) * min p (1 - p)⌋ [v] (by simpa using hv) k []
      (by obtain ⟨k', hk'⟩ := generate_immediate hp0 min_half hm (show t < 2 ^ (bits - 1) by omega) ⌊((t : ℝ) + 1) * min p (1 - p)⌋ hv (hle.trans hur) []
          have : k' = k := by
            rw [generate.eq_def] at hk hk'
            dsimp only at hk hk'
            rw [if_pos (hle.trans hur)] at hk hk'
            split at hk
            · cases hk
            · rename_i q hq
              rw [hq] at hk'
              injection hk with e1 _
              injection hk' with e2 _
              rw [← e1, ← e2]
          rw [← this]; exact hk')
    unfold Binomial.next
    dsimp only
    rw [hk]
    simp only [Draws.bind]
    by_cases hp : 1 / 2 < p
    · simp only [if_pos hp]
      rw [if_pos ⟨by omega, by omega⟩]
      exact ⟨_, rfl⟩
    · simp only [if_neg hp]
      rw [if_pos ⟨by omega, by omega⟩]
      exact ⟨_, rfl⟩

/-- A hundred throws of a coin in `int`. -/
example : (0 : ℝ) ≤ 1 / 2 ∧ 100 + 1 < 2 ^ (32 - 1) ∧ 11 ≤ ((100 : Nat) + 1 : ℝ) * min (1 / 2) (1 - 1 / 2) := by norm_num

/-- C75 is false for the second stage: a hundred throws of a coin in `int` convert a number outside of the range of `int`, if the first value of
`uniform_01` is 9/10 and the second one small. -/
theorem c75_ub_false {eps w : ℝ} (h0 : 0 ≤ w) (hw : w ≤ 1 / 2 ^ 40) (vs : List ℝ) :
    ∃ d, Binomial.init exactOps 32 (100 : Nat) (1 / 2) = some d ∧ Binomial.next exactOps 32 eps d (9 / 10 :: w :: vs) = .ub := by
  have hmin : min (1 / 2 : ℝ) (1 - 1 / 2) = 1 / 2 := by norm_num
  refine ⟨_, init_btrd (by norm_num) (by norm_num) (by norm_num) (by rw [hmin]; norm_num), ?_⟩
  rw [hmin]
  unfold Binomial.next
  dsimp only
  have hs : Real.sqrt ((100 : ℝ) * (1 / 2) * (1 - 1 / 2)) = 5 := by
    rw [show (100 : ℝ) * (1 / 2) * (1 - 1 / 2) = 5 ^ 2 by norm_num]
    exact Real.sqrt_sq (by norm_num)
  have ea : (btrd exactOps (100 : Nat) (1 / 2)).a = 25994 / 100000 := by
    simp only [btrd, exactOps, id]; push_cast; rw [hs]; norm_num
  have eb : (btrd exactOps (100 : Nat) (1 / 2)).b = 138 / 10 := by
    simp only [btrd, exactOps, id]; push_cast; rw [hs]; norm_num
  have ec : (btrd exactOps (100 : Nat) (1 / 2)).c = 505 / 10 := by
    simp only [btrd, exactOps, id]; push_cast; norm_num
  have ev : (btrd exactOps (100 : Nat) (1 / 2)).vr = 92 / 100 - 42 / 138 := by
    simp only [btrd, exactOps, id]; push_cast; rw [hs]; norm_num
  have eu : (btrd exactOps (100 : Nat) (1 / 2)).urvr = 86 / 100 * (92 / 100 - 42 / 138) := by
    simp only [btrd, exactOps, id]; push_cast; rw [hs]; norm_num
  have hg : ∀ m, generate exactOps 32 (btrd exactOps (100 : Nat) (1 / 2)) (100 : Nat) m (9 / 10 :: w :: vs) = .ub := by
    intro m
    rw [generate.eq_def]
    dsimp only
    rw [if_neg (by rw [eu]; norm_num)]
    have e2 : second exactOps (btrd exactOps (100 : Nat) (1 / 2)) (9 / 10) w = (w - 1 / 2, 9 / 10) := by
      unfold second
      rw [if_pos (by rw [ev]; norm_num)]
      rfl
    rw [e2]
    have e3 : exactOps.fl (1 / 2 - |((w - 1 / 2, 9 / 10) : ℝ × ℝ).1|) = w := by
      dsimp only
      rw [abs_of_neg (by linarith)]
      simp only [exactOps, id]
      ring
    rw [e3]
    by_cases hz : w = 0
    · rw [if_pos hz]
    · rw [if_neg hz]
      have hpos : 0 < w := lt_of_le_of_ne h0 (Ne.symm hz)
      rw [castSigned_int, if_neg]
      rintro ⟨hlo, _⟩
      rw [Int.le_floor] at hlo
      simp only [candidate] at hlo
      rw [ea, eb, ec] at hlo
      simp only [exactOps, id] at hlo
      have hq : 2 * (25994 / 100000) * 2 ^ 40 ≤ 2 * (25994 / 100000 : ℝ) / w := by
        rw [le_div_iff₀ hpos]
        nlinarith
      have : (2 * (25994 / 100000) / w + 138 / 10) * (w - 1 / 2) ≤ (2 * (25994 / 100000) / w + 138 / 10) * (-(1 / 4)) :=
        mul_le_mul_of_nonneg_left (by linarith) (by positivity)
      norm_num at hlo hq this
      linarith
  rw [hg]
  rfl

example : (0 : ℝ) ≤ 1 / 2 ^ 41 ∧ (1 : ℝ) / 2 ^ 41 ≤ 1 / 2 ^ 40 := by norm_num

end

/-! ## C76: the test of a candidate -/

section
variable {t m k : Nat} {p : ℝ}

/-- Near the mode, a candidate `k` is accepted when `v` is at most the ratio of the probabilities of `k` and of the mode. -/
theorem c76_near (h0 : 0 < p) (h1 : p < 1) (hm : m ≤ t) (hk : k ≤ t) (hn : k ≤ m + 15 ∧ m ≤ k + 15) (v : ℝ) :
    accept exactOps (btrd exactOps t p) t m k v = true ↔ v ≤ binPmf t p k / binPmf t p m := by
  unfold accept
  rw [if_pos hn, acceptNear_exact h0 h1 hm hk, decide_eq_true_iff]

example : (55 ≤ 50 + 15 ∧ 50 ≤ 55 + 15) ∧ (0 : ℝ) < 1 / 2 := by norm_num

/-- Far from the mode, the same up to a factor of `1 ± 1.3e-10`, if the logarithm of `v` is within `ρ` of that of the ratio for the normal
distribution. The other values of `v` are accepted or rejected at once. -/
theorem c76_far_partial (h0 : 0 < p) (h1 : p < 1) (hm : m ≤ t) (hk : k ≤ t) (hn : ¬ (k ≤ m + 15 ∧ m ≤ k + 15)) {v : ℝ} (hv : 0 < v) :
    let δ := |(k : ℝ) - m|
    let V := t * p * (1 - p)
    let ρ := δ / V * (((δ / 3 + 625 / 1000) * δ + 1 / 6) / V + 1 / 2)
    let acc := accept exactOps (btrd exactOps t p) t m k v = true
    (Real.log v < -δ ^ 2 / (2 * V) - ρ → acc) ∧
    (-δ ^ 2 / (2 * V) - ρ ≤ Real.log v → -δ ^ 2 / (2 * V) + ρ < Real.log v → ¬ acc) ∧
    (-δ ^ 2 / (2 * V) - ρ ≤ Real.log v → Real.log v ≤ -δ ^ 2 / (2 * V) + ρ →
      (acc → v ≤ binPmf t p k / binPmf t p m * Real.exp (13 / 10 ^ 11)) ∧ (v ≤ binPmf t p k / binPmf t p m * Real.exp (-(13 / 10 ^ 11)) → acc)) := by
  intro δ V ρ acc
  have hb := finalBound_value h0 h1 hm hk
  have pk := binPmf_pos h0 h1 hk
  have pm := binPmf_pos h0 h1 hm
  have eacc : acc ↔ (if Real.log v < -δ ^ 2 / (2 * V) - ρ then true else if Real.log v > -δ ^ 2 / (2 * V) + ρ then false
      else decide (Real.log v ≤ finalBound exactOps (btrd exactOps t p) t m k)) = true := by
    show accept exactOps (btrd exactOps t p) t m k v = true ↔ _
    unfold accept acceptFar
    rw [if_neg hn, if_neg hv.ne']
    dsimp only
    have e1 : exactOps.fl (exactOps.fl (-exactOps.fl |(k : ℝ) - m| * exactOps.fl |(k : ℝ) - m|) / exactOps.fl (2 * (btrd exactOps t p).npq)) = -δ ^ 2 / (2 * V) := by
      simp only [exactOps, id, btrd, δ, V, Int.cast_natCast]
      ring
    have e2 : rho exactOps (btrd exactOps t p) (exactOps.fl |(k : ℝ) - m|) = ρ := by
      simp only [rho, exactOps, id, btrd, ρ, δ, V, Int.cast_natCast]
    rw [e1, e2]
    rfl
  have hlr : Real.log (binPmf t p k / binPmf t p m * Real.exp (13 / 10 ^ 11)) = Real.log (binPmf t p k / binPmf t p m) + 13 / 10 ^ 11 := by
    rw [Real.log_mul (by positivity) (Real.exp_pos _).ne', Real.log_exp]
  have hlr' : Real.log (binPmf t p k / binPmf t p m * Real.exp (-(13 / 10 ^ 11))) = Real.log (binPmf t p k / binPmf t p m) - 13 / 10 ^ 11 := by
    rw [Real.log_mul (by positivity) (Real.exp_pos _).ne', Real.log_exp]; ring
  rw [abs_le] at hb
  rw [eacc]
  refine ⟨fun h => by rw [if_pos h], fun h h' => ?_, fun h h' => ?_⟩
  · rw [if_neg (not_lt.2 h), if_pos h']; simp
  · rw [if_neg (not_lt.2 h), if_neg (not_lt.2 h'), decide_eq_true_iff]
    constructor
    · intro h
      rw [← Real.log_le_log_iff hv (by positivity), hlr]
      linarith [hb.1, hb.2]
    · intro h
      have := Real.log_le_log hv h
      rw [hlr'] at this
      linarith [hb.1, hb.2]

/-- Sixty successes of a hundred throws of an unfair coin with mode 30. -/
example : (0 : ℝ) < 3 / 10 ∧ 30 ≤ 100 ∧ 60 ≤ 100 ∧ ¬ (60 ≤ 30 + 15 ∧ 30 ≤ 60 + 15) := by norm_num

/-- C76 is false far below the mode: with 10000 trials of probability 1/200, no success is accepted for `v = e^-45` although the ratio of its
probability and that of the mode is smaller. -/
theorem c76_far_false : ⌊((10000 : Nat) + 1 : ℝ) * (1 / 200)⌋ = 50 ∧ accept exactOps (btrd exactOps (10000 : Nat) (1 / 200)) 10000 50 0 (Real.exp (-45)) = true ∧
    binPmf 10000 (1 / 200 : ℝ) 0 / binPmf 10000 (1 / 200 : ℝ) 50 < Real.exp (-45) := by
  refine ⟨by rw [Int.floor_eq_iff]; norm_num, ?_, acceptFar_witness.2⟩
  unfold accept
  rw [if_neg (by norm_num)]
  exact acceptFar_witness.1

end

end Boost.Random
