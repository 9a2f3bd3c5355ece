import Verif.Proofs.Variates
import Verif.Proofs.TriangleFloat
import Verif.Proofs.ZigguratFloat

/-!
# Properties C86 to C92: distributions that transform one or two numbers
-/

namespace Boost.Random
open Spec RealDist ProbabilityTheory MeasureTheory

/-! ## C86: `cauchy_distribution` -/

/-- C86: on independent uniform numbers, in exact arithmetic with the literal `pi` of the code, the probability of a value up to `t` is that of the
Cauchy distribution, up to 10^-20. -/
theorem c86_cauchy_law (n : Nat) (median : ℝ) (sigma : NNReal) (hs : sigma ≠ 0) (t : ℝ) :
    |(chance (n + 1) fun l => Spec.Run.Le (Cauchy.generate exactTrig median sigma idealNumbers l) t).toReal - ProbabilityTheory.cdf (cauchyMeasure median sigma) t| ≤ 1 / 10 ^ 20 := by
  rw [Cauchy.cdf_cauchy median hs]
  exact Cauchy.law n median (lt_of_le_of_ne sigma.2 fun h => hs (NNReal.coe_eq_zero.1 h.symm)) t

/-- The probability of a value up to the median. -/
example : |(chance 1 fun l => Spec.Run.Le (Cauchy.generate exactTrig 3 2 idealNumbers l) 3).toReal - 1 / 2| ≤ 1 / 10 ^ 20 := by
  have h := c86_cauchy_law 0 3 2 (by norm_num) 3
  rw [Cauchy.cdf_cauchy 3 (by norm_num)] at h
  simpa using h

/-- C86: with rounding to nearest the argument of the tangent stays between its poles, for every value of `uniform_01`. -/
theorem c86_cauchy_angle (o : RealOps ℚ) (H : Nearest 53 o.fl) (u : ℚ) (h0 : 0 ≤ u) (h1 : u < 1) :
    -(Real.pi / 2) < ((Cauchy.angle o u : ℚ) : ℝ) ∧ ((Cauchy.angle o u : ℚ) : ℝ) < Real.pi / 2 := by
  have R := Boost.Random.Nearest.rounding H
  have hp : Cauchy.pi o = 7074237752028440 / 2 ^ 51 := by
    rw [Cauchy.pi]
    refine fl_round H 7074237752028440 (-51) (by norm_num) (by norm_num) (by norm_num) ?_
    rw [abs_lt]; norm_num
  have half : Representable 53 (1 / 2) := ⟨1, -1, by norm_num, by norm_num⟩
  have nhalf : Representable 53 (-(1 / 2)) := ⟨-1, -1, by norm_num, by norm_num⟩
  have b1 : -(1 / 2) ≤ o.fl (u - 1 / 2) := Triangle.fl_ge R nhalf (by linarith)
  have b2 : o.fl (u - 1 / 2) ≤ 1 / 2 := Triangle.fl_le R half (by linarith)
  have c1 : -(7074237752028440 / 2 ^ 52) ≤ Cauchy.angle o u := by
    rw [Cauchy.angle, hp]
    refine Triangle.fl_ge R ⟨-7074237752028440, -52, by norm_num, by norm_num⟩ ?_
    have : (7074237752028440 : ℚ) / 2 ^ 51 * -(1 / 2) ≤ 7074237752028440 / 2 ^ 51 * o.fl (u - 1 / 2) := mul_le_mul_of_nonneg_left b1 (by norm_num)
    refine le_trans (le_of_eq ?_) this
    norm_num
  have c2 : Cauchy.angle o u ≤ 7074237752028440 / 2 ^ 52 := by
    rw [Cauchy.angle, hp]
    refine Triangle.fl_le R ⟨7074237752028440, -52, by norm_num, by norm_num⟩ ?_
    have : (7074237752028440 : ℚ) / 2 ^ 51 * o.fl (u - 1 / 2) ≤ 7074237752028440 / 2 ^ 51 * (1 / 2) := mul_le_mul_of_nonneg_left b2 (by norm_num)
    refine this.trans (le_of_eq ?_)
    norm_num
  have c1' := (Rat.cast_le (K := ℝ)).2 c1
  have c2' := (Rat.cast_le (K := ℝ)).2 c2
  push_cast at c1' c2'
  have hpi := Real.pi_gt_d20
  norm_num at c1' c2' hpi
  constructor <;> linarith

example : ∃ o : RealOps ℚ, Nearest 53 o.fl := ⟨⟨rn 53, id, id, id, fun x _ => x⟩, rn_nearest (by decide)⟩

/-! ## C87: `weibull_distribution` -/

/-- C87: on independent uniform numbers, in exact arithmetic, the values follow the Weibull distribution. -/
theorem c87_weibull_law (n : Nat) (a b : ℝ) (ha : 0 < a) (hb : 0 < b) (t : ℝ) :
    chance (n + 1) (fun l => Spec.Run.Le (Weibull.generate exactOps a b idealNumbers l) t) = ENNReal.ofReal (weibullCdf a b t) :=
  Weibull.law n ha hb t

example : weibullCdf 2 3 3 = 1 - Real.exp (-1) := by norm_num [weibullCdf]

section
variable (o : RealOps ℚ) (H : Rounding 53 o.fl) (E : EngInfo) (hE : EngOK E) (hD : DiffOK E) (n : Nat)
include H

/-- A positive number is not rounded to zero. -/
theorem fl_pos' {x : ℚ} (h : 0 < x) : 0 < o.fl x := by
  obtain ⟨k, hk⟩ := exists_pow_lt_of_lt_one h (show (1 / 2 : ℚ) < 1 by norm_num)
  have hr : Representable 53 (1 / 2 ^ k) := Representable.inv_two_pow (by decide) k
  have e : (1 / 2 : ℚ) ^ k = 1 / 2 ^ k := by rw [div_pow, one_pow]
  rw [e] at hk
  have := H.mono _ _ hk.le
  rw [H.exact _ hr] at this
  exact lt_of_lt_of_le (by positivity) this

include hE hD

/-- C87: for any rounding and any engine whose differences do not overflow, the logarithm is taken of a number in `(0, 1]`, so that with a
logarithm that is not positive there and powers that are not negative the value is at least `min()`. -/
theorem c87_weibull_range (hlog : ∀ x, 0 < x → x ≤ 1 → o.log x ≤ 0) (hpow : ∀ x y, 0 ≤ x → 0 ≤ o.pow x y) (a b : ℚ) (hb : 0 < b) (xs : List Int) (hO : Outputs E xs) :
    Weibull.generate o a b (engineNumbers o E n) xs ≠ .ub ∧ ∀ v rest, Weibull.generate o a b (engineNumbers o E n) xs = .done v rest → 0 ≤ v ∧ rest <:+ xs := by
  refine SafeRun.bind (unif_safe H hE hD) (fun u hu => SafeRun.done ?_) xs hO
  refine fl_nonneg H (mul_nonneg hb.le (hpow _ _ (neg_nonneg.2 (hlog _ (fl_pos' o H (by linarith [hu.2])) ?_))))
  exact Triangle.fl_le H (Representable.one (by decide)) (by linarith [hu.1])

/-- C88: for any rounding and any engine whose differences do not overflow, with a logarithm that is negative on `(0, 1)`, a value of
`extreme_value_distribution` is a number, or minus infinity. -/
theorem c88_extreme_value_range (hlog : ∀ x, 0 < x → x < 1 → o.log x < 0) (a b : ℚ) (hb : 0 < b) (xs : List Int) (hO : Outputs E xs) :
    ExtremeValue.generate o a b (engineNumbers o E n) xs ≠ .ub ∧
      ∀ v rest, ExtremeValue.generate o a b (engineNumbers o E n) xs = .done v rest → ((∃ x, v = .fin x) ∨ v = .ninf) ∧ rest <:+ xs := by
  refine SafeRun.bind (unif_safe H hE hD) (fun u hu => SafeRun.done ?_) xs hO
  rcases eq_or_lt_of_le hu.1 with h | h
  · right
    rw [← h]
    have e : Ieee.log o (.fin 0) = .ninf := by unfold Ieee.log; simp
    rw [e]
    change Ieee.sub o (.fin a) (Ieee.infOf b) = _
    unfold Ieee.infOf
    rw [if_pos hb]
    rfl
  · left
    have e : Ieee.log o (.fin u) = .fin (o.log u) := by
      unfold Ieee.log; simp only [if_neg (not_lt.2 hu.1), if_neg h.ne']
    rw [e]
    have hn := hlog u h hu.2
    have e2 : Ieee.log o (.fin (-o.log u)) = .fin (o.log (-o.log u)) := by
      unfold Ieee.log
      have h1 : ¬ -o.log u < 0 := by linarith
      have h2 : ¬ -o.log u = 0 := by linarith
      simp only [if_neg h1, if_neg h2]
    change ∃ x, Ieee.sub o (.fin a) (Ieee.mul o (Ieee.log o (.fin (-o.log u))) (.fin b)) = .fin x
    rw [e2]
    exact ⟨_, rfl⟩
end

example : EngOK engMt ∧ DiffOK engMt := ⟨engMt_ok, fun h => by cases h⟩

/-- C88: minus infinity is the value when `uniform_01` gives zero, which `mt19937` does when its value is zero. -/
theorem c88_extreme_value_infinite (o : RealOps ℚ) (H : Rounding 53 o.fl) (n : Nat) (a b : ℚ) (hb : 0 < b) (rest : List Int) :
    ExtremeValue.generate o a b (engineNumbers o engMt n) (0 :: rest) = .done .ninf rest := by
  have h0 : o.fl 0 = 0 := H.exact _ (Representable.zero _)
  have hu : (engineNumbers o engMt n).unif (0 :: rest) = .done 0 rest := by
    change (RealDist.uniform01 o.fl engMt (0 :: rest)).run = _
    have h1 : subTy engMt.ty engMt.max engMt.min = some 4294967295 := by decide
    have h2 : subTy engMt.ty 0 engMt.min = some 0 := by decide
    unfold RealDist.uniform01
    rw [h1, h2]
    simp only [Int.cast_zero, h0, zero_mul]
    rw [if_pos (by norm_num)]
    rfl
  rw [ExtremeValue.generate, hu]
  change Run.done (Ieee.sub o (.fin a) (Ieee.mul o (Ieee.log o (Ieee.neg (Ieee.log o (.fin 0)))) (.fin b))) rest = _
  have e : Ieee.log o (.fin 0) = .ninf := by unfold Ieee.log; simp
  rw [e]
  change Run.done (Ieee.sub o (.fin a) (Ieee.infOf b)) rest = _
  unfold Ieee.infOf
  rw [if_pos hb]
  rfl

/-! ## C88: `extreme_value_distribution` -/

/-- C88: on independent uniform numbers, in exact arithmetic, the values follow the extreme value distribution. -/
theorem c88_extreme_value_law (n : Nat) (a b : ℝ) (hb : 0 < b) (t : ℝ) :
    chance (n + 1) (fun l => Spec.Run.LeI (ExtremeValue.generate exactOps a b idealNumbers l) t) = ENNReal.ofReal (gumbelCdf a b t) :=
  ExtremeValue.law n a hb t

example : gumbelCdf 1 2 1 = Real.exp (-1) := by norm_num [gumbelCdf]

/-! ## C89, C90: `triangle_distribution` -/

/-- C89: on independent uniform numbers, in exact arithmetic, the values follow the triangle distribution, also when the mode is the smallest or
the greatest value. -/
theorem c89_triangle_law (n : Nat) (a b c : ℝ) (hab : a ≤ b) (hbc : b ≤ c) (hac : a < c) (t : ℝ) :
    chance (n + 1) (fun l => Spec.Run.LeI (Triangle.generate exactOps (Triangle.init exactOps a b c) idealNumbers l) t) = ENNReal.ofReal (triangleCdf a b c t) :=
  Triangle.law n hab hbc hac t

example : triangleCdf 0 1 4 1 = 1 / 4 ∧ triangleCdf 0 0 4 2 = 3 / 4 ∧ triangleCdf 0 4 4 2 = 1 / 4 := by norm_num [triangleCdf]

/-- C90: with any rounding the square roots are taken of numbers that are not negative, so that the value is a number; the values of the first
half are at least `min()`, those of the second half at most `max()`; three equal parameters give the parameter. -/
theorem c90_triangle_finite (P : Nat) (o : RealOps ℚ) (R : Rounding P o.fl) (h0 : o.sqrt 0 = 0) (hs : ∀ x, 0 ≤ x → 0 ≤ o.sqrt x) (a b c u : ℚ)
    (ha : Representable P a) (hc : Representable P c) (hab : a ≤ b) (hbc : b ≤ c) (hu : Representable P u) (hu0 : 0 ≤ u) :
    (∃ v, Triangle.value o (Triangle.init o a b c) u = .fin v ∧ (Ieee.le (.fin u) (Triangle.init o a b c).q1 = true → a ≤ v) ∧
      (¬ Ieee.le (.fin u) (Triangle.init o a b c).q1 = true → v ≤ c)) ∧
    (a = c → Triangle.value o (Triangle.init o a b c) u = .fin a) := by
  refine ⟨Triangle.value_float R ⟨hs, h0⟩ ha hc hab hbc hu hu0, ?_⟩
  rintro rfl
  obtain rfl : a = b := le_antisymm hab hbc
  exact Triangle.value_degenerate R ⟨hs, h0⟩ ha hu

/-- C90 (partial: the value may be outside the interval by the error of rounding): with rounding to nearest and a square root with a relative
error of at most `2 ^ (-53)` the value is at least `min()` and at most `max()` up to `2 ^ (-50)` of their distance and the last rounding.
Missing: exact bounds, see `c90_triangle_false`. -/
theorem c90_triangle_partial (o : RealOps ℚ) (H : Nearest 53 o.fl) (hs : ∀ x : ℚ, 0 ≤ x → |(o.sqrt x : ℝ) - Real.sqrt x| ≤ Real.sqrt x / 2 ^ 53) (a b c u : ℚ)
    (hab : a ≤ b) (hbc : b ≤ c) (hac : a < c) (hu : Representable 53 u) (hu0 : 0 ≤ u) (hu1 : u < 1) (v : ℚ)
    (hv : Triangle.value o (Triangle.init o a b c) u = .fin v) : o.fl (a - (c - a) / 2 ^ 50) ≤ v ∧ v ≤ o.fl (c + (c - a) / 2 ^ 50) :=
  Triangle.value_near H hs hab hbc hac hu hu0 hu1.le hv

/-- Such operations exist. -/
example : ∃ o : RealOps ℚ, Nearest 53 o.fl ∧ (∀ x : ℚ, 0 ≤ x → |(o.sqrt x : ℝ) - Real.sqrt x| ≤ Real.sqrt x / 2 ^ 53) := by
  have h : ∀ x : ℚ, ∃ y : ℚ, 0 ≤ x → |(y : ℝ) - Real.sqrt x| ≤ Real.sqrt x / 2 ^ 53 := by
    intro x
    by_cases hx : 0 < x
    · have hp : 0 < Real.sqrt x := Real.sqrt_pos.2 (by exact_mod_cast hx)
      obtain ⟨y, h1, h2⟩ := exists_rat_btwn (show Real.sqrt x < Real.sqrt x + Real.sqrt x / 2 ^ 53 by linarith [div_pos hp (show (0 : ℝ) < 2 ^ 53 by norm_num)])
      exact ⟨y, fun _ => by rw [abs_of_pos (by linarith)]; linarith⟩
    · refine ⟨0, fun h0 => ?_⟩
      obtain rfl : x = 0 := le_antisymm (not_lt.1 hx) h0
      simp
  choose f hf using h
  exact ⟨⟨rn 53, f, id, id, fun x _ => x⟩, rn_nearest (by decide), hf⟩

/-- C90 is false: `triangle_distribution<double>(-1.9, -1.9, 0.2)` returns a value below `min()` when `uniform_01` gives its greatest value, the
square roots being correctly rounded. -/
theorem c90_triangle_false (o : RealOps ℚ) (H : Nearest 53 o.fl)
    (h1 : CorrectlyRounded 53 (Real.sqrt (4728779608739021 / 2 ^ 51 : ℝ)) (o.sqrt (4728779608739021 / 2 ^ 51)))
    (h2 : CorrectlyRounded 53 (Real.sqrt (4728779608739020 / 2 ^ 51 : ℝ)) (o.sqrt (4728779608739020 / 2 ^ 51))) :
    o.fl (-19 / 10) = -8556839292003942 / 2 ^ 52 ∧ o.fl (2 / 10) = 7205759403792794 / 2 ^ 55 ∧
    Triangle.value o (Triangle.init o (o.fl (-19 / 10)) (o.fl (-19 / 10)) (o.fl (2 / 10))) (1 - 1 / 2 ^ 53) = .fin (-8556839292003943 / 2 ^ 52) := by
  have R := Boost.Random.Nearest.rounding H
  have ea : o.fl (-19 / 10) = -8556839292003942 / 2 ^ 52 := by
    refine Triangle.fl_round_neg H 8556839292003942 (-52) (by norm_num) (by norm_num) (by norm_num) ?_
    rw [abs_lt]; norm_num
  have ec : o.fl (2 / 10) = 7205759403792794 / 2 ^ 55 := by
    refine fl_round H 7205759403792794 (-55) (by norm_num) (by norm_num) (by norm_num) ?_
    rw [abs_lt]; norm_num
  refine ⟨ea, ec, ?_⟩
  rw [ea, ec]
  have e0 : o.fl 0 = 0 := Triangle.fl0 R
  have ed : o.fl ((7205759403792794 : ℚ) / 2 ^ 55 - -8556839292003942 / 2 ^ 52) = 4728779608739021 / 2 ^ 51 := by
    refine fl_round H 4728779608739021 (-51) (by norm_num) (by norm_num) (by norm_num) ?_
    rw [abs_lt]; norm_num
  have ew : o.fl ((4728779608739021 : ℚ) / 2 ^ 51 * (1 - 1 / 2 ^ 53)) = 4728779608739020 / 2 ^ 51 := by
    refine fl_round H 4728779608739020 (-51) (by norm_num) (by norm_num) (by norm_num) ?_
    rw [abs_lt]; norm_num
  have ew2 : o.fl ((4728779608739020 : ℚ) / 2 ^ 51 - 0) = 4728779608739020 / 2 ^ 51 := by
    rw [sub_zero]
    exact fl_exact R 4728779608739020 (-51) (by norm_num) (by norm_num) (by norm_num)
  have s1 : o.sqrt (4728779608739021 / 2 ^ 51) = 6526335891422423 / 2 ^ 52 := by
    have := Triangle.correctlyRounded_eq h1 6526335891422423 (-52) (by norm_num) (by norm_num) (by
      refine Triangle.sqrt_near (by positivity) ?_ ?_ ?_ <;> norm_num)
    rw [this]; norm_num
  have s2 : o.sqrt (4728779608739020 / 2 ^ 51) = 6526335891422422 / 2 ^ 52 := by
    have := Triangle.correctlyRounded_eq h2 6526335891422422 (-52) (by norm_num) (by norm_num) (by
      refine Triangle.sqrt_near (by positivity) ?_ ?_ ?_ <;> norm_num)
    rw [this]; norm_num
  have ez : o.fl ((6526335891422423 : ℚ) / 2 ^ 52 * (6526335891422422 / 2 ^ 52)) = 4728779608739021 / 2 ^ 51 := by
    refine fl_round H 4728779608739021 (-51) (by norm_num) (by norm_num) (by norm_num) ?_
    rw [abs_lt]; norm_num
  have ev : o.fl ((7205759403792794 : ℚ) / 2 ^ 55 - 4728779608739021 / 2 ^ 51) = -8556839292003943 / 2 ^ 52 := by
    refine Triangle.fl_round_neg H 8556839292003943 (-52) (by norm_num) (by norm_num) (by norm_num) ?_
    rw [abs_lt]; norm_num
  have hq : ¬ Ieee.le (.fin (1 - 1 / 2 ^ 53)) (Triangle.init o (-8556839292003942 / 2 ^ 52) (-8556839292003942 / 2 ^ 52) (7205759403792794 / 2 ^ 55)).q1 = true := by
    change ¬ Ieee.le (.fin (1 - 1 / 2 ^ 53)) (Ieee.div o (.fin (o.fl (_ - _))) (.fin (o.fl (_ - _)))) = true
    rw [ed, sub_self, e0]
    unfold Ieee.div
    have hne : ¬ (4728779608739021 / 2 ^ 51 : ℚ) = 0 := by norm_num
    simp only [if_neg hne]
    rw [zero_div, e0]
    unfold Ieee.le
    norm_num
  rw [Triangle.value_high_float R le_rfl (by norm_num) ⟨9007199254740991, -53, by norm_num, by norm_num⟩ hq, ed, sub_self, e0, ew, ew2, s1, s2, ez, ev]

/-- The value is below the minimum, and the square roots can be rounded correctly. -/
example : (-8556839292003943 / 2 ^ 52 : ℚ) < -8556839292003942 / 2 ^ 52 ∧
    CorrectlyRounded 53 (Real.sqrt (4728779608739021 / 2 ^ 51 : ℝ)) (((6526335891422423 : Nat) : ℚ) * 2 ^ (-52 : ℤ)) ∧
    CorrectlyRounded 53 (Real.sqrt (4728779608739020 / 2 ^ 51 : ℝ)) (((6526335891422422 : Nat) : ℚ) * 2 ^ (-52 : ℤ)) := by
  refine ⟨by norm_num, Triangle.correctlyRounded_of _ _ (by norm_num) (by norm_num) ?_, Triangle.correctlyRounded_of _ _ (by norm_num) (by norm_num) ?_⟩ <;>
    refine Triangle.sqrt_near (by positivity) ?_ ?_ ?_ <;> norm_num

/-! ## C91: `laplace_distribution` -/

/-- C91: on independent uniform and exponential numbers, in exact arithmetic, the values follow the Laplace distribution. -/
theorem c91_laplace_law (n : Nat) (mean beta : ℝ) (hb : 0 < beta) (t : ℝ) :
    chance (n + 2) (fun l => Spec.Run.Le (Laplace.generate exactOps mean beta idealNumbers l) t) = ENNReal.ofReal (laplaceCdf mean beta t) :=
  Laplace.law n mean hb t

example : laplaceCdf 1 2 1 = 1 / 2 ∧ laplaceCdf 1 2 3 = 1 - Real.exp (-1) / 2 := by norm_num [laplaceCdf]

/-! ## C92: `lognormal_distribution` -/

/-- C92: on independent normal numbers, in exact arithmetic, the values are the exponentials of normal numbers with the mean `m` and the standard
deviation `s`. -/
theorem c92_lognormal_law (n : Nat) (m s t : ℝ) :
    chance (n + 1) (fun l => Spec.Run.Le (Lognormal.generate exactOps m s idealNumbers l) t) =
      ((gaussianReal m (.mk (s ^ 2) (sq_nonneg s))).map Real.exp) (Set.Iic t) :=
  Lognormal.law n m s t

/-- C92: the values of the deprecated class follow a distribution whose mean and standard deviation are the parameters. -/
theorem c92_lognormal_old (mean sigma : ℝ) (hm : 0 < mean) :
    ∃ ν : Measure ℝ, (∀ n t, chance (n + 1) (fun l => Spec.Run.Le (LognormalOld.generate exactOps mean sigma idealNumbers l) t) = ν (Set.Iic t)) ∧
      (∃ m v, ν = (gaussianReal m v).map Real.exp) ∧ ∫ x, x ∂ν = mean ∧ ∫ x, x ^ (2 : ℝ) ∂ν - mean ^ 2 = sigma ^ 2 := by
  refine ⟨_, fun n t => Lognormal.law_old n mean sigma t, ⟨_, _, rfl⟩, ?_⟩
  obtain ⟨e1, e2⟩ := Lognormal.params (sigma := sigma) hm.ne'
  have hq : 0 < sigma ^ 2 + mean ^ 2 := by positivity
  have h1 := Lognormal.moment (LognormalOld.nmean exactOps mean sigma) (.mk (LognormalOld.nsigma exactOps mean sigma ^ 2) (sq_nonneg _)) 1
  have h2 := Lognormal.moment (LognormalOld.nmean exactOps mean sigma) (.mk (LognormalOld.nsigma exactOps mean sigma ^ 2) (sq_nonneg _)) 2
  have hv : ((.mk (LognormalOld.nsigma exactOps mean sigma ^ 2) (sq_nonneg _) : NNReal) : ℝ) = LognormalOld.nsigma exactOps mean sigma ^ 2 := rfl
  rw [hv] at h1 h2
  simp only [Real.rpow_one] at h1
  rw [h1, h2]
  clear h1 h2 hv
  generalize LognormalOld.nmean exactOps mean sigma = a at *
  generalize LognormalOld.nsigma exactOps mean sigma ^ 2 = b at *
  have hsq : Real.sqrt (sigma ^ 2 + mean ^ 2) ^ 2 = sigma ^ 2 + mean ^ 2 := Real.sq_sqrt hq.le
  have hsp : 0 < Real.sqrt (sigma ^ 2 + mean ^ 2) := Real.sqrt_pos.2 hq
  have f2 : Real.exp (a * 2 + b * 2 ^ 2 / 2) = Real.exp a ^ 2 * Real.exp b ^ 2 := by
    rw [← Real.exp_nat_mul, ← Real.exp_nat_mul, ← Real.exp_add]
    congr 1; push_cast; ring
  have f1 : Real.exp (a * 1 + b * 1 ^ 2 / 2) ^ 2 = mean ^ 2 := by
    have : Real.exp (a * 1 + b * 1 ^ 2 / 2) ^ 2 = Real.exp a ^ 2 * Real.exp b := by
      rw [← Real.exp_nat_mul, ← Real.exp_nat_mul, ← Real.exp_add]
      congr 1; push_cast; ring
    rw [this, e1, e2, div_pow, hsq]
    field_simp
  refine ⟨(pow_left_inj₀ (Real.exp_pos _).le hm.le (by norm_num)).1 f1, ?_⟩
  rw [f2, e1, e2, div_pow, hsq]
  field_simp
  ring

/-- The mean 3 and the standard deviation 2. -/
example : ∃ ν : Measure ℝ, ∫ x, x ∂ν = 3 ∧ ∫ x, x ^ (2 : ℝ) ∂ν - 3 ^ 2 = 2 ^ 2 := by
  obtain ⟨ν, _, _, h⟩ := c92_lognormal_old 3 2 (by norm_num)
  exact ⟨ν, h⟩

end Boost.Random
