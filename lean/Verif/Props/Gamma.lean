import Verif.Proofs.GammaLaw
import Verif.Proofs.NonCentral
import Verif.Proofs.GammaFloat

/-!
# `gamma_distribution` and the distributions made of gamma numbers: C93 – C102
-/

namespace Boost.Random
open Spec MeasureTheory Set ProbabilityTheory

/-! ## C93, C94: `gamma_distribution` -/

/-- C93: on independent uniform numbers, in exact arithmetic with the literal `pi` of the code, at most `m` iterations of the loop give a value at
most `t` with the probability of the gamma distribution with shape `alpha` and scale `beta`, up to `2 / 10 ^ 19`, which is the part of the
distribution that the literal cuts off, and up to the probability that no candidate has been accepted. -/
theorem c93_gamma_law (alpha beta : ℝ) (ha : 0 < alpha) (hb : 0 < beta) (t : ℝ) (m N : Nat) (hN : 2 * m ≤ N) :
    |(chance N fun l => Spec.Run.Le (Gamma.generate exactTrig (Gamma.init exactOps alpha beta) idealNumbers m l) t).toReal -
      ProbabilityTheory.cdf (gammaMeasure alpha (1 / beta)) t| ≤ (if 1 < alpha then 2 / 10 ^ 19 else 0) + (23 / 24) ^ m :=
  Gamma.law ha hb t m N hN

example : |(chance 2000 fun l => Spec.Run.Le (Gamma.generate exactTrig (Gamma.init exactOps 5 2) idealNumbers 1000 l) 7).toReal -
    ProbabilityTheory.cdf (gammaMeasure 5 (1 / 2)) 7| ≤ 1 / 10 ^ 16 := by
  refine (c93_gamma_law 5 2 (by norm_num) (by norm_num) 7 1000 2000 (by norm_num)).trans ?_
  have h : ((23 : ℝ) / 24) ^ 1000 ≤ (1 / 10 ^ 17) := by
    rw [show (1000 : Nat) = 40 * 25 by norm_num, pow_mul]
    calc (((23 : ℝ) / 24) ^ 40) ^ 25 ≤ (1 / 5) ^ 25 := pow_le_pow_left₀ (by positivity) (by norm_num) _
      _ ≤ 1 / 10 ^ 17 := by norm_num
  rw [if_pos (by norm_num)]
  refine (add_le_add_right h _).trans ?_
  norm_num

/-- C93: below the shape 1 the law of an accepted value is exact: the probability of a value at most `t` is that of the gamma distribution times
the probability of an acceptance, which is `r` in each iteration. -/
theorem c93_gamma_small (alpha : ℝ) (ha : 0 < alpha) (ha1 : alpha < 1) :
    ∃ r : ℝ, 1 / 4 ≤ r ∧ r ≤ 1 ∧ ∀ (beta : ℝ), 0 < beta → ∀ (t : ℝ) (m N : Nat), 2 * m ≤ N →
      (chance N fun l => Spec.Run.Le (Gamma.generate exactTrig (Gamma.init exactOps alpha beta) idealNumbers m l) t).toReal =
        ProbabilityTheory.cdf (gammaMeasure alpha (1 / beta)) t * (1 - (1 - r) ^ m) :=
  ⟨Gamma.rateS alpha, (Gamma.rateS_le ha ha1).1, (Gamma.rateS_le ha ha1).2, fun _ hb t m N hN => Gamma.law_small ha ha1 hb t m N hN⟩

example : ∃ r : ℝ, 1 / 4 ≤ r ∧ r ≤ 1 ∧ ∀ t : ℝ,
    (chance 2 fun l => Spec.Run.Le (Gamma.generate exactTrig (Gamma.init exactOps (1 / 2) 3) idealNumbers 1 l) t).toReal =
      ProbabilityTheory.cdf (gammaMeasure (1 / 2) (1 / 3)) t * r := by
  obtain ⟨r, h1, h2, h⟩ := c93_gamma_small (1 / 2) (by norm_num) (by norm_num)
  refine ⟨r, h1, h2, fun t => ?_⟩
  rw [h 3 (by norm_num) t 1 2 (by norm_num)]
  ring

/-- C94: with any rounding, the distribution takes logarithms of positive numbers only, square roots of numbers that are not negative, and powers
of numbers that are at least 1: functions that agree there give the same values. -/
theorem c94_gamma_domain (o o' : TrigOps ℚ) (σ : Type) (H : Rounding 53 o.fl) (hfl : o'.fl = o.fl) (hexp : o'.exp = o.exp) (htan : o'.tan = o.tan)
    (hlog : ∀ x, 0 < x → o'.log x = o.log x) (hsqrt : ∀ x, 0 ≤ x → o'.sqrt x = o.sqrt x) (hpow : ∀ x y, 1 ≤ x → o'.pow x y = o.pow x y)
    (a b : ℚ) (N : Numbers ℚ σ) (hN : ∀ s v s', N.expo s = .done v s' → 0 ≤ v) (n : Nat) (s : σ) :
    Gamma.generate o' (Gamma.init o'.toRealOps a b) N n s = Gamma.generate o (Gamma.init o.toRealOps a b) N n s :=
  Gamma.generate_congr H hfl hexp htan hlog hsqrt hpow a b N hN n s

/-- Two sets of functions that differ where they are not used. -/
example : ∃ o o' : TrigOps ℚ, Rounding 53 o.fl ∧ o'.fl = o.fl ∧ (∀ x, 0 < x → o'.log x = o.log x) ∧ o'.log (-1) ≠ o.log (-1) :=
  ⟨{ fl := rn 53, sqrt := id, exp := id, log := id, pow := fun x _ => x, tan := id },
    { fl := rn 53, sqrt := id, exp := id, log := fun x => if 0 < x then x else 7, pow := fun x _ => x, tan := id },
    Nearest.rounding (rn_nearest (by decide)), rfl, fun x hx => if_pos hx, by norm_num⟩

section
variable (o : TrigOps ℚ) (H : Rounding 53 o.fl) (E : EngInfo) (hE : EngOK E) (hD : DiffOK E)
  (hsafe : engineBits E - 8 % engineBits E < 53 → ¬ engineBits E ∣ 61) (n : Nat) (hexp : ∀ x, 0 ≤ o.exp x)
include H hE hD hsafe hexp

/-- C94 (partial: the engines as in C85): with any rounding, and an exponential function without negative values, `gamma_distribution` and
`chi_squared_distribution` meet no undefined behaviour, their values are at least `min() = 0`, and they read a part of the input. Missing: the
engines of `c49_shift_false` and `c50_signed_false`. -/
theorem c94_gamma_range_partial (a b : ℚ) (hb : 0 < b) (xs : List Int) (hO : Outputs E xs) :
    ((engineCompound o E n).gamma a b xs ≠ .ub ∧ ∀ v rest, (engineCompound o E n).gamma a b xs = .done v rest → 0 ≤ v ∧ rest <:+ xs) ∧
    (ChiSquared.generate o.toRealOps a (engineCompound o E n) xs ≠ .ub ∧
      ∀ v rest, ChiSquared.generate o.toRealOps a (engineCompound o E n) xs = .done v rest → 0 ≤ v ∧ rest <:+ xs) := by
  obtain ⟨h1, h2⟩ := Gamma.safe H hE hD hsafe n hexp a b hb.le xs hO
  exact ⟨⟨h1, fun v rest h => ⟨(h2 v rest h).1.1, (h2 v rest h).2⟩⟩, ChiSquared.safe H hE hD hsafe n hexp a xs hO⟩

/-- C100 (partial: up to values that are not numbers, and the engines as in C85): `beta_distribution` returns a number between 0 and 1 or NaN,
`fisher_f_distribution` a number that is not negative, infinity or NaN, in either order of its calls. Missing: `c100_nan_false`. -/
theorem c100_values_partial (a b : ℚ) (ha : 0 < a) (hb : 0 < b) (order : Bool) (xs : List Int) (hO : Outputs E xs) :
    (Beta.generate o.toRealOps a b (engineCompound o E n) xs ≠ .ub ∧
      ∀ v rest, Beta.generate o.toRealOps a b (engineCompound o E n) xs = .done v rest → ((∃ x, v = .fin x ∧ 0 ≤ x ∧ x ≤ 1) ∨ v = .nan) ∧ rest <:+ xs) ∧
    (FisherF.generate o.toRealOps order a b (engineCompound o E n) xs ≠ .ub ∧
      ∀ v rest, FisherF.generate o.toRealOps order a b (engineCompound o E n) xs = .done v rest →
        ((∃ x, v = .fin x ∧ 0 ≤ x) ∨ v = .inf ∨ v = .nan) ∧ rest <:+ xs) ∧
    StudentT.generate o.toRealOps order a (engineCompound o E n) xs ≠ .ub :=
  ⟨Beta.safe H hE hD hsafe n hexp a b xs hO, FisherF.safe H hE hD hsafe n hexp order a b ha hb xs hO, (StudentT.safe H hE hD hsafe n hexp order a xs hO).1⟩

end

/-- `mt19937` meets the hypotheses. -/
example : EngOK engMt ∧ DiffOK engMt ∧ (engineBits engMt - 8 % engineBits engMt < 53 → ¬ engineBits engMt ∣ 61) :=
  ⟨engMt_ok, fun h => absurd h (by decide), by decide +kernel⟩

/-! ## C95: `chi_squared_distribution` and `non_central_chi_squared_distribution` -/

/-- C95: on ideal gamma numbers the values follow the chi-squared distribution with `n` degrees of freedom. -/
theorem c95_chi_squared_law (k : Nat) (n : ℝ) (hn : 0 < n) (t : ℝ) :
    chance (k + 1) (fun l => Spec.Run.Le (ChiSquared.generate exactOps n idealCompound l) t) = gammaMeasure (n / 2) (1 / 2) (Iic t) :=
  ChiSquared.law k hn t

/-- C95: on ideal normal, gamma and Poisson numbers the values follow the noncentral chi-squared distribution, by either of the two methods. -/
theorem c95_non_central_law (n : Nat) (k lambda : ℝ) (hk : 0 < k) (hl : 0 < lambda) (t : ℝ) :
    chance (n + 2) (fun l => Spec.Run.Le (NonCentralChiSquared.generate exactOps k lambda idealCompound l) t) = nonCentralChiSquared k lambda (Iic t) :=
  NonCentralChiSquared.law n hk hl t

/-- The noncentral chi-squared distribution with one degree of freedom is that of the square of a normal number with the mean `sqrt lambda`. -/
theorem c95_spec_square (lambda : ℝ) (hl : 0 < lambda) (B : Set ℝ) (hB : MeasurableSet B) :
    nonCentralChiSquared 1 lambda B = gaussianReal 0 1 {z | (z + Real.sqrt lambda) * (z + Real.sqrt lambda) ∈ B} :=
  (NonCentralChiSquared.square hl hB).symm

/-- Both methods. -/
example (t : ℝ) : chance 2 (fun l => Spec.Run.Le (NonCentralChiSquared.generate exactOps 5 3 idealCompound l) t) = nonCentralChiSquared 5 3 (Iic t) ∧
    chance 2 (fun l => Spec.Run.Le (NonCentralChiSquared.generate exactOps (1 / 2) 3 idealCompound l) t) = nonCentralChiSquared (1 / 2) 3 (Iic t) ∧
    chance 1 (fun l => Spec.Run.Le (ChiSquared.generate exactOps 4 idealCompound l) t) = gammaMeasure 2 (1 / 2) (Iic t) := by
  refine ⟨c95_non_central_law 0 5 3 (by norm_num) (by norm_num) t, c95_non_central_law 0 (1 / 2) 3 (by norm_num) (by norm_num) t, ?_⟩
  rw [c95_chi_squared_law 0 4 (by norm_num) t]
  norm_num

/-! ## C96, C97, C98: `beta_distribution`, `fisher_f_distribution`, `student_t_distribution` -/

/-- C96: on ideal gamma numbers the values follow the beta distribution. -/
theorem c96_beta_law (k : Nat) (a b : ℝ) (ha : 0 < a) (hb : 0 < b) (t : ℝ) :
    chance (k + 2) (fun l => Spec.Run.LeI (Beta.generate exactOps a b idealCompound l) t) = betaMeasure a b (Iic t) :=
  Beta.law k ha hb t

/-- C97: on ideal gamma numbers the values follow the F distribution, in either order of the two calls. -/
theorem c97_fisher_law (order : Bool) (k : Nat) (m n : ℝ) (hm : 0 < m) (hn : 0 < n) (t : ℝ) :
    chance (k + 2) (fun l => Spec.Run.LeI (FisherF.generate exactOps order m n idealCompound l) t) = fisherMeasure m n (Iic t) :=
  FisherF.law order k hm hn t

/-- C98: on ideal normal and gamma numbers the values follow Student's distribution, in either order of the two calls. -/
theorem c98_student_law (order : Bool) (k : Nat) (n : ℝ) (hn : 0 < n) (t : ℝ) :
    chance (k + 2) (fun l => Spec.Run.LeI (StudentT.generate exactOps order n idealCompound l) t) = studentMeasure n (Iic t) :=
  StudentT.law order k hn t

example (t : ℝ) : chance 2 (fun l => Spec.Run.LeI (Beta.generate exactOps 2 3 idealCompound l) t) = betaMeasure 2 3 (Iic t) ∧
    chance 2 (fun l => Spec.Run.LeI (FisherF.generate exactOps true 2 3 idealCompound l) t) =
      chance 2 (fun l => Spec.Run.LeI (FisherF.generate exactOps false 2 3 idealCompound l) t) ∧
    chance 2 (fun l => Spec.Run.LeI (StudentT.generate exactOps true 3 idealCompound l) t) = studentMeasure 3 (Iic t) :=
  ⟨c96_beta_law 0 2 3 (by norm_num) (by norm_num) t,
    (c97_fisher_law true 0 2 3 (by norm_num) (by norm_num) t).trans (c97_fisher_law false 0 2 3 (by norm_num) (by norm_num) t).symm,
    c98_student_law true 0 3 (by norm_num) t⟩

/-! ## C99, C102: `negative_binomial_distribution` -/

/-- C99: on ideal gamma and Poisson numbers the value is `j` with the probability of `j` failures before the `k`-th success. -/
theorem c99_negative_binomial_law (n k j : Nat) (hk : 0 < k) (p : ℝ) (h0 : 0 < p) (h1 : p < 1) :
    chance (n + 2) (fun l => ∃ s, NegativeBinomial.generate exactOps k p idealCompound l = .done (j : Int) s) = ENNReal.ofReal (negativeBinomialPmf k p j) :=
  NegativeBinomial.law n hk h0 h1

example : negativeBinomialPmf 3 (1 / 2) 2 = 3 / 16 := by
  norm_num [negativeBinomialPmf, Nat.choose]

/-- C102 (the property is false): the documentation allows `k >= 0` and `0 <= p <= 1`, but `k = 0`, `p = 0` and `p = 1` break the assertions of
the constructors of `gamma_distribution` and `poisson_distribution`, or ask for an infinite mean. With any rounding and any source of numbers. -/
theorem c102_parameters_false (o : RealOps ℚ) (H : Rounding 53 o.fl) (C : Compound ℚ (List Int)) (k : Int) (p : ℚ) (hp : k ≤ 0 ∨ p = 0 ∨ p = 1)
    (s : List Int) : NegativeBinomial.generate o k p C s = .ub := by
  have hz : o.fl 0 = 0 := H.exact _ (Representable.zero _)
  unfold NegativeBinomial.generate
  refine if_pos ?_
  rcases hp with h | h | h
  · right; left
    rw [not_lt]
    exact_mod_cast h
  · exact Or.inl h
  · right; right
    rw [h, sub_self, hz, zero_div, hz]
    exact lt_irrefl _

example : (0 : Int) ≤ 0 ∧ (0 : ℚ) ≤ 1 / 2 ∧ (1 / 2 : ℚ) ≤ 1 := by norm_num

/-- C102 (the property is false): also with the default parameters `k = 1`, `p = 1/2` the assertion `mean > 0` of `poisson_distribution` fails,
when the exponential number is zero, as it is for two zeros of `mt19937`. -/
theorem c102_mean_false (o : TrigOps ℚ) (H : Rounding 53 o.fl) (n : Nat) (rest : List Int) (hO : Outputs engMt rest) :
    NegativeBinomial.generate o.toRealOps 1 (1 / 2) (engineCompound o engMt (n + 1)) (0 :: 0 :: rest) = .ub := by
  have hz : o.fl 0 = 0 := H.exact _ (Representable.zero _)
  have h1 : o.fl 1 = 1 := H.exact _ (Representable.one (by decide))
  have hh : o.fl (1 - 1 / 2) = 1 / 2 := by
    rw [show (1 - 1 / 2 : ℚ) = 1 / 2 ^ 1 by norm_num, H.exact _ (Representable.inv_two_pow (by decide) 1)]
    norm_num
  have hb : o.fl (o.fl (1 - 1 / 2) / (1 / 2)) = 1 := by rw [hh, div_self (by norm_num), h1]
  unfold NegativeBinomial.generate
  simp only [hb, Int.cast_one, h1]
  rw [if_neg (by norm_num), gamma_one (n + 1) H (expo_zero H n hO) (Representable.zero _)]
  simp only [Run.bind, zero_mul, hz, lt_irrefl, if_false]

/-- C102 (partial: `k > 0`, `0 < p < 1` and a positive gamma number): the value is that of the Poisson distribution with the mean drawn. Missing:
`c102_parameters_false` and `c102_mean_false`. -/
theorem c102_value_partial (o : RealOps ℚ) (H : Rounding 53 o.fl) (C : Compound ℚ (List Int)) (k : Int) (p : ℚ) (hk : 0 < k) (h0 : 0 < p) (h1 : p < 1)
    (s s' : List Int) (mean : ℚ) (hm : 0 < mean) (hg : C.gamma (o.fl k) (o.fl (o.fl (1 - p) / p)) s = .done mean s') :
    NegativeBinomial.generate o k p C s = C.poisson mean s' := by
  have hb : 0 < o.fl (o.fl (1 - p) / p) := fl_pos' o H (div_pos (fl_pos' o H (by linarith)) h0)
  unfold NegativeBinomial.generate
  simp only
  rw [if_neg (by push Not; exact ⟨h0.ne', by exact_mod_cast hk, hb⟩), hg]
  simp only [Run.bind, if_pos hm]

/-! ## C100, C101: values that are not numbers, and the order of the calls -/

/-- C100 (the property is false): when the exponential function underflows, as that of `double` does below -746, a gamma number with a small shape
is zero, and `beta_distribution`, `fisher_f_distribution` and `student_t_distribution` return NaN on words of `mt19937`. -/
theorem c100_nan_false (o : TrigOps ℚ) (H : Rounding 53 o.fl) (h0 : ∀ x, x ≤ -746 → o.exp x = 0) (h1 : o.exp 0 = 1) (he : 0 < o.exp 1)
    (hs : o.sqrt 0 = 0) (n : Nat) (a b : ℚ) (ha : 0 < a) (ha' : a ≤ 1 / 256) (hb : 0 < b) (hb' : b ≤ 1 / 256) :
    Beta.generate o.toRealOps a b (engineCompound o engMt (n + 1)) [0, 0, 268435456, 0, 0, 268435456] = .done .nan [] ∧
    (∀ order, FisherF.generate o.toRealOps order a b (engineCompound o engMt (n + 1)) [0, 0, 268435456, 0, 0, 268435456] = .done .nan []) ∧
    StudentT.generate o.toRealOps true a (engineCompound o engMt (n + 1)) [0, 0, 0, 0, 268435456] = .done .nan [] := by
  have hz : o.fl 0 = 0 := H.exact _ (Representable.zero _)
  have hO1 : Outputs engMt [0, 0, 268435456] := by unfold Outputs; decide
  have hO0 : Outputs engMt [] := by unfold Outputs; decide
  have hhalf : ∀ z : ℚ, 0 < z → z ≤ 1 / 256 → 0 < ChiSquared.half o.toRealOps z ∧ ChiSquared.half o.toRealOps z ≤ 1 / 256 := by
    intro z hz1 hz2
    refine ⟨fl_pos' o.toRealOps H (by linarith), Triangle.fl_le H ?_ (by linarith)⟩
    have := Representable.inv_two_pow (digits := 53) (by decide) 8
    norm_num at this ⊢
    exact this
  have hnan : Ieee.div o.toRealOps (.fin 0) (.fin 0) = .nan := by
    simp [Ieee.div, Ieee.infOf]
  have hchi : ∀ z : ℚ, 0 < z → z ≤ 1 / 256 → ∀ rest, Outputs engMt rest →
      ChiSquared.generate o.toRealOps z (engineCompound o engMt (n + 1)) (0 :: 0 :: 268435456 :: rest) = .done 0 rest := by
    intro z hz1 hz2 rest hO
    unfold ChiSquared.generate
    rw [gamma_zero n H h0 h1 he 1 (hhalf z hz1 hz2).1 (hhalf z hz1 hz2).2 hO]
    simp only [Run.bind, mul_zero, hz]
  refine ⟨?_, fun order => ?_, ?_⟩
  · unfold Beta.generate
    rw [gamma_zero n H h0 h1 he 1 ha ha' hO1]
    simp only [Run.bind]
    rw [gamma_zero n H h0 h1 he 1 hb hb' hO0]
    simp only [add_zero, hz, hnan]
  · unfold FisherF.generate Run.both
    cases order
    · rw [if_neg (by decide), hchi b hb hb' _ hO1]
      simp only [Run.bind]
      rw [hchi a ha ha' _ hO0]
      simp only [zero_mul, hz, hnan]
    · rw [if_pos rfl, hchi a ha ha' _ hO1]
      simp only [Run.bind]
      rw [hchi b hb hb' _ hO0]
      simp only [zero_mul, hz, hnan]
  · have hnorm : (engineCompound o engMt (n + 1)).toNumbers.normal o.toRealOps 0 1 [0, 0, 0, 0, 268435456] = .done 0 [0, 0, 268435456] := by
      have hp := pair_word (o := o.toRealOps) H (n + 1) hO1 0 (by norm_num)
      have e0 : entry o.toRealOps Normal.tableX 0 = some (o.fl ((Normal.tableX.getD 0 0 : Nat) / 10 ^ 23)) := by
        rw [entry, show Normal.tableX[0]? = some (Normal.tableX.getD 0 0) by decide +kernel]; rfl
      have e1 : entry o.toRealOps Normal.tableX 1 = some (o.fl ((Normal.tableX.getD 1 0 : Nat) / 10 ^ 23)) := by
        rw [entry, show Normal.tableX[1]? = some (Normal.tableX.getD 1 0) by decide +kernel]; rfl
      have hpos : 0 < o.fl ((Normal.tableX.getD 1 0 : Nat) / 10 ^ 23) :=
        fl_pos' o.toRealOps H (div_pos (by have : 0 < Normal.tableX.getD 1 0 := by decide +kernel
                                           exact_mod_cast this) (by norm_num))
      have hu : Normal.unit o.toRealOps (engineSource o.toRealOps engMt (n + 1)) (n + 1) [0, 0, 0, 0, 268435456] = .done 0 [0, 0, 268435456] := by
        unfold Normal.unit Normal.iter
        have hp' : (engineSource o.toRealOps engMt (n + 1)).pair [0, 0, 0, 0, 268435456] = .done (0, 0) [0, 0, 268435456] := by
          rw [show ((0 : Nat) : ℚ) / 2 ^ 29 = 0 by simp] at hp
          exact hp
        rw [hp']
        simp only [Run.bind, Nat.zero_div, zero_add, e0, e1, zero_mul, hz, if_pos hpos]
      unfold Numbers.normal
      change (Normal.unit o.toRealOps (engineSource o.toRealOps engMt (n + 1)) (n + 1) [0, 0, 0, 0, 268435456]).bind _ = _
      rw [hu]
      simp only [Run.bind, zero_mul, hz, add_zero]
    have hn : ChiSquared.n o.toRealOps a ≠ 0 := (fl_pos' o.toRealOps H (mul_pos two_pos (hhalf a ha ha').1)).ne'
    unfold StudentT.generate Run.both
    rw [if_pos rfl, hnorm]
    simp only [Run.bind]
    rw [hchi a ha ha' _ hO0]
    simp [Ieee.div, Ieee.sqrt, Ieee.infOf, hn, hz, hs]

/-- A rounding and functions as in the hypotheses. -/
example : ∃ o : TrigOps ℚ, Rounding 53 o.fl ∧ (∀ x, x ≤ -746 → o.exp x = 0) ∧ o.exp 0 = 1 ∧ 0 < o.exp 1 ∧ o.sqrt 0 = 0 :=
  ⟨{ fl := rn 53, sqrt := id, exp := fun x => if x ≤ -746 then 0 else 1, log := id, pow := fun x _ => x, tan := id },
    Nearest.rounding (rn_nearest (by decide)), fun _ h => if_pos h, by norm_num, by norm_num, rfl⟩

/-- C101 (the property is false): the value of `fisher_f_distribution` is not a function of its parameters and of the numbers of the engine: the
order of the calls of the two distributions in its `return` statement is unspecified, and on four words of `mt19937` one order gives 2 and the
other 1/2. With any rounding. -/
theorem c101_order_false (o : TrigOps ℚ) (H : Rounding 53 o.fl) (n : Nat) :
    FisherF.generate o.toRealOps true 2 2 (engineCompound o engMt (n + 1)) [0, 268435456, 0, 134217728] = .done (.fin 2) [] ∧
    FisherF.generate o.toRealOps false 2 2 (engineCompound o engMt (n + 1)) [0, 268435456, 0, 134217728] = .done (.fin (1 / 2)) [] := by
  have r2 : Representable 53 (2 : ℚ) := by simpa using Representable.natCast (digits := 53) (N := 2) (by norm_num)
  have rh : Representable 53 (1 / 2 : ℚ) := by simpa using Representable.inv_two_pow (digits := 53) (by decide) 1
  have h1 : o.fl 1 = 1 := H.exact _ (Representable.one (by decide))
  have hhalf : ChiSquared.half o.toRealOps 2 = 1 := by
    unfold ChiSquared.half
    rw [div_self two_ne_zero]
    exact h1
  have hn : ChiSquared.n o.toRealOps 2 = 2 := by
    unfold ChiSquared.n
    rw [hhalf, mul_one]
    exact H.exact _ r2
  obtain ⟨b1, -⟩ := edge_bounds (o := o.toRealOps) H
  have he := edge_repr (o := o.toRealOps) H
  have hq : ∀ k : Nat, o.fl (edge o.toRealOps / 2 ^ k) = edge o.toRealOps / 2 ^ k := fun k => H.exact _ (Representable.half he k)
  have hd : Representable 53 (edge o.toRealOps * 2) := by
    obtain ⟨m, e, e1, e2⟩ := he
    exact ⟨m, e + 1, e1, by rw [e2, zpow_add_one₀ (by norm_num)]; ring⟩
  have hO2 : Outputs engMt [0, 134217728] := by unfold Outputs; decide
  have hO0 : Outputs engMt [] := by unfold Outputs; decide
  have hA : ChiSquared.generate o.toRealOps 2 (engineCompound o engMt (n + 1)) [0, 268435456, 0, 134217728] = .done (edge o.toRealOps) [0, 134217728] := by
    unfold ChiSquared.generate
    rw [hhalf, gamma_one (n + 1) H (expo_half H n hO2) (by simpa using Representable.half he 1)]
    simp only [Run.bind, mul_one]
    have := hq 1
    rw [pow_one] at this
    rw [this, mul_div_cancel₀ _ two_ne_zero, H.exact _ he]
  have hB : ChiSquared.generate o.toRealOps 2 (engineCompound o engMt (n + 1)) [0, 134217728] = .done (edge o.toRealOps / 2) [] := by
    unfold ChiSquared.generate
    rw [hhalf, gamma_one (n + 1) H (expo_quarter H n hO0) (by have := Representable.half he 2; norm_num at this; exact this)]
    simp only [Run.bind, mul_one]
    have h2 := hq 2
    have h3 := hq 1
    norm_num at h2 h3
    rw [h2, show 2 * (edge o.toRealOps / 4) = edge o.toRealOps / 2 by ring, h3]
  have h3 := hq 1
  rw [pow_one] at h3
  constructor
  · unfold FisherF.generate Run.both
    rw [if_pos rfl, hA]
    simp only [Run.bind]
    rw [hB]
    simp only [hn, div_mul_cancel₀ _ (two_ne_zero (α := ℚ)), H.exact _ he, H.exact _ hd, Ieee.div]
    rw [if_neg (by linarith), mul_div_assoc, mul_div_cancel₀ _ (by linarith), H.exact _ r2]
  · unfold FisherF.generate Run.both
    rw [if_neg (by decide), hA]
    simp only [Run.bind]
    rw [hB]
    simp only [hn, div_mul_cancel₀ _ (two_ne_zero (α := ℚ)), H.exact _ he, H.exact _ hd, Ieee.div]
    rw [if_neg (by linarith), div_mul_cancel_left₀ (by linarith), ← one_div, H.exact _ rh]

/-- C101 (partial: in probability): the order of the calls makes no difference to the law of the values of `fisher_f_distribution` and
`student_t_distribution`. Missing: the values, by `c101_order_false`. -/
theorem c101_order_partial (k : Nat) (m n : ℝ) (hm : 0 < m) (hn : 0 < n) (t : ℝ) :
    chance (k + 2) (fun l => Spec.Run.LeI (FisherF.generate exactOps true m n idealCompound l) t) =
      chance (k + 2) (fun l => Spec.Run.LeI (FisherF.generate exactOps false m n idealCompound l) t) ∧
    chance (k + 2) (fun l => Spec.Run.LeI (StudentT.generate exactOps true n idealCompound l) t) =
      chance (k + 2) (fun l => Spec.Run.LeI (StudentT.generate exactOps false n idealCompound l) t) :=
  ⟨(c97_fisher_law true k m n hm hn t).trans (c97_fisher_law false k m n hm hn t).symm,
    (c98_student_law true k n hn t).trans (c98_student_law false k n hn t).symm⟩

example (t : ℝ) : chance 2 (fun l => Spec.Run.LeI (FisherF.generate exactOps true 1 7 idealCompound l) t) =
    chance 2 (fun l => Spec.Run.LeI (FisherF.generate exactOps false 1 7 idealCompound l) t) :=
  (c101_order_partial 0 1 7 (by norm_num) (by norm_num) t).1

end Boost.Random
