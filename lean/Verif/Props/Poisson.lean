import Verif.Proofs.DiscreteRealWitness
import Verif.Proofs.PoissonWitness
import Verif.Proofs.NearPow
import Verif.Props.RealDist

/-!
# Properties C77, C78, C79: the Poisson and the geometric distribution

`Poisson.init` constructs `poisson_distribution<IntType, RealType>(mean)` for a signed `IntType` of `bits` bits, `Poisson.next` draws a number;
`Geometric.next` draws from `geometric_distribution<IntType, RealType>(p)`. The input are the results of `uniform_01`, which lie in `[0, 1)`.
-/

namespace Boost.Random
open Spec RealDist

/-! ## C77: inversion -/

section
variable {bits : Nat} {μ : ℝ}

theorem poissonPmf_nonneg (h : 0 ≤ μ) (k : Nat) : 0 ≤ poissonPmf μ k := by unfold poissonPmf; positivity

/-- For a mean below ten, in exact arithmetic, the distribution takes one value `u` of `uniform_01`, and its result is the least number of events
whose cumulative probability reaches `u`; an overflow of the counter is possible only if no cumulative probability in the range of the type
reaches `u`. -/
theorem c77_inversion (h : μ < 10) (u : ℝ) (vs : List ℝ) :
    (∃ k : Nat, Poisson.next exactOps bits (Poisson.init exactOps μ) (u :: vs) = .done k vs ∧ (k : Int) ≤ Poisson.max bits ∧ IsLeast {k | u ≤ cdf (poissonPmf μ) k} k) ∨
    (Poisson.next exactOps bits (Poisson.init exactOps μ) (u :: vs) = .ub ∧ ∀ k < 2 ^ (bits - 1), cdf (poissonPmf μ) k < u) := by
  unfold Poisson.init Poisson.next
  rw [if_pos h]
  dsimp only
  have e : exactOps.fl (exactOps.exp (-μ)) = Real.exp (-μ) := rfl
  rw [e]
  rcases Poisson.invert_exact (μ := μ) (u := u) (bits := bits) with ⟨y, h1, h2, h3⟩ | ⟨h1, h2⟩
  · rw [h1]
    refine Or.inl ⟨y, rfl, ?_, h3⟩
    have : (y : Int) < 2 ^ (bits - 1) := by exact_mod_cast h2
    unfold Poisson.max
    omega
  · rw [h1]
    exact Or.inr ⟨rfl, h2⟩

theorem cdf_poissonPmf_le (h : 0 ≤ μ) (k : Nat) : cdf (poissonPmf μ) k ≤ 1 := by
  unfold cdf poissonPmf
  have e : ∀ i, Real.exp (-μ) * μ ^ i / i.factorial = Real.exp (-μ) * (μ ^ i / i.factorial) := fun i => mul_div_assoc _ _ _
  simp only [e]
  rw [← Finset.mul_sum]
  have := Real.sum_le_exp_of_nonneg h (k + 1)
  calc _ ≤ Real.exp (-μ) * Real.exp μ := mul_le_mul_of_nonneg_left this (Real.exp_pos _).le
    _ = 1 := by rw [← Real.exp_add]; simp

/-- The values of `u` that give `k` have the measure of the Poisson probability of `k`. -/
theorem c77_probability (h0 : 0 ≤ μ) (h : μ < 10) {k : Nat} (hk : k < 2 ^ (bits - 1)) :
    MeasureTheory.volume {u : ℝ | 0 ≤ u ∧ u < 1 ∧ Poisson.next exactOps bits (Poisson.init exactOps μ) [u] = .done k []} = ENNReal.ofReal (poissonPmf μ k) := by
  rw [← volume_cdf (poissonPmf_nonneg h0) (cdf_poissonPmf_le h0 k)]
  congr 1
  ext u
  simp only [Set.mem_ofPred_eq]
  refine and_congr_right fun a => and_congr_right fun b => ?_
  rcases c77_inversion (bits := bits) h u [] with ⟨k', e, _, hL⟩ | ⟨e, hlt⟩
  · rw [e]
    constructor
    · intro h'
      injection h' with h' _
      have h' : k' = k := by exact_mod_cast h'
      exact h' ▸ hL
    · intro h'
      rw [hL.unique h']
  · rw [e]
    constructor
    · intro h'; cases h'
    · intro h'
      exact absurd h'.1 (not_le.2 (hlt k hk))

/-- Three events where two are expected, in `int`. -/
example : (0 : ℝ) ≤ 2 ∧ (2 : ℝ) < 10 ∧ 3 < 2 ^ (32 - 1) ∧ poissonPmf 2 3 = Real.exp (-2) * (4 / 3) := by
  refine ⟨by norm_num, by norm_num, by norm_num, ?_⟩
  unfold poissonPmf
  norm_num [Nat.factorial]
  ring

end

theorem correctlyRounded_eq {P : Nat} {x : ℝ} {y : ℚ} (h : CorrectlyRounded P x y) (m : Nat) (e : ℤ) (hlo : 2 ^ (P - 1) < m) (hhi : m < 2 ^ P)
    (hx : |(m : ℝ) * 2 ^ e - x| < 2 ^ e / 2) : y = (m : ℚ) * 2 ^ e := by
  have hy : Representable P ((m : ℚ) * 2 ^ e) := ⟨m, e, by rw [abs_of_nonneg (by omega)]; exact_mod_cast hhi, by push_cast; rfl⟩
  refine representable_close h.1 m e hlo ?_
  have h2 := h.2 _ hy
  push_cast at h2
  rw [abs_sub_comm x ((m : ℝ) * 2 ^ e)] at h2
  have h3 : |(y : ℝ) - (m : ℝ) * 2 ^ e| < 2 ^ e := by
    have : (y : ℝ) - (m : ℝ) * 2 ^ e = -(x - y) + -((m : ℝ) * 2 ^ e - x) := by ring
    rw [this]
    refine lt_of_le_of_lt (abs_add_le _ _) ?_
    rw [abs_neg, abs_neg]
    linarith
  have : ((|y - (m : ℚ) * 2 ^ e| : ℚ) : ℝ) < ((2 ^ e : ℚ) : ℝ) := by push_cast; exact h3
  exact_mod_cast this

/-- C77 is false with rounding: for the mean 83/64 in `double` the loop does not end before the counter overflows, if `uniform_01` gives its largest
value (which `mt19937_64` can give, see `c74_range_false`) and the value of the exponential function is correctly rounded. The loop of the code
does not end sooner when the probabilities underflow, since it ends only at a probability that is at least the remaining value. -/
theorem c77_double_false {fl : ℚ → ℚ} (H : Nearest 53 fl) (o : RealOps ℚ) (ho : o.fl = fl) (hexp : CorrectlyRounded 53 (Real.exp (-(83 / 64))) (o.exp (-(83 / 64))))
    {bits : Nat} (hb : 7 ≤ bits) (vs : List ℚ) : Poisson.next o bits (Poisson.init o (83 / 64)) ((1 - 1 / 2 ^ 53) :: vs) = .ub := by
  have R := Boost.Random.Nearest.rounding H
  obtain ⟨e1, e2, e3⟩ := Poisson.exp_double
  have e := correctlyRounded_eq hexp 4924862499378342 (-54) e2 e3 (by push_cast; exact e1)
  unfold Poisson.init Poisson.next
  rw [if_pos (by norm_num)]
  dsimp only
  rw [ho, R.exact _ hexp.1, e]
  have h := Poisson.invert_double H o ho hb
  rw [show ((4924862499378342 : Nat) : ℚ) * 2 ^ (-54 : ℤ) = 2462431249689171 / 9007199254740992 by norm_num, show (1 - 1 / 2 ^ 53 : ℚ) = 9007199254740991 / 9007199254740992 by norm_num, h]

/-- Also for the mean 59/128 in `float`. -/
theorem c77_float_false {fl : ℚ → ℚ} (H : Nearest 24 fl) (o : RealOps ℚ) (ho : o.fl = fl) (hexp : CorrectlyRounded 24 (Real.exp (-(59 / 128))) (o.exp (-(59 / 128))))
    {bits : Nat} (hb : 7 ≤ bits) (vs : List ℚ) : Poisson.next o bits (Poisson.init o (59 / 128)) ((1 - 1 / 2 ^ 24) :: vs) = .ub := by
  have R := Boost.Random.Nearest.rounding H
  obtain ⟨e1, e2, e3⟩ := Poisson.exp_float
  have e := correctlyRounded_eq hexp 10581257 (-24) e2 e3 (by push_cast; exact e1)
  unfold Poisson.init Poisson.next
  rw [if_pos (by norm_num)]
  dsimp only
  rw [ho, R.exact _ hexp.1, e]
  have h := Poisson.invert_float H o ho hb
  rw [show ((10581257 : Nat) : ℚ) * 2 ^ (-24 : ℤ) = 10581257 / 16777216 by norm_num, show (1 - 1 / 2 ^ 24 : ℚ) = 16777215 / 16777216 by norm_num, h]

/-- The value can be rounded correctly. -/
example : CorrectlyRounded 24 (Real.exp (-(59 / 128))) (10581257 / 16777216) := by
  have hr : Representable 24 (10581257 / 16777216) := ⟨10581257, -24, by norm_num, by norm_num⟩
  refine ⟨hr, fun z hz => ?_⟩
  obtain ⟨e1, e2, e3⟩ := Poisson.exp_float
  have eq : (((10581257 / 16777216 : ℚ)) : ℝ) = 10581257 * 2 ^ (-24 : ℤ) := by norm_num
  by_contra hlt
  push Not at hlt
  rw [eq, abs_sub_comm _ (10581257 * 2 ^ (-24 : ℤ) : ℝ)] at hlt
  have hc : |(z : ℝ) - 10581257 * 2 ^ (-24 : ℤ)| < 2 ^ (-24 : ℤ) := by
    have : (z : ℝ) - 10581257 * 2 ^ (-24 : ℤ) = -(Real.exp (-(59 / 128)) - z) + -(10581257 * 2 ^ (-24 : ℤ) - Real.exp (-(59 / 128))) := by ring
    rw [this]
    refine lt_of_le_of_lt (abs_add_le _ _) ?_
    rw [abs_neg, abs_neg]
    linarith
  have h2 := representable_close hz 10581257 (-24) e2 (by
    have : ((|z - ((10581257 : Nat) : ℚ) * 2 ^ (-24 : ℤ)| : ℚ) : ℝ) < ((2 ^ (-24 : ℤ) : ℚ) : ℝ) := by push_cast; exact hc
    exact_mod_cast this)
  rw [h2] at hlt
  push_cast at hlt
  rw [abs_sub_comm (10581257 * 2 ^ (-24 : ℤ) : ℝ)] at hlt
  exact lt_irrefl _ hlt

/-! ## C78: rejection in exact arithmetic -/

section
variable {bits : Nat} {μ : ℝ}

/-- For a mean of at least ten, in exact arithmetic, every number that is returned is in the range of the type and not negative; and for values up to
three tenths the first value of `uniform_01` is enough, and gives a number up to `2μ + 1`. -/
theorem c78_range_partial (h : 10 ≤ μ) (hb : 2 * μ + 1 ≤ 2 ^ (bits - 1)) :
    (∀ vs : List ℝ, (∀ v ∈ vs, 0 ≤ v) → ∀ k rest, Poisson.next exactOps bits (Poisson.init exactOps μ) vs = .done k rest → Poisson.min ≤ k ∧ k ≤ Poisson.max bits ∧ rest <:+ vs) ∧
    ∀ v, 0 ≤ v → v ≤ 3 / 10 → ∀ vs, ∃ k : Int, Poisson.next exactOps bits (Poisson.init exactOps μ) (v :: vs) = .done k vs ∧ 0 ≤ k ∧ (k : ℝ) ≤ 2 * μ + 1 := by
  unfold Poisson.init Poisson.next Poisson.min Poisson.max
  rw [if_neg (not_lt.2 h)]
  dsimp only
  refine ⟨fun vs hv k rest hd => ?_, fun v hv hle vs => ?_⟩
  · obtain ⟨a, b, c⟩ := Poisson.generate_range h vs hv k rest hd
    exact ⟨a, by omega, c⟩
  · refine Poisson.generate_immediate h hb hv (hle.trans ?_) vs
    have hs : 3 ≤ Real.sqrt μ := Real.le_sqrt_of_sq_le (by norm_num; linarith)
    simp only [Poisson.ptrd, exactOps, id]
    have : 36224 / 10000 / (931 / 1000 + 253 / 100 * Real.sqrt μ - 2) ≤ 56 / 100 := by
      rw [div_le_iff₀ (by linarith)]; linarith
    linarith

/-- The mean 25 in `int`. -/
example : (10 : ℝ) ≤ 25 ∧ (2 * 25 + 1 : ℝ) ≤ 2 ^ (32 - 1) := by norm_num

/-- A candidate `k` is accepted when `v` is at most its Poisson probability, up to a factor of `1 ± 6e-11`. -/
theorem c78_accept (h : 10 ≤ μ) (k : Nat) {v : ℝ} (hv : 0 < v) : let acc := Poisson.accept exactOps (Poisson.ptrd exactOps μ) μ k v = true
    (acc → v ≤ poissonPmf μ k * Real.exp (6 / 10 ^ 11)) ∧ (v ≤ poissonPmf μ k * Real.exp (-(6 / 10 ^ 11)) → acc) := Poisson.accept_value h k hv

/-- A negative candidate never. -/
theorem c78_negative {v : ℝ} {k : Int} (hk : k < 0) : Poisson.accept exactOps (Poisson.ptrd exactOps μ) μ k v = false := by
  unfold Poisson.accept
  rw [if_neg (by omega), if_neg (by omega)]

example : (10 : ℝ) ≤ 25 ∧ (0 : ℝ) < 1 / 1000 ∧ (-3 : Int) < 0 := by norm_num

/-- C78 is false for the second stage: with the mean 16 in `int` there are values of `uniform_01`, the second of which is zero, for which a number
outside of the range of `int` is converted. -/
theorem c78_ub_false (vs : List ℝ) : ∃ v : ℝ, 0 ≤ v ∧ v < 1 ∧ Poisson.next exactOps 32 (Poisson.init exactOps 16) (v :: 0 :: vs) = .ub := by
  have hs : Real.sqrt (16 : ℝ) = 4 := by
    rw [show (16 : ℝ) = 4 ^ 2 by norm_num]
    exact Real.sqrt_sq (by norm_num)
  have eb : (Poisson.ptrd exactOps 16).b = 11051 / 1000 := by
    simp only [Poisson.ptrd, exactOps, id, hs]; norm_num
  have ea : (Poisson.ptrd exactOps 16).a = -59 / 1000 + 2483 / 100000 * (11051 / 1000) := by
    simp only [Poisson.ptrd, exactOps, id, hs]; norm_num
  have ev : (Poisson.ptrd exactOps 16).vr = 9277 / 10000 - 36224 / 10000 / (9051 / 1000) := by
    simp only [Poisson.ptrd, exactOps, id, hs]; norm_num
  have hvr : 0 < (Poisson.ptrd exactOps 16).vr ∧ (Poisson.ptrd exactOps 16).vr < 1 := by rw [ev]; norm_num
  refine ⟨(93 / 100 + 1 / 2 ^ 40) * (Poisson.ptrd exactOps 16).vr, by nlinarith, by nlinarith, ?_⟩
  unfold Poisson.init Poisson.next
  rw [if_neg (by norm_num)]
  dsimp only
  rw [Poisson.generate.eq_def]
  dsimp only
  rw [if_neg (by show ¬ _ ≤ 86 / 100 * (Poisson.ptrd exactOps 16).vr; nlinarith [hvr.1])]
  have e2 : Poisson.second exactOps (Poisson.ptrd exactOps 16) ((93 / 100 + 1 / 2 ^ 40) * (Poisson.ptrd exactOps 16).vr) 0 = (1 / 2 - 1 / 2 ^ 40, 0) := by
    unfold Poisson.second
    rw [if_neg (by nlinarith)]
    dsimp only
    rw [mul_div_cancel_right₀ _ hvr.1.ne']
    simp only [exactOps, id, zero_mul]
    norm_num
  rw [e2]
  have e3 : exactOps.fl (1 / 2 - |((1 / 2 - 1 / 2 ^ 40, 0) : ℝ × ℝ).1|) = 1 / 2 ^ 40 := by
    simp only [exactOps, id]
    norm_num [abs_of_pos]
  rw [e3, if_neg (by norm_num), if_neg (by norm_num)]
  have hc : (2 ^ 31 : ℝ) ≤ Poisson.candidate exactOps (Poisson.ptrd exactOps 16) 16 (1 / 2 - 1 / 2 ^ 40) (1 / 2 ^ 40) := by
    simp only [Poisson.candidate]
    rw [ea, eb]
    simp only [exactOps, id]
    norm_num
  have hf : (2 ^ 31 : Int) ≤ ⌊Poisson.candidate exactOps (Poisson.ptrd exactOps 16) 16 (1 / 2 - 1 / 2 ^ 40) (1 / 2 ^ 40)⌋ := by
    rw [Int.le_floor]; exact_mod_cast hc
  dsimp only
  rw [if_pos]
  · rw [castSigned_int, if_neg]
    rintro ⟨_, hlt⟩
    norm_num at hlt hf
    omega
  · unfold Poisson.accept
    rw [if_pos (le_trans (by norm_num) hf), if_pos]
    simp [exactOps]

end

/-! ## C79: the geometric distribution -/

section
variable {bits : Nat} {p : ℝ}

/-- In exact arithmetic the distribution takes one value `u` of `uniform_01`, and the result `k` is the number of failures for which `1 - u` is between
the probabilities of more than `k` failures and of at least `k` failures; if that number is outside of the range of the type, the behaviour is
undefined. -/
theorem c79_inversion_partial (h0 : 0 < p) (h1 : p < 1) {u : ℝ} (hu0 : 0 ≤ u) (hu : u < 1) (vs : List ℝ) :
    (∃ k : Nat, k < 2 ^ (bits - 1) ∧ Geometric.next exactOps bits p (u :: vs) = .done k vs ∧ (1 - p) ^ (k + 1) < 1 - u ∧ 1 - u ≤ (1 - p) ^ k) ∨
    (Geometric.next exactOps bits p (u :: vs) = .ub ∧ 1 - u ≤ (1 - p) ^ 2 ^ (bits - 1)) := Geometric.next_exact h0 h1 hu0 hu vs

theorem geometric_unique {u : ℝ} (h0 : 0 < p) (h1 : p < 1) {k k' : Nat} (h : (1 - p) ^ (k + 1) < 1 - u ∧ 1 - u ≤ (1 - p) ^ k)
    (h' : (1 - p) ^ (k' + 1) < 1 - u ∧ 1 - u ≤ (1 - p) ^ k') : k = k' := by
  have hu : u < 1 := by linarith [h.1, pow_pos (show 0 < 1 - p by linarith) (k + 1)]
  have a := (Geometric.floor_iff h0 h1 hu k).2 h
  have b := (Geometric.floor_iff h0 h1 hu k').2 h'
  rw [a] at b
  exact_mod_cast b

/-- The values of `u` that give `k` have the measure of the geometric probability of `k`. -/
theorem c79_probability (h0 : 0 < p) (h1 : p < 1) {k : Nat} (hk : k < 2 ^ (bits - 1)) :
    MeasureTheory.volume {u : ℝ | 0 ≤ u ∧ u < 1 ∧ Geometric.next exactOps bits p [u] = .done k []} = ENNReal.ofReal (geomPmf p k) := by
  have hq : 0 < 1 - p := by linarith
  have e : geomPmf p k = (1 - (1 - p) ^ (k + 1)) - (1 - (1 - p) ^ k) := by unfold geomPmf; ring
  rw [e]
  have key : ∀ u, 0 ≤ u → u < 1 → (Geometric.next exactOps bits p [u] = .done k [] ↔ (1 - p) ^ (k + 1) < 1 - u ∧ 1 - u ≤ (1 - p) ^ k) := by
    intro u a b
    rcases c79_inversion_partial (bits := bits) h0 h1 a b [] with ⟨k', hk', e', h⟩ | ⟨e', h⟩
    · rw [e']
      constructor
      · intro h'
        injection h' with h' _
        have h' : k' = k := by exact_mod_cast h'
        exact h' ▸ h
      · intro h'
        rw [geometric_unique h0 h1 h h']
    · rw [e']
      constructor
      · intro h'; cases h'
      · intro h'
        have : (1 - p) ^ 2 ^ (bits - 1) ≤ (1 - p) ^ (k + 1) := pow_le_pow_of_le_one hq.le (by linarith) hk
        linarith [h'.1]
  have hpk : (1 - p) ^ k ≤ 1 := pow_le_one₀ hq.le (by linarith)
  apply volume_between
  · rintro u ⟨a, b⟩
    have h2 : 0 < (1 - p) ^ (k + 1) := by positivity
    refine ⟨by linarith, by linarith, (key u (by linarith) (by linarith)).2 ⟨by linarith, by linarith⟩⟩
  · rintro u ⟨a, b, c⟩
    obtain ⟨c1, c2⟩ := (key u a b).1 c
    exact ⟨by linarith, by linarith⟩

/-- Two failures before the first six. -/
example : (0 : ℝ) < 1 / 6 ∧ (1 / 6 : ℝ) < 1 ∧ 2 < 2 ^ (32 - 1) ∧ geomPmf (1 / 6 : ℝ) 2 = 25 / 216 := by norm_num [geomPmf]

/-- The deprecated class `boost::geometric_distribution` counts from one, and its parameter is the probability of failure. -/
theorem c79_deprecated (h0 : 0 < p) (h1 : p < 1) {u : ℝ} (hu0 : 0 ≤ u) (hu : u < 1) (vs : List ℝ) :
    (∃ i : Nat, 1 ≤ i ∧ i < 2 ^ (bits - 1) ∧ Geometric.nextOld exactOps bits p (u :: vs) = .done i vs ∧ p ^ i < 1 - u ∧ 1 - u ≤ p ^ (i - 1)) ∨
    (Geometric.nextOld exactOps bits p (u :: vs) = .ub ∧ 1 - u ≤ p ^ (2 ^ (bits - 1) - 1)) := by
  unfold Geometric.nextOld
  have e : exactOps.fl (1 - p) = 1 - p := rfl
  rw [e]
  have hpp : (1 : Int) ≤ 2 ^ (bits - 1) := by exact_mod_cast Nat.one_le_two_pow
  rcases c79_inversion_partial (bits := bits) (p := 1 - p) (by linarith) (by linarith) hu0 hu vs with ⟨k, hk, e, h2, h3⟩ | ⟨e, h2⟩
  · rw [e]
    rw [sub_sub_cancel] at h2 h3
    simp only [Draws.bind]
    by_cases hb : k + 1 < 2 ^ (bits - 1)
    · have : ((k : Int) + 1) < 2 ^ (bits - 1) := by exact_mod_cast hb
      rw [if_pos ⟨by have : (0 : Int) < 2 ^ (bits - 1) := by positivity
                     omega, this⟩]
      exact Or.inl ⟨k + 1, by omega, hb, by push_cast; rfl, h2, h3⟩
    · rw [if_neg]
      · refine Or.inr ⟨rfl, ?_⟩
        rw [show 2 ^ (bits - 1) - 1 = k by omega]
        exact h3
      · rintro ⟨_, h⟩
        exact hb (by exact_mod_cast h)
  · rw [e]
    rw [sub_sub_cancel] at h2
    exact Or.inr ⟨rfl, h2.trans (pow_le_pow_of_le_one h0.le h1.le (Nat.sub_le _ _))⟩

example : (0 : ℝ) < 5 / 6 ∧ (5 / 6 : ℝ) < 1 ∧ (0 : ℝ) ≤ 1 / 2 := by norm_num

/-- C79 is false for small probabilities: in `int` the quotient for `p = 2^-40` and `u = 1/2` is outside of the range. -/
theorem c79_range_false (vs : List ℝ) : Geometric.next exactOps 32 (1 / 2 ^ 40) (1 / 2 :: vs) = .ub := by
  rcases c79_inversion_partial (bits := 32) (p := 1 / 2 ^ 40) (by norm_num) (by norm_num) (u := 1 / 2) (by norm_num) (by norm_num) vs with ⟨k, hk, e, h2, h3⟩ | ⟨e, h2⟩
  · exfalso
    have hb := one_add_mul_le_pow (a := -(1 / 2 ^ 40 : ℝ)) (by norm_num) (k + 1)
    have hk' : (k : ℝ) + 1 ≤ 2 ^ 31 := by exact_mod_cast hk
    rw [← sub_eq_add_neg] at hb
    push_cast at hb
    norm_num at hb h2 hk'
    linarith
  · exact e

/-- With rounding, `1 - p` may be one, and the quotient infinite or not a number, whatever the value of `uniform_01`. -/
theorem c79_rounded_false {fl : ℚ → ℚ} (H : Nearest 53 fl) (o : RealOps ℚ) (ho : o.fl = fl) (hlog : o.log 1 = 0) (bits : Nat) (u : ℚ) (vs : List ℚ) :
    Geometric.next o bits (1 / 2 ^ 60) (u :: vs) = .ub := by
  have R := Boost.Random.Nearest.rounding H
  have e : fl (1 - 1 / 2 ^ 60) = 1 := (fl_near_pow (by decide) H (x := 1 - 1 / 2 ^ 60) 0 (by norm_num) (by norm_num)).trans (pow_zero 2)
  unfold Geometric.next Geometric.log1mp
  dsimp only
  rw [if_pos]
  rw [ho, e, hlog]
  exact R.exact _ (Representable.zero 53)

/-- Such operations exist. -/
example : ∃ o : RealOps ℚ, Nearest 53 o.fl ∧ o.log 1 = 0 := ⟨⟨rn 53, id, id, fun x => x - 1, fun x _ => x⟩, rn_nearest (by decide), by norm_num⟩

end

end Boost.Random
