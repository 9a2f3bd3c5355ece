import Verif.Proofs.SphereFloat
import Mathlib.LinearAlgebra.UnitaryGroup
import Mathlib.MeasureTheory.Measure.Haar.OfBasis

/-!
# Properties C109 to C114: `uniform_on_sphere`
-/

namespace Boost.Random
open Spec RealDist MeasureTheory
open scoped ENNReal

/-! ## C109: the law -/

/-- C109: on independent uniform and normal numbers, in exact arithmetic, the probability that a call returns a point of `A` within `n + 1` iterations
is that of the uniform distribution on the sphere, times the probability to leave the loop; in the dimensions 0, 1 and from 4 on one iteration is
enough. -/
theorem c109_law (d n k : Nat) (hk : d * (n + 1) ≤ k) (e : Sphere.Dist ℝ) (he : e.dim = d) (hs : Sized e) (A : Set (Fin d → ℝ)) (hA : MeasurableSet A) :
    chance k (fun l => Lands d A (Sphere.generate exactOps idealNumbers (n + 1) e l)) = ENNReal.ofReal (1 - (1 - discShare d) ^ (n + 1)) * sphereLaw d A :=
  Sphere.law d n k hk e he (by unfold Sized at hs; omega) hA

/-- Three dimensions, 100 iterations. -/
example : chance 300 (fun l => Lands 3 {x | 1 / 2 < x 2} (Sphere.generate exactOps idealNumbers 100 ⟨[0, 0, 0], 3⟩ l)) =
    ENNReal.ofReal (1 - (1 - Real.pi / 4) ^ 100) * sphereLaw 3 {x | 1 / 2 < x 2} := by
  have := c109_law 3 99 300 (by norm_num) ⟨[0, 0, 0], 3⟩ rfl rfl {x | 1 / 2 < x 2} (measurableSet_lt measurable_const (measurable_pi_apply 2))
  rwa [show discShare 3 = Real.pi / 4 from if_pos (.inr rfl)] at this

/-- C109, the specification: the whole probability is 1, it is on the points of norm 1, and a rotation or reflection does not change it. -/
theorem c109_spec (d : Nat) : sphereLaw d Set.univ = 1 ∧ (d ≠ 0 → sphereLaw d {x | ∑ i, x i ^ 2 = 1} = 1) ∧
    ∀ Q ∈ Matrix.orthogonalGroup (Fin d) ℝ, ∀ A, sphereLaw d {x | Q.mulVec x ∈ A} = sphereLaw d A := by
  have hu : sphereLaw d Set.univ = 1 := by
    rw [← Sphere.radial_gauss MeasurableSet.univ, Set.preimage_univ, measure_univ]
  refine ⟨hu, fun hd => ?_, fun Q hQ A => ?_⟩
  · have : NeZero d := ⟨hd⟩
    rw [← hu]
    unfold sphereLaw
    congr 1
    refine measure_congr ?_
    have hz : volume ({0} : Set (Fin d → ℝ)) = 0 := measure_singleton 0
    filter_upwards [compl_mem_ae_iff.2 hz] with x hx
    refine propext ⟨fun h => ⟨h.1, trivial⟩, fun h => ⟨h.1, ?_⟩⟩
    simp only [Set.mem_preimage, Set.mem_ofPred_eq, radial, div_pow]
    have hpos : 0 < ∑ i, x i ^ 2 := by
      refine lt_of_le_of_ne (Finset.sum_nonneg fun i _ => sq_nonneg _) fun h0 => hx ?_
      have := (Finset.sum_eq_zero_iff_of_nonneg fun i _ => sq_nonneg (x i)).1 h0.symm
      funext i
      simpa using this i (Finset.mem_univ i)
    rw [Real.sq_sqrt hpos.le, ← Finset.sum_div, div_self hpos.ne']
  · have hQ' : Q.transpose * Q = 1 := by
      exact (Matrix.mem_orthogonalGroup_iff' (Fin d) ℝ).1 hQ
    have hn : ∀ x, ∑ i, Q.mulVec x i ^ 2 = ∑ i, x i ^ 2 := by
      intro x
      have : dotProduct (Q.mulVec x) (Q.mulVec x) = dotProduct x x := by
        rw [Matrix.dotProduct_mulVec, Matrix.vecMul_mulVec, hQ', Matrix.vecMul_one]
      simpa [dotProduct, sq] using this
    have hr : ∀ x, radial (Q.mulVec x) = Q.mulVec (radial x) := by
      intro x
      have e : radial x = (Real.sqrt (∑ j, x j ^ 2))⁻¹ • x := by
        funext i
        simp [radial, div_eq_inv_mul]
      rw [e, Matrix.mulVec_smul]
      funext i
      simp [radial, hn, div_eq_inv_mul]
    unfold sphereLaw
    congr 1
    have hset : unitBall d ∩ radial ⁻¹' {x | Q.mulVec x ∈ A} = Matrix.toLin' Q ⁻¹' (unitBall d ∩ radial ⁻¹' A) := by
      ext x
      simp only [Set.mem_inter_iff, Set.mem_preimage, unitBall, Set.mem_ofPred_eq, Matrix.toLin'_apply, hn, hr]
    have hdet : Q.det * Q.det = 1 := by
      have := congrArg Matrix.det hQ'
      rwa [Matrix.det_mul, Matrix.det_transpose, Matrix.det_one] at this
    have hdet' : LinearMap.det (Matrix.toLin' Q) = Q.det := LinearMap.det_toLin' Q
    have habs : |Q.det| = 1 := by
      rcases mul_self_eq_one_iff.1 hdet with h | h <;> rw [h] <;> simp
    have hne : Q.det ≠ 0 := by
      intro h
      rw [h] at habs
      simp at habs
    rw [hset, Measure.addHaar_preimage_linearMap volume (by rwa [hdet']), hdet', abs_inv, habs]
    simp

/-- Half of the circle on each side: the reflection that exchanges them. -/
example : sphereLaw 2 {x | x 0 < 0} = sphereLaw 2 {x | 0 < x 0} := by
  have := (c109_spec 2).2.2 (-1) (by rw [Matrix.mem_orthogonalGroup_iff]; simp) {x | x 0 < 0}
  rw [← this]
  congr 1
  ext x
  simp [Matrix.neg_mulVec]

/-! ## C110, C111: the norm -/

/-- C110: in exact arithmetic, for every source of numbers, every result has as many coordinates as the dimension, and the norm 1. -/
theorem c110_norm (σ : Type) (N : Numbers ℝ σ) (n : Nat) (e e' : Sphere.Dist ℝ) (s s' : σ) (hs : Sized e) (hd : e.dim ≠ 0)
    (h : Sphere.generate exactOps N n e s = .done e' s') : (e'.container.length : Int) = e.dim ∧ (e'.container.map (· ^ 2)).sum = 1 := by
  obtain ⟨h1, h2⟩ := Sphere.generate_done hs h
  unfold Sized at hs
  exact ⟨by rw [h2.length, hs], h2.norm (by omega)⟩

example : ∃ e', Sphere.generate exactOps (σ := List ℝ) { unif := fun _ => .more, expo := fun _ => .more, norm := fun l => match l with | [] => .more | v :: l => .done v l }
    1 ⟨[0, 0, 0, 0], 4⟩ [1, -2, 3, 0] = .done e' [] := by
  refine ⟨⟨Sphere.scaled exactOps 14 [1, -2, 3, 0], 4⟩, ?_⟩
  norm_num [Sphere.generate, Sphere.direction, Sphere.fill, Run.bind, exactOps]

/-- C111: in floating-point arithmetic with 53 bits, rounded to nearest, with a square root of relative error at most half a unit in the last place
of 1, for every source of numbers: the sum of the squares of the coordinates differs from 1 by at most `(dim + 7) / 2^52`. -/
theorem c111_norm (o : RealOps ℚ) (H : Nearest 53 o.fl) (hsqrt : ∀ x : ℚ, 0 ≤ x → |(o.sqrt x : ℝ) - Real.sqrt x| ≤ Real.sqrt x / 2 ^ 53)
    (σ : Type) (N : Numbers ℚ σ) (n : Nat) (e e' : Sphere.Dist ℚ) (s s' : σ) (hs : Sized e) (hd : e.dim ≠ 0) (hd' : e.dim + 7 ≤ 2 ^ 52)
    (h : Sphere.generate o N n e s = .done e' s') :
    (e'.container.length : Int) = e.dim ∧ |(e'.container.map (· ^ 2)).sum - 1| ≤ ((e.dim : ℚ) + 7) / 2 ^ 52 := by
  obtain ⟨h1, h2⟩ := Sphere.generate_done hs h
  unfold Sized at hs
  refine ⟨by rw [h2.length, hs], ?_⟩
  have := (h2.near H hsqrt (by omega)).one (by omega)
  rw [← hs, Int.cast_natCast]
  rwa [Nat.cast_add, Nat.cast_ofNat] at this

/-- Arithmetic with the hypotheses of C111 and C112. -/
theorem exists_sqrt : ∃ o : RealOps ℚ, Nearest 53 o.fl ∧ (∀ x : ℚ, 0 ≤ x → CorrectlyRounded 53 (Real.sqrt x) (o.sqrt x)) ∧
    o.fl (1 - 9007199243019773 / 2 ^ 54) = 2251799816615553 / 2 ^ 52 := by
  have h := Sphere.exists_rounded
  choose f hf using h
  refine ⟨⟨rn 53, f, id, id, fun x _ => x⟩, rn_nearest (by decide), fun x _ => hf x, ?_⟩
  have hl : Int.log 2 |(1 - 9007199243019773 / 2 ^ 54 : ℚ)| = -1 := by
    refine le_antisymm ?_ ?_
    · have : Int.log 2 |(1 - 9007199243019773 / 2 ^ 54 : ℚ)| < 0 := (Int.lt_zpow_iff_log_lt (by norm_num) (by norm_num)).1 (by rw [abs_of_pos (by norm_num)]; norm_num)
      omega
    · exact (Int.zpow_le_iff_le_log (by norm_num) (by norm_num)).1 (by rw [abs_of_pos (by norm_num)]; norm_num)
  simp only
  unfold rn ulp
  rw [if_neg (by norm_num), hl]
  norm_num

/-- The points (-1) and (1). -/
example : ∃ (o : RealOps ℚ) (e' : Sphere.Dist ℚ), Nearest 53 o.fl ∧ (∀ x : ℚ, 0 ≤ x → |(o.sqrt x : ℝ) - Real.sqrt x| ≤ Real.sqrt x / 2 ^ 53) ∧
    Sphere.generate o (engineNumbers o engMt 5) 5 ⟨[0], 1⟩ [0] = .done e' [] := by
  obtain ⟨o, H, hs, -⟩ := exists_sqrt
  refine ⟨o, ⟨[-1], 1⟩, H, Sphere.acc_of_rounded hs, ?_⟩
  unfold Sphere.generate
  simp only
  rw [if_neg (by decide), if_pos trivial, unif_zero (Boost.Random.Nearest.rounding H)]
  have e : o.fl (1 / 2) = 1 / 2 := fl_exact (Boost.Random.Nearest.rounding H) 1 (-1) (by norm_num) (by norm_num) (by norm_num)
  simp only [Run.bind, e]
  norm_num [Sphere.finish, Sphere.store]

/-! ## C112: `min()` and `max()` -/

/-- C112 for exact arithmetic: every result lies between `min()` and `max()` in the lexicographical order. Missing: it is false in floating-point
arithmetic, see `c112_min_false` and `c112_max_false`. -/
theorem c112_order_partial (σ : Type) (N : Numbers ℝ σ) (n : Nat) (e e' : Sphere.Dist ℝ) (s s' : σ) (hs : Sized e)
    (h : Sphere.generate exactOps N n e s = .done e' s') :
    ∃ lo hi, Sphere.min e = some lo ∧ Sphere.max e = some hi ∧ LexLe lo e'.container ∧ LexLe e'.container hi := by
  have hc := Sphere.generate_done hs h
  obtain ⟨c, d⟩ := e
  simp only [Sized] at hs
  subst hs
  cases c with
  | nil =>
    have : e'.container = [] := List.eq_nil_of_length_eq_zero (by simpa using hc.2.length)
    refine ⟨[], [], by simp [Sphere.min, Sphere.vector], by simp [Sphere.max, Sphere.vector], ?_, ?_⟩ <;> rw [this] <;> trivial
  | cons x c =>
    have hn := hc.2.norm (by simp)
    have hl := hc.2.length
    simp only [List.length_cons] at hl
    refine ⟨-1 :: List.replicate c.length 0, 1 :: List.replicate c.length 0, ?_, ?_, ?_⟩
    · simp only [Sphere.min, Sphere.vector]
      rw [if_pos (by positivity)]
      simp only [List.length_cons, Int.toNat_natCast, Option.bind_some]
      rw [if_pos (by positivity)]
      rfl
    · simp only [Sphere.max, Sphere.vector]
      rw [if_pos (by positivity)]
      simp only [List.length_cons, Int.toNat_natCast, Option.bind_some]
      rw [if_pos (by positivity)]
      rfl
    · generalize e'.container = l at *
      cases l with
      | nil => simp at hl
      | cons a l =>
        have : l.length = c.length := by simpa using hl
        rw [← this]
        exact Sphere.lex_of_norm hn

/-- C112 for the coordinates, in floating-point arithmetic: unless the dimension is 3, each is between -1 and 1, the square root being correctly
rounded. Missing: dimension 3, see `c112_max_false`, and the order of points whose first coordinates are the same, see `c112_min_false`. -/
theorem c112_coordinates_partial (o : RealOps ℚ) (H : Nearest 53 o.fl) (hsqrt : ∀ x : ℚ, 0 ≤ x → CorrectlyRounded 53 (Real.sqrt x) (o.sqrt x))
    (E : EngInfo) (m n : Nat) (e e' : Sphere.Dist ℚ) (xs rest : List Int) (hs : Sized e) (hd : e.dim ≠ 3)
    (h : Sphere.generate o (engineNumbers o E m) n e xs = .done e' rest) : ∀ a ∈ e'.container, -1 ≤ a ∧ a ≤ 1 := by
  obtain ⟨h1, h2⟩ := Sphere.generate_done hs h
  unfold Sized at hs
  intro a ha
  exact abs_le.1 (h2.coordinates H hsqrt (fun s v s' hv => Sphere.norm_repr (Boost.Random.Nearest.rounding H) _ _ _ _ _ hv) (by omega) a ha)

/-- One word of `mt19937` through `uniform_01`. -/
theorem Sphere.unif_word {o : RealOps ℚ} (H : Rounding 53 o.fl) (n : Nat) (w : Nat) (hw : w < 2 ^ 32) (h : subTy engMt.ty w engMt.min = some (w : Int)) (rest : List Int) :
    (engineNumbers o engMt n).unif (w :: rest) = .done ((w : ℚ) / 2 ^ 32) rest := by
  change (uniform01 o.fl engMt ((w : Int) :: rest)).run = _
  have h1 : subTy engMt.ty engMt.max engMt.min = some 4294967295 := by decide
  have hw' : (w : ℚ) < 2 ^ 32 := by exact_mod_cast hw
  have e1 : o.fl ((4294967295 : Int) : ℚ) = 4294967295 := fl_exact H 4294967295 0 (by norm_num) (by norm_num) (by norm_num)
  have e2 : o.fl 1 = 1 := fl_exact H 1 0 (by norm_num) (by norm_num) (by norm_num)
  have e3 : o.fl (4294967295 + 1) = 2 ^ 32 := fl_exact H 1 32 (by norm_num) (by norm_num) (by norm_num)
  have e4 : o.fl (1 / 2 ^ 32) = 1 / 2 ^ 32 := fl_exact H 1 (-32) (by norm_num) (by norm_num) (by norm_num)
  have hwb : |((w : Nat) : ℤ)| < 2 ^ 53 := by rw [abs_of_nonneg (by positivity)]; exact_mod_cast hw.trans (by norm_num)
  have e5 : o.fl (((w : Nat) : Int) : ℚ) = w := fl_exact H w 0 hwb (by norm_num) (by norm_num)
  have e6 : o.fl ((w : ℚ) * (1 / 2 ^ 32)) = (w : ℚ) / 2 ^ 32 := fl_exact H w (-32) hwb (by norm_num) (by norm_num; ring)
  unfold uniform01
  rw [h1, h]
  simp only [e1, e2, e3, e4, e5, e6]
  rw [if_pos (by rw [div_lt_one (by positivity)]; exact hw')]
  rfl

/-- C112 is false: with the words 0 and 2147483647 of `mt19937`, `uniform_on_sphere<double>(2)` returns (-1, -2^-31), which is less than `min()`, the
vector (-1, 0). -/
theorem c112_min_false (o : RealOps ℚ) (H : Nearest 53 o.fl) (hsqrt : o.sqrt 1 = 1) (m n : Nat) (c : List ℚ) (hc : c.length = 2) (rest : List Int) :
    Sphere.generate o (engineNumbers o engMt m) (n + 1) ⟨c, 2⟩ (0 :: 2147483647 :: rest) = .done ⟨[-1, -1 / 2 ^ 31], 2⟩ rest ∧
    Sphere.min (⟨c, 2⟩ : Sphere.Dist ℚ) = some [-1, 0] ∧ ¬ LexLe [-1, 0] [(-1 : ℚ), -1 / 2 ^ 31] := by
  have R := Boost.Random.Nearest.rounding H
  refine ⟨?_, rfl, by norm_num [LexLe]⟩
  have u1 : (engineNumbers o engMt m).unif (2147483647 :: rest) = .done (2147483647 / 2 ^ 32) rest := by
    simpa using Sphere.unif_word R m 2147483647 (by norm_num) (by decide) rest
  have s1 : Sphere.side o 0 = -1 := by
    rw [Sphere.side, zero_mul, R.exact 0 (Representable.zero _)]
    exact fl_exact R (-1) 0 (by norm_num) (by norm_num) (by norm_num)
  have s2 : Sphere.side o (2147483647 / 2 ^ 32) = -1 / 2 ^ 31 := by
    rw [Sphere.side, fl_exact R (x := 2147483647 / 2 ^ 32 * 2) (y := 2147483647 / 2 ^ 31) 2147483647 (-31) (by norm_num) (by norm_num) (by norm_num)]
    exact fl_exact R (-1) (-31) (by norm_num) (by norm_num) (by norm_num)
  have q : Sphere.square o (-1) (-1 / 2 ^ 31) = 1 := by
    rw [Sphere.square, fl_exact R (x := -1 * -1) (y := 1) 1 0 (by norm_num) (by norm_num) (by norm_num),
      fl_exact R (x := -1 / 2 ^ 31 * (-1 / 2 ^ 31)) (y := 1 / 2 ^ 62) 1 (-62) (by norm_num) (by norm_num) (by norm_num)]
    have h1 := R.mono 1 (1 + 1 / 2 ^ 62) (by norm_num)
    rw [R.exact 1 (Representable.one (by norm_num))] at h1
    have h2 := Sphere.fl_near_one H (x := 1 + 1 / 2 ^ 62) (by rw [abs_of_pos (by norm_num)]; norm_num)
    exact le_antisymm ((le_abs_self _).trans h2) h1
  unfold Sphere.generate
  simp only
  rw [if_neg (by decide), if_neg (by decide), if_pos trivial, Sphere.disc, unif_zero R]
  simp only [Run.bind, u1, s1, s2, q]
  rw [if_neg (by norm_num)]
  simp only [Sphere.circle, hsqrt]
  rw [div_one, fl_exact R (x := 1) (y := 1) 1 0 (by norm_num) (by norm_num) (by norm_num), fl_exact R (x := -1 * 1) (y := -1) (-1) 0 (by norm_num) (by norm_num) (by norm_num),
    fl_exact R (x := -1 / 2 ^ 31 * 1) (y := -1 / 2 ^ 31) (-1) (-31) (by norm_num) (by norm_num) (by norm_num)]
  exact Sphere.finish_length (by rw [hc]; rfl)

/-- C112 is false: with the words 3665983897 and 2147483648 of `mt19937`, `uniform_on_sphere<double>(3)` returns a point whose first coordinate is
1 + 2^-52, which is greater than `max()`, the square root being correctly rounded and the difference 1 - `sqsum`, which is midway between two numbers,
rounded to the even one. -/
theorem c112_max_false (o : RealOps ℚ) (H : Nearest 53 o.fl) (htie : o.fl (1 - 9007199243019773 / 2 ^ 54) = 2251799816615553 / 2 ^ 52)
    (hsqrt : CorrectlyRounded 53 (Real.sqrt (2251799816615553 / 2 ^ 52 : ℝ)) (o.sqrt (2251799816615553 / 2 ^ 52)))
    (m n : Nat) (c : List ℚ) (hc : c.length = 3) (rest : List Int) :
    Sphere.generate o (engineNumbers o engMt m) (n + 1) ⟨c, 3⟩ (3665983897 :: 2147483648 :: rest) = .done ⟨[1 + 1 / 2 ^ 52, 0, -11721219 / 2 ^ 53], 3⟩ rest ∧
    Sphere.max (⟨c, 3⟩ : Sphere.Dist ℚ) = some [1, 0, 0] ∧ ¬ LexLe [(1 + 1 / 2 ^ 52 : ℚ), 0, -11721219 / 2 ^ 53] [1, 0, 0] := by
  have R := Boost.Random.Nearest.rounding H
  refine ⟨?_, rfl, by norm_num [LexLe]⟩
  have e0 : o.fl 0 = 0 := R.exact 0 (Representable.zero _)
  have u1 : (engineNumbers o engMt m).unif (3665983897 :: 2147483648 :: rest) = .done (3665983897 / 2 ^ 32) (2147483648 :: rest) := by
    simpa using Sphere.unif_word R m 3665983897 (by norm_num) (by decide) (2147483648 :: rest)
  have u2 : (engineNumbers o engMt m).unif (2147483648 :: rest) = .done (2147483648 / 2 ^ 32) rest := by
    simpa using Sphere.unif_word R m 2147483648 (by norm_num) (by decide) rest
  have s1 : Sphere.side o (3665983897 / 2 ^ 32) = 1518500249 / 2 ^ 31 := by
    rw [Sphere.side, fl_exact R (x := 3665983897 / 2 ^ 32 * 2) (y := 3665983897 / 2 ^ 31) 3665983897 (-31) (by norm_num) (by norm_num) (by norm_num)]
    exact fl_exact R 1518500249 (-31) (by norm_num) (by norm_num) (by norm_num)
  have s2 : Sphere.side o (2147483648 / 2 ^ 32) = 0 := by
    rw [Sphere.side, fl_exact R (x := 2147483648 / 2 ^ 32 * 2) (y := 1) 1 0 (by norm_num) (by norm_num) (by norm_num), sub_self, e0]
  have q : Sphere.square o (1518500249 / 2 ^ 31) 0 = 9007199243019773 / 2 ^ 54 := by
    rw [Sphere.square, mul_zero, e0, add_zero]
    have : o.fl (1518500249 / 2 ^ 31 * (1518500249 / 2 ^ 31)) = 9007199243019773 / 2 ^ 54 := by
      refine fl_round H 9007199243019773 (-54) (by norm_num) (by norm_num) (by norm_num) ?_
      rw [abs_lt]; norm_num
    rw [this]
    exact fl_exact R 9007199243019773 (-54) (by norm_num) (by norm_num) (by norm_num)
  have r : o.sqrt (2251799816615553 / 2 ^ 52) = 6369051676669850 / 2 ^ 53 := by
    have := Triangle.correctlyRounded_eq hsqrt 6369051676669850 (-53) (by norm_num) (by norm_num) (by
      refine Triangle.sqrt_near (by positivity) ?_ ?_ ?_ <;> norm_num)
    rw [this]; norm_num
  have mu : o.fl (2 * (6369051676669850 / 2 ^ 53)) = 6369051676669850 / 2 ^ 52 := fl_exact R 6369051676669850 (-52) (by norm_num) (by norm_num) (by norm_num)
  have x1 : o.fl (1518500249 / 2 ^ 31 * (6369051676669850 / 2 ^ 52)) = 1 + 1 / 2 ^ 52 := by
    refine fl_round H 4503599627370497 (-52) (by norm_num) (by norm_num) (by norm_num) ?_
    rw [abs_lt]; norm_num
  have z : o.fl (o.fl (2 * (9007199243019773 / 2 ^ 54)) - 1) = -11721219 / 2 ^ 53 := by
    rw [fl_exact R (x := 2 * (9007199243019773 / 2 ^ 54)) (y := 9007199243019773 / 2 ^ 53) 9007199243019773 (-53) (by norm_num) (by norm_num) (by norm_num)]
    refine fl_exact R (-11721219) (-53) (by norm_num) (by norm_num) (by norm_num)
  unfold Sphere.generate
  simp only
  rw [if_neg (by decide), if_neg (by decide), if_neg (by decide), if_pos trivial, Sphere.disc, u1]
  simp only [Run.bind, u2, s1, s2, q]
  rw [if_neg (by norm_num)]
  simp only [Sphere.globe, htie, r, mu, x1, z, zero_mul, e0]
  exact Sphere.finish_length (by rw [hc]; rfl)

/-- The hypotheses can be met, and dimension 2 meets those of `c112_coordinates_partial`. -/
example : ∃ o : RealOps ℚ, Nearest 53 o.fl ∧ (∀ x : ℚ, 0 ≤ x → CorrectlyRounded 53 (Real.sqrt x) (o.sqrt x)) ∧ o.sqrt 1 = 1 ∧
    o.fl (1 - 9007199243019773 / 2 ^ 54) = 2251799816615553 / 2 ^ 52 ∧
    CorrectlyRounded 53 (Real.sqrt (2251799816615553 / 2 ^ 52 : ℝ)) (o.sqrt (2251799816615553 / 2 ^ 52)) ∧
    ∃ e', Sphere.generate o (engineNumbers o engMt 1) 1 ⟨[0, 0], 2⟩ [0, 2147483647] = .done e' [] := by
  obtain ⟨o, H, hs, ht⟩ := exists_sqrt
  have h1 : o.sqrt 1 = 1 := by
    have := (hs 1 zero_le_one).2 1 (Representable.one (by norm_num))
    simp only [Rat.cast_one, Real.sqrt_one, sub_self, abs_zero, abs_nonpos_iff] at this
    have h : (o.sqrt 1 : ℝ) = 1 := by linarith
    exact_mod_cast h
  refine ⟨o, H, hs, h1, ht, ?_, _, (c112_min_false o H h1 1 0 [0, 0] rfl []).1⟩
  have := hs (2251799816615553 / 2 ^ 52) (by norm_num)
  push_cast at this
  exact this

/-! ## C113: the object -/

/-- C113: the parameter of an object is what was given, every way to give a parameter that is not negative makes the same object up to the elements
of the container, calls keep it, and objects that are equal produce the same sequences. Missing: a negative number read by `operator>>` or given to
`param(parm)`, see `c113_negative_false`. -/
theorem c113_object_partial (K σ : Type) [Field K] [LinearOrder K] (o : RealOps K) (N : Numbers K σ) (n : Nat) (v : Int) (hv : 0 ≤ v) (d : Sphere.Dist K) (s : σ) :
    (∃ e, Sphere.ofDim (K := K) v = some e ∧ Sized e ∧ e.dim = v) ∧ (∃ e, Sphere.ofParam (K := K) v = some e ∧ Sized e ∧ Sphere.param e = some v) ∧
    (∃ e, Sphere.setParam d v = (e, true) ∧ Sized e ∧ Sphere.param e = some v) ∧
    (∃ e, Sphere.read d v = (e, true) ∧ Sized e ∧ Sphere.write e = v) ∧
    (∀ a b : Sphere.Dist K, Sized a → Sized b → (Sphere.eq a b = true ↔ a.dim = b.dim) ∧
      (Sphere.eq a b = true → Sphere.generate o N n a s = Sphere.generate o N n b s)) ∧
    (∀ a b : Sphere.Dist K, Sized a → ∀ t, Sphere.generate o N n a s = .done b t → Sized b ∧ b.dim = a.dim ∧ Sphere.eq a b = true) ∧
    (∀ a : Sphere.Dist K, Sized a → a.dim = v → Sphere.generateWith o N n v s = (Sphere.generate o N n a s).bind fun b t => .done b.container t) := by
  obtain ⟨k, rfl⟩ : ∃ k : Nat, v = k := ⟨v.toNat, by omega⟩
  have hvec : Sphere.vector (K := K) (k : Int) = some (List.replicate k 0) := by simp [Sphere.vector]
  have hres : ∀ l : List K, Sphere.resize l (k : Int) = some (l.take k ++ List.replicate (k - l.length) 0) := fun l => by simp [Sphere.resize]
  have hlen : ∀ l : List K, (l.take k ++ List.replicate (k - l.length) 0).length = k := fun l => by
    rw [List.length_append, List.length_take, List.length_replicate]
    omega
  have hp : ∀ c : List K, Sphere.param (⟨c, k⟩ : Sphere.Dist K) = some (k : Int) := fun c => by simp [Sphere.param, Sphere.paramOf]
  refine ⟨⟨⟨List.replicate k 0, k⟩, by rw [Sphere.ofDim, hvec]; rfl, by simp [Sized], rfl⟩,
    ⟨⟨List.replicate k 0, k⟩, by rw [Sphere.ofParam, hvec]; rfl, by simp [Sized], hp _⟩, ⟨_, by rw [Sphere.setParam, hres], by rw [Sized, hlen], hp _⟩,
    ⟨_, by rw [Sphere.read, hres], by rw [Sized, hlen], rfl⟩, fun a b ha hb => ⟨by simp [Sphere.eq], fun h => ?_⟩, fun a b ha t h => ?_, fun a ha hav => ?_⟩
  · exact Sphere.generate_congr ha hb (by simpa [Sphere.eq] using h) s
  · obtain ⟨h1, h2⟩ := Sphere.generate_done ha h
    refine ⟨?_, h1, by simp [Sphere.eq, h1]⟩
    rw [Sized, h2.length, h1]
    exact ha
  · have : Sphere.generate o N n ⟨List.replicate k 0, k⟩ s = Sphere.generate o N n a s := Sphere.generate_congr (by simp [Sized]) ha hav.symm s
    rw [Sphere.generateWith, Sphere.ofParam, hvec]
    simp only [Option.map_some]
    rw [this]

example : Sphere.setParam (⟨[1, 0, 0], 3⟩ : Sphere.Dist ℚ) 5 = (⟨[1, 0, 0, 0, 0], 5⟩, true) ∧ Sphere.read (⟨[1, 0, 0], 3⟩ : Sphere.Dist ℚ) 2 = (⟨[1, 0], 2⟩, true) := by decide

/-- C113 is false of a negative number: `operator>>` stores it before the exception of `std::vector::resize`, so `dim()` is negative and no longer the
size of the container; for an object of dimension 0 no later call of `operator()` ever returns, whatever the engine produces. -/
theorem c113_negative_false (K : Type) [Field K] [LinearOrder K] (v : Int) (hv : v < 0) (d : Sphere.Dist K) :
    Sphere.read d v = (⟨d.container, v⟩, false) ∧ ¬ Sized (Sphere.read d v).1 ∧
    (d.container = [] → ∀ (o : RealOps K) (σ : Type) (N : Numbers K σ) (n : Nat) (s : σ), Sphere.generate o N n (Sphere.read d v).1 s = .more) := by
  have e : Sphere.read d v = (⟨d.container, v⟩, false) := by
    rw [Sphere.read, Sphere.resize, if_neg (not_le.2 hv)]
  rw [e]
  refine ⟨rfl, by simp only [Sized]; omega, fun h o σ N n s => ?_⟩
  unfold Sphere.generate
  simp only
  rw [if_neg (by omega), if_neg (by omega), if_neg (by omega), if_neg (by omega), h]
  have : ∀ n (s : σ), Sphere.direction o N [] n s = .more := by
    intro n
    induction n with
    | zero => intro s; rfl
    | succ n ih => intro s; simp [Sphere.direction, Sphere.fill, Run.bind, ih]
  rw [this]
  rfl

example : Sphere.read (⟨[], 0⟩ : Sphere.Dist ℚ) (-1) = (⟨[], -1⟩, false) := by decide

/-! ## C114: no undefined behaviour -/

/-- C114: on an engine of the library no call writes outside of the container, and what remains of the input is a part of it. -/
theorem c114_safe (o : RealOps ℚ) (H : Rounding 53 o.fl) (E : EngInfo) (hE : EngOK E) (hD : DiffOK E)
    (hsafe : engineBits E - 8 % engineBits E < 53 → ¬ engineBits E ∣ 61) (m n : Nat) (e : Sphere.Dist ℚ) (hs : Sized e) (xs : List Int) (hO : Outputs E xs) :
    Sphere.generate o (engineNumbers o E m) n e xs ≠ .ub ∧
    ∀ e' rest, Sphere.generate o (engineNumbers o E m) n e xs = .done e' rest → rest <:+ xs := by
  obtain ⟨h1, _, h3⟩ := numbers_safe H hE hD hsafe m
  obtain ⟨a, b⟩ := Sphere.generate_safe h1 h3 n hs xs hO
  exact ⟨a, fun e' rest h => (b e' rest h).2⟩

example (o : RealOps ℚ) (H : Rounding 53 o.fl) (xs : List Int) (hO : Outputs engMt xs) :
    Sphere.generate o (engineNumbers o engMt 9) 9 ⟨[0, 0, 0, 0, 0], 5⟩ xs ≠ .ub :=
  (c114_safe o H engMt engMt_ok (fun h => by cases h) (by decide) 9 9 _ (by simp [Sized]) xs hO).1

/-- C114: no square root is taken of a negative number: its values there have no influence. -/
theorem c114_domain (σ : Type) (o o' : RealOps ℚ) (H : Rounding 53 o.fl) (hfl : o'.fl = o.fl) (hsqrt : ∀ x, 0 ≤ x → o'.sqrt x = o.sqrt x)
    (N : Numbers ℚ σ) (n : Nat) (e : Sphere.Dist ℚ) (s : σ) : Sphere.generate o' N n e s = Sphere.generate o N n e s :=
  Sphere.domain H hfl hsqrt N n e s

/-- Two square roots that differ. -/
example (o : RealOps ℚ) (H : Rounding 53 o.fl) (xs : List Int) (m n : Nat) :
    Sphere.generate { o with sqrt := fun x => if x < 0 then 7 else o.sqrt x } (engineNumbers o engMt m) n ⟨[0, 0, 0], 3⟩ xs =
      Sphere.generate o (engineNumbers o engMt m) n ⟨[0, 0, 0], 3⟩ xs :=
  c114_domain _ o { o with sqrt := fun x => if x < 0 then 7 else o.sqrt x } H rfl (fun x hx => if_neg (not_lt.2 hx)) _ n _ xs

end Boost.Random
