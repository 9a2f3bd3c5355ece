import Verif.Proofs.SphereGauss
import Mathlib.MeasureTheory.Function.Jacobian
import Mathlib.Analysis.SpecialFunctions.Sqrt
import Mathlib.MeasureTheory.Measure.Lebesgue.VolumeOfBalls
import Mathlib.LinearAlgebra.Matrix.Determinant.Basic

/-!
# The map of the disc to the sphere in three dimensions
-/

namespace Boost.Random.Sphere
open MeasureTheory Set Spec
open scoped ENNReal

/-- The point of the sphere for a point of the disc. -/
noncomputable def toGlobe (x : Fin 2 → ℝ) : Fin 3 → ℝ :=
  ![x 0 * (2 * Real.sqrt (1 - (x 0 ^ 2 + x 1 ^ 2))), x 1 * (2 * Real.sqrt (1 - (x 0 ^ 2 + x 1 ^ 2))), 2 * (x 0 ^ 2 + x 1 ^ 2) - 1]

/-- The same point, multiplied by the third coordinate. -/
noncomputable def spread (p : Fin 3 → ℝ) : Fin 3 → ℝ :=
  ![p 2 * (p 0 * (2 * Real.sqrt (1 - (p 0 ^ 2 + p 1 ^ 2)))), p 2 * (p 1 * (2 * Real.sqrt (1 - (p 0 ^ 2 + p 1 ^ 2)))), p 2 * (2 * (p 0 ^ 2 + p 1 ^ 2) - 1)]

/-- Its derivative. -/
noncomputable def spreadMatrix (p : Fin 3 → ℝ) : Matrix (Fin 3) (Fin 3) ℝ :=
  let w := Real.sqrt (1 - (p 0 ^ 2 + p 1 ^ 2))
  !![p 2 * (2 * w - 2 * p 0 ^ 2 / w), p 2 * (-2 * p 0 * p 1 / w), 2 * p 0 * w;
     p 2 * (-2 * p 0 * p 1 / w), p 2 * (2 * w - 2 * p 1 ^ 2 / w), 2 * p 1 * w;
     p 2 * (4 * p 0), p 2 * (4 * p 1), 2 * (p 0 ^ 2 + p 1 ^ 2) - 1]

theorem spread_det {p : Fin 3 → ℝ} (h : p 0 ^ 2 + p 1 ^ 2 < 1) : (spreadMatrix p).det = -(4 * p 2 ^ 2) := by
  have hw : 0 < Real.sqrt (1 - (p 0 ^ 2 + p 1 ^ 2)) := Real.sqrt_pos.2 (by linarith)
  have hs : Real.sqrt (1 - (p 0 ^ 2 + p 1 ^ 2)) ^ 2 = 1 - (p 0 ^ 2 + p 1 ^ 2) := Real.sq_sqrt (by linarith)
  rw [Matrix.det_fin_three]
  simp only [spreadMatrix, Matrix.of_apply, Matrix.cons_val', Matrix.cons_val_zero, Matrix.cons_val_one, Matrix.cons_val]
  generalize Real.sqrt (1 - (p 0 ^ 2 + p 1 ^ 2)) = w at *
  have hp : p 1 ^ 2 = 1 - p 0 ^ 2 - w ^ 2 := by linarith
  generalize p 0 = x at *
  generalize p 1 = y at *
  generalize p 2 = r at *
  field_simp
  have e : (w ^ 2) ^ 2 = w ^ 4 := by ring
  have h4 : y ^ 4 = (1 - x ^ 2 - w ^ 2) ^ 2 := by rw [← hp]; ring
  ring_nf
  simp only [hp, h4]
  ring

theorem spread_deriv {p : Fin 3 → ℝ} (h : p 0 ^ 2 + p 1 ^ 2 < 1) :
    HasFDerivAt spread (Matrix.toLin' (spreadMatrix p)).toContinuousLinearMap p := by
  have hw : 0 < Real.sqrt (1 - (p 0 ^ 2 + p 1 ^ 2)) := Real.sqrt_pos.2 (by linarith)
  have h0 : HasFDerivAt (fun p : Fin 3 → ℝ => p 0) (ContinuousLinearMap.proj (R := ℝ) (φ := fun _ : Fin 3 => ℝ) 0) p := hasFDerivAt_apply 0 p
  have h1 : HasFDerivAt (fun p : Fin 3 → ℝ => p 1) (ContinuousLinearMap.proj (R := ℝ) (φ := fun _ : Fin 3 => ℝ) 1) p := hasFDerivAt_apply 1 p
  have h2 : HasFDerivAt (fun p : Fin 3 → ℝ => p 2) (ContinuousLinearMap.proj (R := ℝ) (φ := fun _ : Fin 3 => ℝ) 2) p := hasFDerivAt_apply 2 p
  have hq := (h0.pow 2).add (h1.pow 2)
  have hs := (hq.const_sub 1).sqrt (by simp only [Pi.add_apply]; linarith)
  rw [hasFDerivAt_pi']
  intro i
  fin_cases i
  · refine (h2.mul (h0.mul (hs.const_mul 2))).congr_fderiv ?_
    ext v
    simp [Matrix.toLin'_apply, dotProduct, Fin.sum_univ_three, spreadMatrix]
    generalize Real.sqrt (1 - (p 0 ^ 2 + p 1 ^ 2)) = w at *
    field_simp
    ring
  · refine (h2.mul (h1.mul (hs.const_mul 2))).congr_fderiv ?_
    ext v
    simp [Matrix.toLin'_apply, dotProduct, Fin.sum_univ_three, spreadMatrix]
    generalize Real.sqrt (1 - (p 0 ^ 2 + p 1 ^ 2)) = w at *
    field_simp
    ring
  · refine (h2.mul ((hq.const_mul 2).sub_const 1)).congr_fderiv ?_
    ext v
    simp [Matrix.toLin'_apply, dotProduct, Fin.sum_univ_three, spreadMatrix]
    ring

theorem spread_eq (p : Fin 3 → ℝ) : spread p = p 2 • toGlobe ![p 0, p 1] := by
  funext i
  fin_cases i <;> simp [spread, toGlobe]

theorem toGlobe_norm {x : Fin 2 → ℝ} (h : x 0 ^ 2 + x 1 ^ 2 ≤ 1) : ∑ i, toGlobe x i ^ 2 = 1 := by
  have hs : Real.sqrt (1 - (x 0 ^ 2 + x 1 ^ 2)) ^ 2 = 1 - (x 0 ^ 2 + x 1 ^ 2) := Real.sq_sqrt (by linarith)
  simp only [Fin.sum_univ_three, toGlobe, Matrix.cons_val_zero, Matrix.cons_val_one, Matrix.cons_val, mul_pow, hs]
  ring

theorem radial_unit {d : Nat} {x : Fin d → ℝ} (h : ∑ i, x i ^ 2 = 1) : radial x = x := by
  funext i
  simp [radial, h]

theorem toGlobe_injOn {x y : Fin 2 → ℝ} (hx : x 0 ^ 2 + x 1 ^ 2 < 1) (h : toGlobe x = toGlobe y) : x = y := by
  have e0 := congrFun h 0
  have e1 := congrFun h 1
  have e2 := congrFun h 2
  simp only [toGlobe, Matrix.cons_val_zero, Matrix.cons_val_one, Matrix.cons_val] at e0 e1 e2
  have es : y 0 ^ 2 + y 1 ^ 2 = x 0 ^ 2 + x 1 ^ 2 := by linarith
  rw [es] at e0 e1
  have hw : 2 * Real.sqrt (1 - (x 0 ^ 2 + x 1 ^ 2)) ≠ 0 := by
    have := Real.sqrt_pos.2 (by linarith : 0 < 1 - (x 0 ^ 2 + x 1 ^ 2))
    positivity
  funext i
  fin_cases i
  · exact mul_right_cancel₀ hw e0
  · exact mul_right_cancel₀ hw e1

theorem toGlobe_surj {a : Fin 3 → ℝ} (h : ∑ i, a i ^ 2 = 1) (h2 : a 2 < 1) : ∃ x : Fin 2 → ℝ, x 0 ^ 2 + x 1 ^ 2 < 1 ∧ toGlobe x = a := by
  rw [Fin.sum_univ_three] at h
  have hp : 0 < (1 - a 2) / 2 := by linarith
  have hw : 0 < Real.sqrt ((1 - a 2) / 2) := Real.sqrt_pos.2 hp
  have hs : Real.sqrt ((1 - a 2) / 2) ^ 2 = (1 - a 2) / 2 := Real.sq_sqrt hp.le
  have e : (a 0 / (2 * Real.sqrt ((1 - a 2) / 2))) ^ 2 + (a 1 / (2 * Real.sqrt ((1 - a 2) / 2))) ^ 2 = (1 + a 2) / 2 := by
    rw [div_pow, div_pow, mul_pow, hs, ← add_div, div_eq_iff (by positivity)]
    nlinarith
  refine ⟨![a 0 / (2 * Real.sqrt ((1 - a 2) / 2)), a 1 / (2 * Real.sqrt ((1 - a 2) / 2))], ?_, ?_⟩
  · simp only [Matrix.cons_val_zero, Matrix.cons_val_one]
    rw [e]
    linarith
  · funext i
    have e' : 1 - (1 + a 2) / 2 = (1 - a 2) / 2 := by ring
    fin_cases i
    · simp only [toGlobe, Matrix.cons_val_zero, Matrix.cons_val_one, Fin.zero_eta]
      rw [e, e']
      field_simp
    · simp only [toGlobe, Matrix.cons_val_zero, Matrix.cons_val_one, Fin.mk_one]
      rw [e, e']
      field_simp
    · simp only [toGlobe, Matrix.cons_val_zero, Matrix.cons_val_one, Matrix.cons_val, Fin.reduceFinMk]
      rw [e]
      ring

theorem measurable_toGlobe : Measurable toGlobe := by
  refine measurable_pi_lambda _ fun i => ?_
  fin_cases i
  · change Measurable fun x : Fin 2 → ℝ => x 0 * (2 * Real.sqrt (1 - (x 0 ^ 2 + x 1 ^ 2)))
    fun_prop
  · change Measurable fun x : Fin 2 → ℝ => x 1 * (2 * Real.sqrt (1 - (x 0 ^ 2 + x 1 ^ 2)))
    fun_prop
  · change Measurable fun x : Fin 2 → ℝ => 2 * (x 0 ^ 2 + x 1 ^ 2) - 1
    fun_prop

/-- The part of the disc that goes to `A`. -/
def over (A : Set (Fin 3 → ℝ)) : Set (Fin 2 → ℝ) := unitBall 2 ∩ toGlobe ⁻¹' A

theorem measurable_unitBall (d : Nat) : MeasurableSet (unitBall d) := measurableSet_lt measurable_sq measurable_const

theorem measurable_over {A : Set (Fin 3 → ℝ)} (hA : MeasurableSet A) : MeasurableSet (over A) := (measurable_unitBall 2).inter (measurable_toGlobe hA)

theorem mem_over {A : Set (Fin 3 → ℝ)} {x : Fin 2 → ℝ} : x ∈ over A ↔ x 0 ^ 2 + x 1 ^ 2 < 1 ∧ toGlobe x ∈ A := by
  simp [over, unitBall, Fin.sum_univ_two]

/-- The points above it. -/
def column (A : Set (Fin 3 → ℝ)) : Set (Fin 3 → ℝ) := {p | ![p 0, p 1] ∈ over A ∧ p 2 ∈ Ioo (0 : ℝ) 1}

theorem column_eq (A : Set (Fin 3 → ℝ)) : column A = (MeasurableEquiv.piFinSuccAbove (fun _ : Fin 3 => ℝ) 2) ⁻¹' (Ioo (0 : ℝ) 1 ×ˢ over A) := by
  ext p
  have : (2 : Fin 3).removeNth p = ![p 0, p 1] := by
    funext i
    fin_cases i <;> rfl
  simp only [column, mem_preimage, mem_prod, MeasurableEquiv.piFinSuccAbove_apply, Fin.insertNthEquiv, Equiv.symm, Equiv.coe_fn_mk, this, Set.mem_ofPred_eq]
  exact and_comm

theorem measurable_column {A : Set (Fin 3 → ℝ)} (hA : MeasurableSet A) : MeasurableSet (column A) := by
  rw [column_eq]
  exact (MeasurableEquiv.measurable _) (measurableSet_Ioo.prod (measurable_over hA))

theorem spread_mem {A : Set (Fin 3 → ℝ)} {p : Fin 3 → ℝ} (hp : p ∈ column A) : spread p ∈ unitBall 3 ∩ radial ⁻¹' A := by
  obtain ⟨h1, h2, h3⟩ := hp
  obtain ⟨h1, h4⟩ := mem_over.1 h1
  have hn := toGlobe_norm h1.le
  rw [spread_eq]
  constructor
  · simp only [unitBall, Set.mem_ofPred_eq, Pi.smul_apply, smul_eq_mul, mul_pow, ← Finset.mul_sum, hn, mul_one]
    nlinarith
  · rw [mem_preimage, radial_smul h2, radial_unit hn]
    exact h4

theorem spread_surj {A : Set (Fin 3 → ℝ)} {q : Fin 3 → ℝ} (hq : q ∈ unitBall 3 ∩ radial ⁻¹' A) (h0 : q 0 ≠ 0) : q ∈ spread '' column A := by
  obtain ⟨hb, hr⟩ := hq
  have hpos : 0 < ∑ i, q i ^ 2 := by
    rw [Fin.sum_univ_three]
    positivity
  have hs : 0 < Real.sqrt (∑ i, q i ^ 2) := Real.sqrt_pos.2 hpos
  have hn : ∑ i, radial q i ^ 2 = 1 := by
    simp only [radial, div_pow, ← Finset.sum_div, Real.sq_sqrt hpos.le]
    exact div_self hpos.ne'
  have h2 : radial q 2 < 1 := by
    have hn' := hn
    rw [Fin.sum_univ_three] at hn'
    have : 0 < radial q 0 ^ 2 := by
      have : radial q 0 ≠ 0 := div_ne_zero h0 hs.ne'
      positivity
    nlinarith [sq_nonneg (radial q 1), sq_nonneg (radial q 2 - 1)]
  obtain ⟨x, hx, hxe⟩ := toGlobe_surj hn h2
  have ex : ![x 0, x 1] = x := by
    funext i
    fin_cases i <;> rfl
  refine ⟨![x 0, x 1, Real.sqrt (∑ i, q i ^ 2)], ⟨?_, ?_, ?_⟩, ?_⟩
  · simp only [Matrix.cons_val_zero, Matrix.cons_val_one, ex]
    exact mem_over.2 ⟨hx, by rw [hxe]; exact hr⟩
  · exact hs
  · have : Real.sqrt (∑ i, q i ^ 2) < Real.sqrt 1 := Real.sqrt_lt_sqrt hpos.le hb
    rwa [Real.sqrt_one] at this
  · rw [spread_eq]
    simp only [Matrix.cons_val_zero, Matrix.cons_val_one, Matrix.cons_val, ex, hxe]
    funext i
    simp only [radial, Pi.smul_apply, smul_eq_mul]
    field_simp

theorem spread_injOn (A : Set (Fin 3 → ℝ)) : InjOn spread (column A) := by
  intro p hp q hq h
  obtain ⟨p1, p2, p3⟩ := hp
  obtain ⟨q1, q2, q3⟩ := hq
  have np := toGlobe_norm (mem_over.1 p1).1.le
  have nq := toGlobe_norm (mem_over.1 q1).1.le
  rw [spread_eq, spread_eq] at h
  have hr : toGlobe ![p 0, p 1] = toGlobe ![q 0, q 1] := by
    have := congrArg radial h
    rwa [radial_smul p2, radial_smul q2, radial_unit np, radial_unit nq] at this
  have hx := toGlobe_injOn (mem_over.1 p1).1 hr
  have h2 : p 2 = q 2 := by
    have hsq : ∑ i, (p 2 • toGlobe ![p 0, p 1]) i ^ 2 = ∑ i, (q 2 • toGlobe ![q 0, q 1]) i ^ 2 := by rw [h]
    simp only [Pi.smul_apply, smul_eq_mul, mul_pow, ← Finset.mul_sum, np, nq, mul_one] at hsq
    exact (pow_left_inj₀ p2.le q2.le two_ne_zero).1 hsq
  funext i
  fin_cases i
  · exact congrFun hx 0
  · exact congrFun hx 1
  · exact h2

theorem lintegral_square : ∫⁻ r in Ioo (0 : ℝ) 1, ENNReal.ofReal (4 * r ^ 2) = ENNReal.ofReal (4 / 3) := by
  rw [restrict_Ioo_eq_restrict_Ioc, ← ofReal_integral_eq_lintegral_ofReal]
  · rw [← intervalIntegral.integral_of_le zero_le_one]
    congr 1
    rw [intervalIntegral.integral_const_mul, integral_pow]
    norm_num
  · exact (Continuous.integrableOn_Icc (by fun_prop)).mono_set Ioc_subset_Icc_self
  · exact ae_of_all _ fun r => by positivity

/-- The volume of a cone, by the area of the part of the disc. -/
theorem cone_volume {A : Set (Fin 3 → ℝ)} (hA : MeasurableSet A) :
    volume (unitBall 3 ∩ radial ⁻¹' A) = ENNReal.ofReal (4 / 3) * volume (over A) := by
  have h1 : volume (unitBall 3 ∩ radial ⁻¹' A) = volume (spread '' column A) := by
    refine le_antisymm ?_ (measure_mono fun q hq => by obtain ⟨p, hp, rfl⟩ := hq; exact spread_mem hp)
    have hz : volume {q : Fin 3 → ℝ | q 0 = 0} = 0 := Measure.pi_hyperplane (fun _ : Fin 3 => (volume : Measure ℝ)) 0 0
    calc volume (unitBall 3 ∩ radial ⁻¹' A) ≤ volume (spread '' column A ∪ {q : Fin 3 → ℝ | q 0 = 0}) := measure_mono fun q hq => by
          by_cases h : q 0 = 0
          · exact .inr h
          · exact .inl (spread_surj hq h)
      _ ≤ volume (spread '' column A) + volume {q : Fin 3 → ℝ | q 0 = 0} := measure_union_le _ _
      _ = volume (spread '' column A) := by rw [hz, add_zero]
  have h2 := lintegral_image_eq_lintegral_abs_det_fderiv_mul volume (measurable_column hA)
    (fun p hp => (spread_deriv (mem_over.1 hp.1).1).hasFDerivWithinAt) (spread_injOn A) fun _ => 1
  rw [h1, ← setLIntegral_one, h2]
  have h3 : ∫⁻ p in column A, ENNReal.ofReal |(Matrix.toLin' (spreadMatrix p)).toContinuousLinearMap.det| * 1 =
      ∫⁻ p in column A, (fun q : ℝ × (Fin 2 → ℝ) => ENNReal.ofReal (4 * q.1 ^ 2)) (MeasurableEquiv.piFinSuccAbove (fun _ : Fin 3 => ℝ) 2 p) := by
    refine setLIntegral_congr_fun (measurable_column hA) fun p hp => ?_
    have : (Matrix.toLin' (spreadMatrix p)).toContinuousLinearMap.det = -(4 * p 2 ^ 2) := by
      rw [ContinuousLinearMap.det, LinearMap.coe_toContinuousLinearMap, LinearMap.det_toLin', spread_det (mem_over.1 hp.1).1]
    simp only [this, mul_one]
    rw [abs_neg, abs_of_nonneg (by positivity)]
    rfl
  rw [h3, column_eq]
  refine ((volume_preserving_piFinSuccAbove (fun _ : Fin 3 => ℝ) 2).setLIntegral_comp_preimage_emb (MeasurableEquiv.measurableEmbedding _)
    (fun q : ℝ × (Fin 2 → ℝ) => ENNReal.ofReal (4 * q.1 ^ 2)) (Ioo (0 : ℝ) 1 ×ˢ over A)).trans ?_
  have h4 : (volume : Measure (ℝ × (Fin 2 → ℝ))) = (volume : Measure ℝ).prod volume := rfl
  refine (congrArg (fun μ : Measure (ℝ × (Fin 2 → ℝ)) => ∫⁻ q in Ioo (0 : ℝ) 1 ×ˢ over A, ENNReal.ofReal (4 * q.1 ^ 2) ∂μ) h4).trans ?_
  rw [← Measure.prod_restrict, lintegral_prod _ (by fun_prop)]
  simp only [lintegral_const, Measure.restrict_apply_univ]
  rw [lintegral_mul_const _ (by fun_prop), lintegral_square]

end Boost.Random.Sphere
