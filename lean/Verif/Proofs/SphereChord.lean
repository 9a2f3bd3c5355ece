import Verif.Model.Intersections
import Verif.Proofs.SphereLaw
import Mathlib.Analysis.SpecialFunctions.Trigonometric.Angle

/-!
# The map of the square to the sphere in example/intersections.cpp
-/

namespace Boost.Random.Intersections
open MeasureTheory Set Spec Sphere
open scoped ENNReal

/-- The point of the disc for a point of the square. -/
noncomputable def toDisc (p : Fin 2 → ℝ) : Fin 2 → ℝ :=
  ![Real.sqrt (1 - p 0) * Real.sin (2 * Real.pi * p 1), Real.sqrt (1 - p 0) * Real.cos (2 * Real.pi * p 1)]

/-- Its derivative. -/
noncomputable def discMatrix (p : Fin 2 → ℝ) : Matrix (Fin 2) (Fin 2) ℝ :=
  let r := Real.sqrt (1 - p 0)
  let s := Real.sin (2 * Real.pi * p 1)
  let c := Real.cos (2 * Real.pi * p 1)
  !![-s / (2 * r), 2 * Real.pi * r * c; -c / (2 * r), -(2 * Real.pi * r * s)]

/-- The point of the sphere with two coordinates exchanged. -/
def turned (x : Fin 3 → ℝ) : Fin 3 → ℝ := ![x 0, x 2, x 1]

theorem toDisc_sq {p : Fin 2 → ℝ} (h : p 0 ≤ 1) : toDisc p 0 ^ 2 + toDisc p 1 ^ 2 = 1 - p 0 := by
  have hs : Real.sqrt (1 - p 0) ^ 2 = 1 - p 0 := Real.sq_sqrt (by linarith)
  simp only [toDisc, Matrix.cons_val_zero, Matrix.cons_val_one, mul_pow, hs]
  rw [← mul_add, Real.sin_sq_add_cos_sq, mul_one]

theorem chordPoint_eq {p : Fin 2 → ℝ} (h0 : 0 ≤ p 0) (h1 : p 0 ≤ 1) : chordPoint (p 0) (p 1) = turned (toGlobe (toDisc p)) := by
  have hq := toDisc_sq h1
  have e : Real.sqrt (1 - (1 - 2 * p 0) * (1 - 2 * p 0)) = 2 * (Real.sqrt (1 - p 0) * Real.sqrt (p 0)) := by
    rw [← Real.sqrt_mul (by linarith), show 1 - (1 - 2 * p 0) * (1 - 2 * p 0) = 2 ^ 2 * ((1 - p 0) * p 0) by ring,
      Real.sqrt_mul (by positivity), Real.sqrt_sq (by norm_num)]
  unfold chordPoint turned toGlobe
  simp only [hq, e, show 1 - (1 - p 0) = p 0 by ring]
  funext i
  fin_cases i
  · simp [toDisc]; ring
  · simp; ring
  · simp [toDisc]; ring

theorem disc_det {p : Fin 2 → ℝ} (h : p 0 < 1) : (discMatrix p).det = Real.pi := by
  have hr : 0 < Real.sqrt (1 - p 0) := Real.sqrt_pos.2 (by linarith)
  rw [Matrix.det_fin_two]
  simp only [discMatrix, Matrix.of_apply, Matrix.cons_val', Matrix.cons_val_zero, Matrix.cons_val_one]
  have hsc := Real.sin_sq_add_cos_sq (2 * Real.pi * p 1)
  generalize Real.sin (2 * Real.pi * p 1) = s at *
  generalize Real.cos (2 * Real.pi * p 1) = c at *
  generalize Real.sqrt (1 - p 0) = r at *
  field_simp
  simpa using hsc

theorem disc_deriv {p : Fin 2 → ℝ} (h : p 0 < 1) : HasFDerivAt toDisc (Matrix.toLin' (discMatrix p)).toContinuousLinearMap p := by
  have hr : 0 < Real.sqrt (1 - p 0) := Real.sqrt_pos.2 (by linarith)
  have h0 : HasFDerivAt (fun p : Fin 2 → ℝ => p 0) (ContinuousLinearMap.proj (R := ℝ) (φ := fun _ : Fin 2 => ℝ) 0) p := hasFDerivAt_apply 0 p
  have h1 : HasFDerivAt (fun p : Fin 2 → ℝ => p 1) (ContinuousLinearMap.proj (R := ℝ) (φ := fun _ : Fin 2 => ℝ) 1) p := hasFDerivAt_apply 1 p
  have hs := (h0.const_sub 1).sqrt (by linarith)
  have ha := h1.const_mul (2 * Real.pi)
  rw [hasFDerivAt_pi']
  intro i
  fin_cases i
  · refine (hs.mul ha.sin).congr_fderiv ?_
    ext v
    simp [Matrix.toLin'_apply, dotProduct, Fin.sum_univ_two, discMatrix]
    field_simp
    ring
  · refine (hs.mul ha.cos).congr_fderiv ?_
    ext v
    simp [Matrix.toLin'_apply, dotProduct, Fin.sum_univ_two, discMatrix]
    field_simp
    ring

theorem turn_inj {v w : ℝ} (hv : v ∈ Ico (0 : ℝ) 1) (hw : w ∈ Ico (0 : ℝ) 1) (hs : Real.sin (2 * Real.pi * v) = Real.sin (2 * Real.pi * w))
    (hc : Real.cos (2 * Real.pi * v) = Real.cos (2 * Real.pi * w)) : v = w := by
  have := Real.Angle.cos_sin_inj hc hs
  obtain ⟨k, hk⟩ := Real.Angle.angle_eq_iff_two_pi_dvd_sub.1 this
  have hpi := Real.pi_pos
  have hk' : v - w = k := by
    have : 2 * Real.pi * (v - w) = 2 * Real.pi * k := by linarith
    exact mul_left_cancel₀ (by positivity) this
  have h1 : (k : ℝ) < 1 := by rw [← hk']; linarith [hv.2, hw.1]
  have h2 : (-1 : ℝ) < k := by rw [← hk']; linarith [hv.1, hw.2]
  have h3 : k = 0 := by
    have h1' : k < 1 := by exact_mod_cast h1
    have h2' : -1 < k := by exact_mod_cast h2
    omega
  rw [h3] at hk'
  simpa using sub_eq_zero.1 (by simpa using hk')

theorem chordPoint_inj {u v u' v' : ℝ} (hu : u ∈ Ioo (0 : ℝ) 1) (hv : v ∈ Ico (0 : ℝ) 1) (hv' : v' ∈ Ico (0 : ℝ) 1)
    (h : chordPoint u v = chordPoint u' v') : u = u' ∧ v = v' := by
  have e1 := congrFun h 1
  simp only [chordPoint, Matrix.cons_val_one, Matrix.cons_val_zero] at e1
  have hu' : u = u' := by linarith
  subst hu'
  have e0 := congrFun h 0
  have e2 := congrFun h 2
  simp only [chordPoint, Matrix.cons_val_zero, Matrix.cons_val] at e0 e2
  have hp : 0 < 1 - (1 - 2 * u) * (1 - 2 * u) := by nlinarith [mul_pos hu.1 (sub_pos.2 hu.2)]
  have hr := (Real.sqrt_pos.2 hp).ne'
  exact ⟨rfl, turn_inj hv hv' (mul_left_cancel₀ hr e0) (mul_left_cancel₀ hr e2)⟩

theorem toDisc_inj {p q : Fin 2 → ℝ} (hp : ∀ i, p i ∈ Ioo (0 : ℝ) 1) (hq : ∀ i, q i ∈ Ioo (0 : ℝ) 1) (h : toDisc p = toDisc q) : p = q := by
  have e : chordPoint (p 0) (p 1) = chordPoint (q 0) (q 1) := by
    rw [chordPoint_eq (hp 0).1.le (hp 0).2.le, chordPoint_eq (hq 0).1.le (hq 0).2.le, h]
  obtain ⟨h0, h1⟩ := chordPoint_inj (hp 0) ⟨(hp 1).1.le, (hp 1).2⟩ ⟨(hq 1).1.le, (hq 1).2⟩ e
  funext i
  fin_cases i
  · exact h0
  · exact h1

theorem measurable_turned : Measurable turned := by
  refine measurable_pi_lambda _ fun i => ?_
  fin_cases i
  · exact measurable_pi_apply 0
  · exact measurable_pi_apply 2
  · exact measurable_pi_apply 1

theorem measurable_toDisc : Measurable toDisc := by
  refine measurable_pi_lambda _ fun i => ?_
  fin_cases i
  · change Measurable fun p : Fin 2 → ℝ => Real.sqrt (1 - p 0) * Real.sin (2 * Real.pi * p 1)
    fun_prop
  · change Measurable fun p : Fin 2 → ℝ => Real.sqrt (1 - p 0) * Real.cos (2 * Real.pi * p 1)
    fun_prop

/-- The part of the open square that goes to `A`. -/
def square (A : Set (Fin 3 → ℝ)) : Set (Fin 2 → ℝ) := (univ.pi fun _ => Ioo (0 : ℝ) 1) ∩ (fun p => turned (toGlobe (toDisc p))) ⁻¹' A

theorem measurable_square {A : Set (Fin 3 → ℝ)} (hA : MeasurableSet A) : MeasurableSet (square A) :=
  (MeasurableSet.univ_pi fun _ => measurableSet_Ioo).inter ((measurable_turned.comp (measurable_toGlobe.comp measurable_toDisc)) hA)

theorem square_le {A : Set (Fin 3 → ℝ)} (hA : MeasurableSet A) : ENNReal.ofReal Real.pi * volume (square A) ≤ volume (over (turned ⁻¹' A)) := by
  have hI : ∀ p ∈ square A, ∀ i, p i ∈ Ioo (0 : ℝ) 1 := fun p hp i => hp.1 i (mem_univ i)
  have h2 := lintegral_image_eq_lintegral_abs_det_fderiv_mul volume (measurable_square hA)
    (fun p hp => (disc_deriv (hI p hp 0).2).hasFDerivWithinAt) (fun p hp q hq h => toDisc_inj (hI p hp) (hI q hq) h) fun _ => 1
  have h3 : ∫⁻ p in square A, ENNReal.ofReal |(Matrix.toLin' (discMatrix p)).toContinuousLinearMap.det| * 1 = ∫⁻ p in square A, ENNReal.ofReal Real.pi := by
    refine setLIntegral_congr_fun (measurable_square hA) fun p hp => ?_
    have : (Matrix.toLin' (discMatrix p)).toContinuousLinearMap.det = Real.pi := by
      rw [ContinuousLinearMap.det, LinearMap.coe_toContinuousLinearMap, LinearMap.det_toLin', disc_det (hI p hp 0).2]
    simp only [this, mul_one, abs_of_pos Real.pi_pos]
  rw [setLIntegral_one, h3, setLIntegral_const] at h2
  rw [← h2]
  refine measure_mono ?_
  rintro _ ⟨p, hp, rfl⟩
  refine mem_over.2 ⟨?_, hp.2⟩
  rw [toDisc_sq (hI p hp 0).2.le]
  linarith [(hI p hp 0).1]

theorem square_eq {A : Set (Fin 3 → ℝ)} (hA : MeasurableSet A) : ENNReal.ofReal Real.pi * volume (square A) = volume (over (turned ⁻¹' A)) := by
  have h1 := square_le hA
  have h2 := square_le hA.compl
  have hu : volume (square A) + volume (square Aᶜ) = 1 := by
    rw [← measure_union ?_ (measurable_square hA.compl)]
    · have : square A ∪ square Aᶜ = univ.pi fun _ => Ioo (0 : ℝ) 1 := by
        rw [square, square, ← inter_union_distrib_left, ← preimage_union, union_compl_self, preimage_univ, inter_univ]
      rw [this, Real.volume_pi_Ioo]
      simp
    · refine disjoint_left.2 fun p h h' => h'.2 h.2
  have ho : volume (over (turned ⁻¹' A)) + volume (over (turned ⁻¹' Aᶜ)) = ENNReal.ofReal Real.pi := by
    rw [← measure_union ?_ (measurable_over (measurable_turned hA.compl))]
    · rw [over, over, ← inter_union_distrib_left, ← preimage_union, ← preimage_union, union_compl_self, preimage_univ, preimage_univ, inter_univ, volume_disc]
    · refine disjoint_left.2 fun p h h' => h'.2 h.2
  refine le_antisymm h1 ?_
  by_contra hlt
  rw [not_le] at hlt
  have hs : ENNReal.ofReal Real.pi * volume (square A) + ENNReal.ofReal Real.pi * volume (square Aᶜ) = ENNReal.ofReal Real.pi := by
    rw [← mul_add, hu, mul_one]
  have hf : volume (over (turned ⁻¹' Aᶜ)) ≠ ∞ := by
    refine ne_top_of_le_ne_top ENNReal.ofReal_ne_top (le_trans ?_ ho.le)
    exact le_add_self
  have : ENNReal.ofReal Real.pi * volume (square A) + ENNReal.ofReal Real.pi * volume (square Aᶜ) < volume (over (turned ⁻¹' A)) + volume (over (turned ⁻¹' Aᶜ)) :=
    ENNReal.add_lt_add_of_lt_of_le (ne_top_of_le_ne_top hf h2) hlt h2
  rw [hs, ho] at this
  exact lt_irrefl _ this

/-- The point is uniformly distributed on the sphere. -/
theorem square_law {A : Set (Fin 3 → ℝ)} (hA : MeasurableSet A) : volume (square A) = sphereLaw 3 (turned ⁻¹' A) := by
  have hu := cone_volume (MeasurableSet.univ (α := Fin 3 → ℝ))
  rw [preimage_univ, inter_univ, over, preimage_univ, inter_univ, volume_disc] at hu
  have hpi : ENNReal.ofReal Real.pi ≠ 0 := by simpa using Real.pi_pos
  rw [sphereLaw, cone_volume (measurable_turned hA), hu, ← square_eq hA,
    ENNReal.mul_div_mul_left _ _ (by norm_num) ENNReal.ofReal_ne_top, mul_comm, ENNReal.mul_div_cancel_right hpi ENNReal.ofReal_ne_top]

end Boost.Random.Intersections
