import Verif.Spec.Ziggurat
import Verif.Proofs.ZigguratArea
import Verif.Proofs.ExpSeries
import Mathlib.Analysis.Convex.Deriv

/-!
# The tables of the normal distribution
-/

namespace Boost.Random.Normal
open Spec Zig MeasureTheory Set

/-- The curve. -/
noncomputable def φ (x : ℝ) : ℝ := Real.exp (-(x * x / 2))

theorem φ_pos (x : ℝ) : 0 < φ x := Real.exp_pos _

theorem φ_le_one (x : ℝ) : φ x ≤ 1 := Real.exp_le_one_iff.2 (by have := mul_self_nonneg x; linarith)

theorem hasDerivAt_φ (x : ℝ) : HasDerivAt φ (-(x * φ x)) x := by
  have h : HasDerivAt (fun x : ℝ => -(x * x / 2)) (-x) x := by
    refine (((hasDerivAt_id x).mul (hasDerivAt_id x)).div_const 2).neg.congr_deriv ?_
    simp only [id]; ring
  exact h.exp.congr_deriv (by rw [φ]; ring)

theorem hasDerivAt_φ' (x : ℝ) : HasDerivAt (fun x => -(x * φ x)) ((x * x - 1) * φ x) x := by
  refine ((hasDerivAt_id x).mul (hasDerivAt_φ x)).neg.congr_deriv ?_
  simp only [id]; ring

theorem continuous_φ : Continuous φ := continuous_iff_continuousAt.2 fun x => (hasDerivAt_φ x).continuousAt

theorem convex_φ : ConvexOn ℝ (Ici 1) φ := by
  refine convexOn_of_hasDerivWithinAt2_nonneg (convex_Ici 1) continuous_φ.continuousOn (fun x _ => (hasDerivAt_φ x).hasDerivWithinAt)
    (fun x _ => (hasDerivAt_φ' x).hasDerivWithinAt) fun x hx => ?_
  rw [interior_Ici, mem_Ioi] at hx
  exact mul_nonneg (by nlinarith) (φ_pos x).le

theorem concave_φ : ConcaveOn ℝ (Icc (-1) 1) φ := by
  refine concaveOn_of_hasDerivWithinAt2_nonpos (convex_Icc (-1) 1) continuous_φ.continuousOn (fun x _ => (hasDerivAt_φ x).hasDerivWithinAt)
    (fun x _ => (hasDerivAt_φ' x).hasDerivWithinAt) fun x hx => ?_
  rw [interior_Icc, mem_Ioo] at hx
  exact mul_nonpos_of_nonpos_of_nonneg (by nlinarith [hx.1, hx.2]) (φ_pos x).le

theorem anti_φ : AntitoneOn φ (Ici 0) := by
  intro x hx y hy h
  rw [mem_Ici] at hx hy
  exact Real.exp_le_exp.2 (by nlinarith)

/-! ## Tangents and diagonals -/

theorem tangent_convex {a x : ℝ} (hx : 1 ≤ x) (hxa : x ≤ a) : φ a * (1 + (a - x) * a) ≤ φ x := by
  rcases hxa.eq_or_lt with h | h
  · subst h; simp
  · have h1 := convex_φ.slope_le_of_hasDerivAt (mem_Ici.2 hx) (mem_Ici.2 (hx.trans hxa)) h (hasDerivAt_φ a)
    rw [slope_def_field, div_le_iff₀ (by linarith)] at h1
    linarith

theorem tangent_concave {a x : ℝ} (hx : -1 ≤ x) (hxa : x ≤ a) (ha : a ≤ 1) : φ x ≤ φ a * (1 + (a - x) * a) := by
  rcases hxa.eq_or_lt with h | h
  · subst h; simp
  · have h1 := concave_φ.le_slope_of_hasDerivAt (mem_Icc.2 ⟨hx, hxa.trans ha⟩) (mem_Icc.2 ⟨hx.trans hxa, ha⟩) h (hasDerivAt_φ a)
    rw [slope_def_field, le_div_iff₀ (by linarith)] at h1
    linarith

/-- The tangent at the left end of an interval where the curve is concave. -/
theorem tangent_concave_left {b x : ℝ} (hb : -1 ≤ b) (hbx : b ≤ x) (hx : x ≤ 1) : φ x ≤ φ b - b * φ b * (x - b) := by
  rcases hbx.eq_or_lt with h | h
  · subst h; simp
  · have h1 := concave_φ.slope_le_of_hasDerivAt (mem_Icc.2 ⟨hb, hbx.trans hx⟩) (mem_Icc.2 ⟨hb.trans hbx, hx⟩) h (hasDerivAt_φ b)
    rw [slope_def_field, div_le_iff₀ (by linarith)] at h1
    linarith

theorem combination {a b x : ℝ} (hba : b < a) : (a - x) / (a - b) * b + (x - b) / (a - b) * a = x := by
  have hab : a - b ≠ 0 := by linarith
  field_simp; ring

theorem diagonal_convex {a b x : ℝ} (hb : 1 ≤ b) (hbx : b ≤ x) (hxa : x ≤ a) (hba : b < a) :
    φ x ≤ (a - x) / (a - b) * φ b + (x - b) / (a - b) * φ a := by
  have hab : 0 < a - b := by linarith
  have h := convex_φ.2 (mem_Ici.2 hb) (mem_Ici.2 (hb.trans hba.le)) (show 0 ≤ (a - x) / (a - b) from div_nonneg (by linarith) hab.le)
    (show 0 ≤ (x - b) / (a - b) from div_nonneg (by linarith) hab.le) (by field_simp; ring)
  simp only [smul_eq_mul] at h
  rwa [combination hba] at h

theorem diagonal_concave {a b x : ℝ} (hb : -1 ≤ b) (ha : a ≤ 1) (hbx : b ≤ x) (hxa : x ≤ a) (hba : b < a) :
    (a - x) / (a - b) * φ b + (x - b) / (a - b) * φ a ≤ φ x := by
  have hab : 0 < a - b := by linarith
  have h := concave_φ.2 (mem_Icc.2 ⟨hb, hba.le.trans ha⟩) (mem_Icc.2 ⟨hb.trans hba.le, ha⟩) (show 0 ≤ (a - x) / (a - b) from div_nonneg (by linarith) hab.le)
    (show 0 ≤ (x - b) / (a - b) from div_nonneg (by linarith) hab.le) (by field_simp; ring)
  simp only [smul_eq_mul] at h
  rwa [combination hba] at h

/-- The region of the inflection point: when the slope at the left end is below the slope of the diagonal, the curve is below the diagonal. -/
theorem diagonal_inflection {a b x : ℝ} (hb : -1 ≤ b) (hb1 : b < 1) (ha : 1 < a) (hbx : b ≤ x) (hxa : x ≤ a)
    (hslope : -(b * φ b) * (a - b) ≤ φ a - φ b) : φ x ≤ (a - x) / (a - b) * φ b + (x - b) / (a - b) * φ a := by
  have hab : 0 < a - b := by linarith
  -- the diagonal as a linear function
  have hd : ∀ y, (a - y) / (a - b) * φ b + (y - b) / (a - b) * φ a = φ b + (φ a - φ b) / (a - b) * (y - b) := by
    intro y; field_simp; ring
  have hs : -(b * φ b) ≤ (φ a - φ b) / (a - b) := by rwa [le_div_iff₀ hab]
  have left : ∀ y, b ≤ y → y ≤ 1 → φ y ≤ φ b + (φ a - φ b) / (a - b) * (y - b) := by
    intro y hy1 hy2
    have h1 := tangent_concave_left hb hy1 hy2
    have h2 := mul_le_mul_of_nonneg_right hs (show 0 ≤ y - b by linarith)
    linarith
  rw [hd]
  rcases le_or_gt x 1 with h | h
  · exact left x hbx h
  · have h1 := diagonal_convex le_rfl h.le hxa ha
    have h2 := left 1 hb1.le le_rfl
    have h3 : 0 ≤ (a - x) / (a - 1) := div_nonneg (by linarith) (by linarith)
    have h4 := mul_le_mul_of_nonneg_left h2 h3
    have e : (a - x) / (a - 1) * (φ b + (φ a - φ b) / (a - b) * (1 - b)) + (x - 1) / (a - 1) * φ a = φ b + (φ a - φ b) / (a - b) * (x - b) := by
      have : a - 1 ≠ 0 := by linarith
      field_simp; ring
    linarith

/-- The region of the inflection point: when the left end is above the tangent at the right end, so is the curve. -/
theorem tangent_inflection {a b x : ℝ} (hb : -1 ≤ b) (hb1 : b < 1) (ha : 1 < a) (hbx : b ≤ x) (hxa : x ≤ a)
    (hend : φ a * (1 + (a - b) * a) ≤ φ b) : φ a * (1 + (a - x) * a) ≤ φ x := by
  rcases le_or_gt 1 x with h | h
  · exact tangent_convex h hxa
  · have h1 := diagonal_concave hb le_rfl hbx h.le hb1
    have h2 := tangent_convex le_rfl ha.le
    have h3 : 0 ≤ (1 - x) / (1 - b) := div_nonneg (by linarith) (by linarith)
    have h4 : 0 ≤ (x - b) / (1 - b) := div_nonneg (by linarith) (by linarith)
    have h5 := mul_le_mul_of_nonneg_left hend h3
    have h6 := mul_le_mul_of_nonneg_left h2 h4
    have e : (1 - x) / (1 - b) * (φ a * (1 + (a - b) * a)) + (x - b) / (1 - b) * (φ a * (1 + (a - 1) * a)) = φ a * (1 + (a - x) * a) := by
      have : 1 - b ≠ 0 := by linarith
      field_simp; ring
    linarith

/-! ## The tables -/

/-- The tables as real numbers. -/
noncomputable def X (i : Nat) : ℝ := (tableX.getD i 0 : ℝ) / 10 ^ 23
@[inherit_doc X] noncomputable def Y (i : Nat) : ℝ := (tableY.getD i 0 : ℝ) / 10 ^ 23

theorem entry_X {i : Nat} (hi : i ≤ 128) : entry exactOps tableX i = some (X i) := by
  have hl : tableX.length = 129 := by decide +kernel
  have h : i < tableX.length := by omega
  simp [entry, exactOps, X, List.getElem?_eq_getElem h, List.getD_eq_getElem?_getD]

theorem entry_Y {i : Nat} (hi : i ≤ 128) : entry exactOps tableY i = some (Y i) := by
  have hl : tableY.length = 129 := by decide +kernel
  have h : i < tableY.length := by omega
  simp [entry, exactOps, Y, List.getElem?_eq_getElem h, List.getD_eq_getElem?_getD]

theorem tables_values : ∀ i : Fin 128, ExpSeries.expOk (tableX.getD (i + 1) 0 ^ 2) (2 * 10 ^ 46) (tableY.getD (i + 1) 0) = true := by decide +kernel

theorem value {i : Nat} (h1 : 1 ≤ i) (hi : i ≤ 128) : |φ (X i) - Y i| ≤ 5 / 10 ^ 20 := by
  have h := ExpSeries.exp_of_ok (by norm_num) (tables_values ⟨i - 1, by omega⟩)
  simp only [Nat.sub_add_cancel h1] at h
  rw [φ, X, Y]
  have e : ((tableX.getD i 0 ^ 2 : Nat) : ℝ) / ((2 * 10 ^ 46 : Nat) : ℝ) = (tableX.getD i 0 : ℝ) / 10 ^ 23 * ((tableX.getD i 0 : ℝ) / 10 ^ 23) / 2 := by
    rw [Nat.cast_mul, Nat.cast_pow, Nat.cast_pow]
    generalize (tableX.getD i 0 : ℝ) = a
    rw [show ((10 : Nat) : ℝ) ^ 46 = 10 ^ 23 * 10 ^ 23 by norm_num]
    push_cast
    ring
  rwa [e] at h

theorem tables_order : ∀ i : Fin 128, tableX.getD (i + 1) 0 < tableX.getD i 0 ∧ tableY.getD i 0 < tableY.getD (i + 1) 0 ∧
    (i = 0 ∨ (tableX.getD i 0 - tableX.getD (i + 1) 0) * tableX.getD i 0 ≤ 10 ^ 46) := by decide +kernel

theorem tables_area : ∀ i : Fin 128,
    tableY.getD (i + 1) 0 * tableX.getD i 0 ≤ tableY.getD i 0 * tableX.getD i 0 + tableX.getD 0 0 * tableY.getD 1 0 + 10 ^ 27 ∧
    tableY.getD i 0 * tableX.getD i 0 + tableX.getD 0 0 * tableY.getD 1 0 ≤ tableY.getD (i + 1) 0 * tableX.getD i 0 + 10 ^ 27 := by decide +kernel

/-- One layer, the 101st, contains the inflection point. -/
theorem tables_regions : ∀ i : Fin 128, (i < 101 → 10 ^ 23 ≤ tableX.getD (i + 1) 0) ∧ (101 < i.val → tableX.getD i 0 ≤ 10 ^ 23) := by decide +kernel

theorem X_0 : X 0 = 3.7130862467403632609 := by rw [X, show tableX.getD 0 0 = 371308624674036326090000 by decide +kernel]; norm_num
theorem X_1 : X 1 = 3.4426198558966521214 := by rw [X, show tableX.getD 1 0 = 344261985589665212140000 by decide +kernel]; norm_num
theorem Y_1 : Y 1 = 0.0026696290839025035092 := by rw [Y, show tableY.getD 1 0 = 266962908390250350920 by decide +kernel]; norm_num
theorem X_101 : X 101 = 1.0149673952392994716 := by rw [X, show tableX.getD 101 0 = 101496739523929947160000 by decide +kernel]; norm_num
theorem X_102 : X 102 = 0.99886423348064351303 := by rw [X, show tableX.getD 102 0 = 99886423348064351303000 by decide +kernel]; norm_num

theorem Y_101 : Y 101 = 0.59745315095181228217 := by rw [Y, show tableY.getD 101 0 = 59745315095181228217000 by decide +kernel]; norm_num
theorem Y_102 : Y 102 = 0.60721953663260488551 := by rw [Y, show tableY.getD 102 0 = 60721953663260488551000 by decide +kernel]; norm_num

theorem table : Table 128 X Y φ (X 0 * Y 1) (1 / 10 ^ 19) (1 / 10 ^ 19) where
  xdec i hi := by
    rw [X, X]
    exact div_lt_div_of_pos_right (by exact_mod_cast (tables_order ⟨i, hi⟩).1) (by positivity)
  xlast := by rw [X, show tableX.getD 128 0 = 0 by decide +kernel]; simp
  y0 := by rw [Y, show tableY.getD 0 0 = 0 by decide +kernel]; simp
  ylast := by rw [Y, show tableY.getD 128 0 = 10 ^ 23 by decide +kernel]; norm_num
  yinc i hi := by
    rw [Y, Y]
    exact div_lt_div_of_pos_right (by exact_mod_cast (tables_order ⟨i, hi⟩).2.1) (by positivity)
  value i h1 hi := (value h1 hi).trans (by norm_num)
  area i hi := by
    have h := tables_area ⟨i, hi⟩
    simp only at h
    have h1 : (tableY.getD (i + 1) 0 : ℝ) * tableX.getD i 0 ≤ tableY.getD i 0 * tableX.getD i 0 + tableX.getD 0 0 * tableY.getD 1 0 + 10 ^ 27 := by exact_mod_cast h.1
    have h2 : (tableY.getD i 0 : ℝ) * tableX.getD i 0 + tableX.getD 0 0 * tableY.getD 1 0 ≤ tableY.getD (i + 1) 0 * tableX.getD i 0 + 10 ^ 27 := by exact_mod_cast h.2
    simp only [X, Y]
    generalize (tableY.getD (i + 1) 0 : ℝ) = a at *
    generalize (tableY.getD i 0 : ℝ) = b at *
    generalize (tableX.getD i 0 : ℝ) = c at *
    generalize (tableX.getD 0 0 : ℝ) = d at *
    generalize (tableY.getD 1 0 : ℝ) = e at *
    have e1 : (a / 10 ^ 23 - b / 10 ^ 23) * (c / 10 ^ 23) - d / 10 ^ 23 * (e / 10 ^ 23) = (a * c - b * c - d * e) / 10 ^ 46 := by ring
    rw [e1, abs_div, abs_of_pos (show (0 : ℝ) < 10 ^ 46 by positivity), div_le_div_iff₀ (by positivity) (by positivity), ← sub_nonneg]
    have h3 : |a * c - b * c - d * e| ≤ 10 ^ 27 := abs_le.2 ⟨by linarith, by linarith⟩
    have e2 : (1 : ℝ) * 10 ^ 46 = 10 ^ 27 * 10 ^ 19 := by norm_num
    rw [e2]
    have := mul_le_mul_of_nonneg_right h3 (show (0 : ℝ) ≤ 10 ^ 19 by positivity)
    linarith
  cont := continuous_φ
  anti := anti_φ
  nonneg x _ := (φ_pos x).le
  le_one x _ := Real.exp_le_one_iff.2 (by have := mul_self_nonneg x; linarith)

theorem gap {i : Nat} (h0 : 1 ≤ i) (hi : i < 128) : (X i - X (i + 1)) * X i ≤ 1 := by
  have h := tables_order ⟨i, hi⟩
  simp only at h
  have h1 : ((tableX.getD i 0 - tableX.getD (i + 1) 0 : Nat) : ℝ) = tableX.getD i 0 - tableX.getD (i + 1) 0 := Nat.cast_sub h.1.le
  have h2 : ((tableX.getD i 0 : ℝ) - tableX.getD (i + 1) 0) * tableX.getD i 0 ≤ 10 ^ 46 := by
    have h3 := h.2.2.resolve_left (by rw [Fin.ext_iff]; simp only [Fin.val_zero]; omega)
    rw [← h1]; exact_mod_cast h3
  rw [X, X, ← sub_div, div_mul_div_comm, div_le_iff₀ (by positivity)]
  norm_num at h2 ⊢
  linarith

theorem convex_region {i : Nat} (hi : i < 101) : 1 ≤ X (i + 1) := by
  have h := (tables_regions ⟨i, by omega⟩).1 hi
  have h1 : (10 : ℝ) ^ 23 ≤ tableX.getD (i + 1) 0 := by exact_mod_cast h
  rw [X, le_div_iff₀ (by positivity)]
  linarith

theorem concave_region {i : Nat} (hi : 101 < i) (hi' : i < 128) : X i < 1 := by
  have h := table.xle (show 102 ≤ i by omega) hi'.le
  have := X_102
  norm_num at this
  linarith

/-- The test of layer `i`. -/
def acc (i : Nat) (x w : ℝ) : Prop := accept exactOps (X i) (X (i + 1)) (Y i) (Y (i + 1)) x w = true

theorem acc_iff_convex {i : Nat} (hi : 1 ≤ X i) (x w : ℝ) : acc i x w ↔ (X i - X (i + 1)) * w - (X i - x) < 0 ∧
    (Y i + w * (Y (i + 1) - Y i) - (Y i + (X i - x) * Y i * X i) < 0 ∨ Y i + w * (Y (i + 1) - Y i) < φ x) := by
  simp only [acc, accept, exactOps, f, id, Bool.and_eq_true, Bool.or_eq_true, if_pos hi]
  exact Iff.and decide_eq_true_iff (Iff.or decide_eq_true_iff decide_eq_true_iff)

theorem acc_iff_concave {i : Nat} (hi : ¬ 1 ≤ X i) (x w : ℝ) : acc i x w ↔ Y i + w * (Y (i + 1) - Y i) - (Y i + (X i - x) * Y i * X i) < 0 ∧
    ((X i - X (i + 1)) * w - (X i - x) < 0 ∨ Y i + w * (Y (i + 1) - Y i) < φ x) := by
  simp only [acc, accept, exactOps, f, id, Bool.and_eq_true, Bool.or_eq_true, if_neg hi]
  exact Iff.and decide_eq_true_iff (Iff.or decide_eq_true_iff decide_eq_true_iff)

theorem measurableSet_acc (i : Nat) : MeasurableSet {p : ℝ × ℝ | acc i p.1 p.2} := by
  have m1 : MeasurableSet {p : ℝ × ℝ | (X i - X (i + 1)) * p.2 - (X i - p.1) < 0} := measurableSet_lt (by fun_prop) (by fun_prop)
  have m2 : MeasurableSet {p : ℝ × ℝ | Y i + p.2 * (Y (i + 1) - Y i) - (Y i + (X i - p.1) * Y i * X i) < 0} := measurableSet_lt (by fun_prop) (by fun_prop)
  have m3 : MeasurableSet {p : ℝ × ℝ | Y i + p.2 * (Y (i + 1) - Y i) < φ p.1} :=
    measurableSet_lt (by fun_prop) (continuous_φ.measurable.comp measurable_fst)
  by_cases hi : 1 ≤ X i
  · have e : {p : ℝ × ℝ | acc i p.1 p.2} = {p : ℝ × ℝ | (X i - X (i + 1)) * p.2 - (X i - p.1) < 0} ∩
        ({p : ℝ × ℝ | Y i + p.2 * (Y (i + 1) - Y i) - (Y i + (X i - p.1) * Y i * X i) < 0} ∪ {p : ℝ × ℝ | Y i + p.2 * (Y (i + 1) - Y i) < φ p.1}) := by
      ext p; exact acc_iff_convex hi p.1 p.2
    exact e ▸ m1.inter (m2.union m3)
  · have e : {p : ℝ × ℝ | acc i p.1 p.2} = {p : ℝ × ℝ | Y i + p.2 * (Y (i + 1) - Y i) - (Y i + (X i - p.1) * Y i * X i) < 0} ∩
        ({p : ℝ × ℝ | (X i - X (i + 1)) * p.2 - (X i - p.1) < 0} ∪ {p : ℝ × ℝ | Y i + p.2 * (Y (i + 1) - Y i) < φ p.1}) := by
      ext p; exact acc_iff_concave hi p.1 p.2
    exact e ▸ m2.inter (m1.union m3)

/-- Both bounds in the layers at and to the right of the inflection point. -/
theorem bounds_convex {i : Nat} (h1 : 1 ≤ i) (hi : i ≤ 101) {x : ℝ} (hx1 : X (i + 1) ≤ x) (hx2 : x < X i) : 1 ≤ X i ∧
    φ (X i) * (1 + (X i - x) * X i) ≤ φ x ∧
    φ x ≤ (X i - x) / (X i - X (i + 1)) * φ (X (i + 1)) + (x - X (i + 1)) / (X i - X (i + 1)) * φ (X i) := by
  have hX := table.xdec i (by omega)
  rcases Nat.lt_or_ge i 101 with h | h
  · have hb := convex_region h
    exact ⟨by linarith, tangent_convex (hb.trans hx1) hx2.le, diagonal_convex hb hx1 hx2.le hX⟩
  · have e : i = 101 := by omega
    subst e
    have ha := X_101
    have hb := X_102
    have va := abs_le.1 (value (i := 101) (by norm_num) (by norm_num))
    have vb := abs_le.1 (value (i := 102) (by norm_num) (by norm_num))
    have ya := Y_101
    have yb := Y_102
    rw [ya] at va
    rw [yb] at vb
    have hb' : X (101 + 1) = X 102 := rfl
    rw [hb'] at hx1 hX ⊢
    have hslope : -(X 102 * φ (X 102)) * (X 101 - X 102) ≤ φ (X 101) - φ (X 102) := by
      rw [ha, hb] at *
      norm_num at va vb ⊢
      linarith [va.1, vb.2]
    have hend : φ (X 101) * (1 + (X 101 - X 102) * X 101) ≤ φ (X 102) := by
      rw [ha, hb] at *
      norm_num at va vb ⊢
      linarith [va.2, vb.1]
    have c1 : -1 ≤ X 102 := by rw [hb]; norm_num
    have c2 : X 102 < 1 := by rw [hb]; norm_num
    have c3 : 1 < X 101 := by rw [ha]; norm_num
    exact ⟨c3.le, tangent_inflection c1 c2 c3 hx1 hx2.le hend, diagonal_inflection c1 c2 c3 hx1 hx2.le hslope⟩

theorem decides : Decides 128 X Y φ (1 / 10 ^ 19) acc := by
  intro i h1 hi x w hx1 hx2 hw0 hw1
  have hX := table.xdec i hi
  have hY := table.yinc i hi
  have hXi := table.xpos hi
  have hXj := table.xnonneg (128 - (i + 1)) (i + 1) (by omega)
  have hgap := gap h1 hi
  have hvi := abs_le.1 (value h1 hi.le)
  have hvj := abs_le.1 (value (i := i + 1) (by omega) (by omega))
  have hε1 : (5 : ℝ) / 10 ^ 20 * 2 = 1 / 10 ^ 19 := by norm_num
  have hε0 : (0 : ℝ) < 5 / 10 ^ 20 := by norm_num
  rcases Nat.lt_or_ge 101 i with hr | hr
  · have h1X := concave_region hr hi
    rw [acc_iff_concave (not_le.2 h1X)]
    have ht := tangent_concave (show -1 ≤ x by linarith) hx2.le h1X.le
    have hd := diagonal_concave (show -1 ≤ X (i + 1) by linarith) h1X.le hx1 hx2.le hX
    have hg2 : (X i - x) * X i ≤ 1 := by nlinarith
    have hg3 : 0 ≤ (X i - x) * X i := mul_nonneg (by linarith) hXi.le
    generalize φ (X i) = p at *
    generalize φ (X (i + 1)) = q at *
    generalize φ x = r at *
    generalize X i = a at *
    generalize X (i + 1) = b at *
    generalize Y i = c at *
    generalize Y (i + 1) = d at *
    rw [← hε1]
    generalize (5 : ℝ) / 10 ^ 20 = e at *
    have hab : 0 < a - b := by linarith
    have h6 : (x - b) / (a - b) = 1 - (a - x) / (a - b) := by field_simp; ring
    have h7 : 0 ≤ (a - x) / (a - b) := div_nonneg (by linarith) hab.le
    have h8 : (a - x) / (a - b) ≤ 1 := by rw [div_le_one hab]; linarith
    rw [h6] at hd
    constructor
    · rintro ⟨_, h | h⟩
      · have h5 : w ≤ (a - x) / (a - b) := by rw [le_div_iff₀ hab]; linarith
        generalize (a - x) / (a - b) = k at *
        nlinarith
      · linarith
    · intro h
      refine ⟨?_, Or.inr (by linarith)⟩
      have hc : (a - x) * c * a = (a - x) * a * c := by ring
      rw [hc]
      generalize (a - x) * a = k at *
      nlinarith
  · obtain ⟨h1X, ht, hd⟩ := bounds_convex h1 hr hx1 hx2
    rw [acc_iff_convex h1X]
    have hg2 : (X i - x) * X i ≤ 1 := by nlinarith
    have hg3 : 0 ≤ (X i - x) * X i := mul_nonneg (by linarith) hXi.le
    generalize φ (X i) = p at *
    generalize φ (X (i + 1)) = q at *
    generalize φ x = r at *
    generalize X i = a at *
    generalize X (i + 1) = b at *
    generalize Y i = c at *
    generalize Y (i + 1) = d at *
    rw [← hε1]
    generalize (5 : ℝ) / 10 ^ 20 = e at *
    have hab : 0 < a - b := by linarith
    have h6 : (x - b) / (a - b) = 1 - (a - x) / (a - b) := by field_simp; ring
    have h7 : 0 ≤ (a - x) / (a - b) := div_nonneg (by linarith) hab.le
    have h8 : (a - x) / (a - b) ≤ 1 := by rw [div_le_one hab]; linarith
    rw [h6] at hd
    constructor
    · rintro ⟨_, h | h⟩
      · have hc : (a - x) * c * a = (a - x) * a * c := by ring
        rw [hc] at h
        generalize (a - x) * a = k at *
        nlinarith
      · linarith
    · intro h
      refine ⟨?_, Or.inr (by linarith)⟩
      by_contra hc
      push Not at hc
      have h5 : (a - x) / (a - b) ≤ w := by rw [div_le_iff₀ hab]; linarith
      generalize (a - x) / (a - b) = k at *
      nlinarith

end Boost.Random.Normal
