import Verif.Proofs.DiscrepancySeq
import Mathlib.MeasureTheory.Integral.Bochner.Set
import Mathlib.MeasureTheory.Measure.Lebesgue.Basic

/-!
# Means of a function over the points of a net
-/

namespace Boost.Random.Nets
open Spec Finset MeasureTheory
open Classical

/-- The part number `a d` of `n` in each coordinate. -/
def cell {s : Nat} (n : Nat) (a : Fin s → Nat) : Set (Fin s → ℝ) := Set.univ.pi fun d => Set.Ico ((a d : ℝ) / n) ((a d + 1 : ℝ) / n)

theorem mem_cell {s n : Nat} (hn : 0 < n) {a : Fin s → Nat} {u : Fin s → ℝ} : u ∈ cell n a ↔ ∀ d, (a d : ℝ) ≤ n * u d ∧ n * u d < a d + 1 := by
  have hp : (0 : ℝ) < n := by exact_mod_cast hn
  simp only [cell, Set.mem_pi, Set.mem_univ, true_imp_iff, Set.mem_Ico, div_le_iff₀ hp, lt_div_iff₀ hp, mul_comm]

theorem cell_floor {s n : Nat} (hn : 0 < n) {a : Fin s → Nat} {u : Fin s → ℝ} (hu : ∀ d, 0 ≤ u d) : u ∈ cell n a ↔ (fun d => ⌊(n : ℝ) * u d⌋₊) = a := by
  rw [mem_cell hn, funext_iff]
  exact forall_congr' fun d => (Nat.floor_eq_iff (mul_nonneg (Nat.cast_nonneg n) (hu d))).symm

theorem cell_volume {s n : Nat} (hn : 0 < n) (a : Fin s → Nat) : volume.real (cell n a) = 1 / (n : ℝ) ^ s := by
  have hp : (0 : ℝ) < n := by exact_mod_cast hn
  rw [Measure.real, cell, Real.volume_pi_Ico_toReal]
  · have : ∀ d : Fin s, (a d + 1 : ℝ) / n - a d / n = 1 / n := fun d => by ring
    simp only [this, Finset.prod_const, Finset.card_univ, Fintype.card_fin, div_pow, one_pow]
  · intro d
    dsimp only
    rw [div_le_div_iff_of_pos_right hp]
    linarith

theorem cell_finite {s n : Nat} (a : Fin s → Nat) : volume (cell n a) < ⊤ := by
  rw [cell, Real.volume_pi_Ico]
  exact ENNReal.prod_lt_top fun d _ => ENNReal.ofReal_lt_top

theorem cell_measurable {s n : Nat} (a : Fin s → Nat) : MeasurableSet (cell n a) := MeasurableSet.univ_pi fun _ => measurableSet_Ico

/-- The unit cube. -/
def cube (s : Nat) : Set (Fin s → ℝ) := Set.univ.pi fun _ => Set.Ico 0 1

theorem cube_cells {s n : Nat} (hn : 0 < n) : cube s = ⋃ a ∈ Fintype.piFinset fun _ : Fin s => Finset.range n, cell n a := by
  have hp : (0 : ℝ) < n := by exact_mod_cast hn
  ext u
  simp only [cube, Set.mem_pi, Set.mem_univ, true_imp_iff, Set.mem_iUnion, exists_prop, Fintype.mem_piFinset, Finset.mem_range]
  constructor
  · intro h
    refine ⟨fun d => ⌊(n : ℝ) * u d⌋₊, fun d => ?_, (cell_floor hn fun d => (h d).1).2 rfl⟩
    rw [Nat.floor_lt (mul_nonneg hp.le (h d).1)]
    nlinarith [(h d).2]
  · rintro ⟨a, ha, hu⟩ d
    have h1 := (mem_cell hn).1 hu d
    have h2 : ((a d + 1 : Nat) : ℝ) ≤ n := by exact_mod_cast ha d
    push_cast at h2
    constructor
    · by_contra hneg
      have : (n : ℝ) * u d < 0 := mul_neg_of_pos_of_neg hp (not_le.1 hneg)
      linarith [h1.1, (Nat.cast_nonneg (a d) : (0 : ℝ) ≤ a d)]
    · by_contra hge
      have : (n : ℝ) * 1 ≤ n * u d := mul_le_mul_of_nonneg_left (not_lt.1 hge) hp.le
      linarith [h1.2]

/-- If `f` varies by no more than `ω` within cubes of side `1/b^k`, its mean over a net differs from its integral by no more than `ω`. -/
theorem mean {b t m s k : Nat} (hb : 2 ≤ b) {X : Finset Nat} {x : Nat → Nat → ℝ} (h : IsNet b t m s X x) (hx : ∀ i ∈ X, ∀ d < s, x i d ∈ Set.Ico (0 : ℝ) 1)
    (hk : t + s * k ≤ m) {f : (Fin s → ℝ) → ℝ} (hf : IntegrableOn f (cube s)) {ω : ℝ}
    (hω : ∀ u ∈ cube s, ∀ v ∈ cube s, (∀ d, |u d - v d| < 1 / (b : ℝ) ^ k) → |f u - f v| ≤ ω) :
    |(∑ i ∈ X, f fun d => x i d) / (b : ℝ) ^ m - ∫ u in cube s, f u| ≤ ω := by
  have hn : 0 < b ^ k := Nat.pow_pos (by omega)
  have hb0 : (0 : ℝ) < b := by exact_mod_cast (by omega : 0 < b)
  have hnR : ((b ^ k : Nat) : ℝ) = (b : ℝ) ^ k := by push_cast; rfl
  obtain ⟨r, hr⟩ : ∃ r, m = s * k + r := ⟨m - s * k, by omega⟩
  let A := Fintype.piFinset fun _ : Fin s => Finset.range (b ^ k)
  let p : Nat → Fin s → ℝ := fun i d => x i d
  let g : Nat → Fin s → Nat := fun i d => ⌊((b ^ k : Nat) : ℝ) * p i d⌋₊
  have hp : ∀ i ∈ X, p i ∈ cube s := fun i hi d _ => hx i hi d d.2
  have hpc : ∀ i ∈ X, p i ∈ cell (b ^ k) (g i) := fun i hi => (cell_floor hn fun d => (hx i hi d d.2).1).2 rfl
  have hsub : ∀ a ∈ A, cell (b ^ k) a ⊆ cube s := fun a ha => by
    rw [cube_cells hn]
    exact Set.subset_biUnion_of_mem (u := fun a => cell (b ^ k) a) ha
  have hgA : ∀ i ∈ X, g i ∈ A := fun i hi => by
    have := hp i hi
    rw [cube_cells hn] at this
    simp only [Set.mem_iUnion, exists_prop] at this
    obtain ⟨a, ha, hm⟩ := this
    have e : g i = a := (cell_floor hn fun d => (hx i hi d d.2).1).1 hm
    rw [e]
    exact ha
  -- each cell has its share of the points
  have hcount : ∀ a ∈ A, (X.filter fun i => g i = a).card = b ^ r := by
    intro a ha
    have hs : ∑ d ∈ range s, (fun _ => k) d = s * k := by simp
    have := h (fun _ => k) (fun d => if hd : d < s then a ⟨d, hd⟩ else 0) (by rw [hs]; exact hk) (fun d hd => by
      rw [dif_pos hd]
      exact Finset.mem_range.1 (Fintype.mem_piFinset.1 ha ⟨d, hd⟩))
    rw [hs, show m - s * k = r by omega] at this
    rw [← this]
    refine congrArg Finset.card (Finset.filter_congr fun i hi => ?_)
    rw [← cell_floor hn fun d => (hx i hi d d.2).1, mem_cell hn, hnR]
    constructor
    · intro hh d hd
      rw [dif_pos hd]
      exact hh ⟨d, hd⟩
    · intro hh d
      have := hh d d.2
      rwa [dif_pos d.2] at this
  have hI : ∫ u in cube s, f u = ∑ a ∈ A, ∫ u in cell (b ^ k) a, f u := by
    conv_lhs => rw [cube_cells hn]
    refine integral_biUnion_finset A (fun a _ => cell_measurable a) (fun a ha a' ha' hne => ?_) fun a ha => hf.mono_set (hsub a ha)
    refine Set.disjoint_left.2 fun u hu hu' => hne ?_
    have h0 : ∀ d, 0 ≤ u d := fun d => (hsub a ha hu d (Set.mem_univ d)).1
    rw [← (cell_floor hn h0).1 hu, ← (cell_floor hn h0).1 hu']
  -- one point stands for its cell
  have hone : ∀ i ∈ X, |f (p i) - (b : ℝ) ^ (s * k) * ∫ u in cell (b ^ k) (g i), f u| ≤ ω := by
    intro i hi
    have hv : volume.real (cell (b ^ k) (g i)) = 1 / (b : ℝ) ^ (s * k) := by
      rw [cell_volume hn, hnR, ← pow_mul, mul_comm k s]
    have hint := hf.mono_set (hsub _ (hgA i hi))
    have e : ∫ u in cell (b ^ k) (g i), (f (p i) - f u) = f (p i) * (1 / (b : ℝ) ^ (s * k)) - ∫ u in cell (b ^ k) (g i), f u := by
      have hc : IntegrableOn (fun _ => f (p i)) (cell (b ^ k) (g i)) := integrableOn_const (cell_finite _).ne
      rw [integral_sub hc hint, setIntegral_const, hv, smul_eq_mul, mul_comm]
    have hle := norm_setIntegral_le_of_norm_le_const (f := fun u => f (p i) - f u) (C := ω) (cell_finite (n := b ^ k) (g i)) (μ := volume) fun u hu => by
      refine hω _ (hp i hi) _ (hsub _ (hgA i hi) hu) fun d => ?_
      have h1 := (mem_cell hn).1 (hpc i hi) d
      have h2 := (mem_cell hn).1 hu d
      rw [hnR] at h1 h2
      have hbk : (0 : ℝ) < (b : ℝ) ^ k := by positivity
      rw [lt_div_iff₀ hbk, ← abs_of_pos hbk, ← abs_mul, abs_lt]
      constructor <;> linarith [h1.1, h1.2, h2.1, h2.2]
    rw [e, hv, Real.norm_eq_abs] at hle
    have hbs : (0 : ℝ) < (b : ℝ) ^ (s * k) := by positivity
    calc _ = (b : ℝ) ^ (s * k) * |f (p i) * (1 / (b : ℝ) ^ (s * k)) - ∫ u in cell (b ^ k) (g i), f u| := by
          rw [← abs_of_pos hbs, ← abs_mul, abs_of_pos hbs]
          congr 1
          field_simp
      _ ≤ (b : ℝ) ^ (s * k) * (ω * (1 / (b : ℝ) ^ (s * k))) := mul_le_mul_of_nonneg_left hle hbs.le
      _ = ω := by field_simp
  have hsum : ∑ i ∈ X, (b : ℝ) ^ (s * k) * ∫ u in cell (b ^ k) (g i), f u = (b : ℝ) ^ m * ∫ u in cube s, f u := by
    rw [hI, ← Finset.sum_fiberwise_of_maps_to hgA, mul_sum]
    refine Finset.sum_congr rfl fun a ha => ?_
    rw [Finset.sum_congr rfl fun i hi => by rw [(Finset.mem_filter.1 hi).2], Finset.sum_const, hcount a ha, nsmul_eq_mul, hr, pow_add]
    push_cast
    ring
  have hcard : (X.card : ℝ) = (b : ℝ) ^ m := by
    have := h.card (by omega) hx
    exact_mod_cast this
  have hbm : (0 : ℝ) < (b : ℝ) ^ m := by positivity
  have hmain : |∑ i ∈ X, f (p i) - (b : ℝ) ^ m * ∫ u in cube s, f u| ≤ (b : ℝ) ^ m * ω := by
    rw [← hsum, ← Finset.sum_sub_distrib, ← hcard, ← nsmul_eq_mul]
    exact (Finset.abs_sum_le_sum_abs _ _).trans (Finset.sum_le_card_nsmul _ _ _ hone)
  calc _ = |∑ i ∈ X, f (p i) - (b : ℝ) ^ m * ∫ u in cube s, f u| / (b : ℝ) ^ m := by
        rw [← abs_of_pos hbm, ← abs_div, abs_of_pos hbm]
        congr 1
        field_simp
        rfl
    _ ≤ ω := by rw [div_le_iff₀ hbm]; linarith [hmain]

theorem ts_mean {dim t : Nat} {vs : List Nat} (S : IsTsSequence 64 dim t vs) (hlt : ∀ n < 2 ^ 64, ∀ d < dim, pointOf dim vs n d < 2 ^ 64)
    {m c k : Nat} {f : (Fin dim → ℝ) → ℝ} {ω : ℝ} (hc : (c + 1) * 2 ^ m ≤ 2 ^ 64) (hk : t + dim * k ≤ m) (hf : IntegrableOn f (cube dim))
    (hω : ∀ u v : Fin dim → ℝ, (∀ d, u d ∈ Set.Ico (0 : ℝ) 1) → (∀ d, v d ∈ Set.Ico (0 : ℝ) 1) → (∀ d, |u d - v d| < 1 / 2 ^ k) → |f u - f v| ≤ ω) :
    |(∑ i ∈ Finset.Ico (c * 2 ^ m) ((c + 1) * 2 ^ m), f fun d => (pointOf dim vs i d : ℝ) / 2 ^ 64) / 2 ^ m - ∫ u in cube dim, f u| ≤ ω := by
  have hm : m ≤ 64 := (Nat.pow_le_pow_iff_right (by decide)).1 (le_trans (Nat.le_mul_of_pos_left (2 ^ m) (by omega : 0 < c + 1)) hc)
  have := mean (b := 2) (le_refl _) (ts_net S hm hc) (fun i hi d hd => Intersections.word_Ico (hlt i (by rw [Finset.mem_Ico] at hi; omega) d hd)) hk hf
    (ω := ω) fun u hu v hv huv => hω u v (fun d => hu d (Set.mem_univ d)) (fun d => hv d (Set.mem_univ d)) fun d => by have := huv d; exact_mod_cast this
  exact_mod_cast this

end Boost.Random.Nets
