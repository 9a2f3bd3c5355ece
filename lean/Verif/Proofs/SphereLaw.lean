import Verif.Proofs.SphereGlobe

/-!
# The law of `uniform_on_sphere`
-/

namespace Boost.Random.Sphere
open MeasureTheory Set ProbabilityTheory Spec
open scoped ENNReal

theorem chance_pi_le : ∀ {d k : Nat} {p : List ℝ → Prop} {F : (Fin d → ℝ) → ℝ≥0∞}, Measurable F →
    (∀ x, chance k (fun l => p (List.ofFn x ++ l)) ≤ F x) → chance (d + k) p ≤ ∫⁻ x, F x ∂(Measure.pi fun _ => unitM)
  | 0, k, p, F, _, h => by
    have := h Fin.elim0
    simp only [List.ofFn_zero, List.nil_append] at this
    rw [Nat.zero_add, Measure.pi_of_empty (fun _ : Fin 0 => unitM) Fin.elim0, lintegral_dirac]
    exact this
  | d + 1, k, p, F, hF, h => by
    rw [show d + 1 + k = d + k + 1 by ring, chance_succ, ← ((measurePreserving_piFinSuccAbove (fun _ : Fin (d + 1) => unitM) 0).symm).lintegral_comp hF]
    simp_rw [MeasurableEquiv.piFinSuccAbove_symm_apply, Fin.insertNthEquiv, Fin.insertNth_zero, Equiv.coe_fn_mk]
    rw [lintegral_prod]
    · refine lintegral_mono fun u => chance_pi_le ?_ fun x => ?_
      · exact hF.comp (measurable_pi_lambda _ fun i => by
          refine Fin.cases ?_ (fun j => ?_) i
          · simp
          · simp
            fun_prop)
      · have := h (Fin.cons u x)
        simp only [List.ofFn_cons, List.cons_append] at this
        exact this
    · refine (hF.comp (measurable_pi_lambda _ fun i => ?_)).aemeasurable
      refine Fin.cases ?_ (fun j => ?_) i <;> simp <;> fun_prop

theorem chance_pi_ge : ∀ {d k : Nat} {p : List ℝ → Prop} {F : (Fin d → ℝ) → ℝ≥0∞}, Measurable F →
    (∀ x, F x ≤ chance k (fun l => p (List.ofFn x ++ l))) → ∫⁻ x, F x ∂(Measure.pi fun _ => unitM) ≤ chance (d + k) p
  | 0, k, p, F, _, h => by
    have := h Fin.elim0
    simp only [List.ofFn_zero, List.nil_append] at this
    rw [Nat.zero_add, Measure.pi_of_empty (fun _ : Fin 0 => unitM) Fin.elim0, lintegral_dirac]
    exact this
  | d + 1, k, p, F, hF, h => by
    rw [show d + 1 + k = d + k + 1 by ring, chance_succ, ← ((measurePreserving_piFinSuccAbove (fun _ : Fin (d + 1) => unitM) 0).symm).lintegral_comp hF]
    simp_rw [MeasurableEquiv.piFinSuccAbove_symm_apply, Fin.insertNthEquiv, Fin.insertNth_zero, Equiv.coe_fn_mk]
    rw [lintegral_prod]
    · refine lintegral_mono fun u => chance_pi_ge ?_ fun x => ?_
      · exact hF.comp (measurable_pi_lambda _ fun i => by
          refine Fin.cases ?_ (fun j => ?_) i
          · simp
          · simp
            fun_prop)
      · have := h (Fin.cons u x)
        simp only [List.ofFn_cons, List.cons_append] at this
        exact this
    · refine (hF.comp (measurable_pi_lambda _ fun i => ?_)).aemeasurable
      refine Fin.cases ?_ (fun j => ?_) i <;> simp <;> fun_prop

/-- From `[0, 1)` to `[-1, 1)`. -/
def twice {d : Nat} (x : Fin d → ℝ) : Fin d → ℝ := fun i => x i * 2 - 1

theorem measurable_twice {d : Nat} : Measurable (twice (d := d)) := by
  unfold twice
  fun_prop

theorem twice_volume {d : Nat} (B : Set (Fin d → ℝ)) : volume (twice ⁻¹' B) = ENNReal.ofReal ((1 / 2) ^ d) * volume B := by
  have e : twice ⁻¹' B = ((2 : ℝ) • ·) ⁻¹' ((fun x : Fin d → ℝ => x - fun _ => 1) ⁻¹' B) := by
    ext x
    simp only [mem_preimage]
    have : twice x = ((2 : ℝ) • x) - fun _ => 1 := by funext i; simp [twice, mul_comm]
    rw [this]
  rw [e, Measure.addHaar_preimage_smul volume two_ne_zero, (measurePreserving_sub_right volume (fun _ : Fin d => (1 : ℝ))).measure_preimage_emb
    (MeasurableEquiv.subRight _).measurableEmbedding]
  congr 2
  rw [abs_of_nonneg (by positivity)]
  simp

theorem pi_unit (d : Nat) : (Measure.pi fun _ : Fin d => unitM) = (volume : Measure (Fin d → ℝ)).restrict (univ.pi fun _ => Ico (0 : ℝ) 1) := by
  rw [volume_pi, Measure.restrict_pi_pi]
  rfl

theorem unitBall_lt {d : Nat} {x : Fin d → ℝ} (h : x ∈ unitBall d) (i : Fin d) : -1 < x i ∧ x i < 1 := by
  have h1 : x i ^ 2 < 1 := lt_of_le_of_lt (Finset.single_le_sum (f := fun i => x i ^ 2) (fun j _ => sq_nonneg _) (Finset.mem_univ i)) h
  exact abs_lt.1 ((sq_lt_one_iff_abs_lt_one _).1 h1)

theorem pi_twice {d : Nat} {B : Set (Fin d → ℝ)} (hB : B ⊆ unitBall d) (hm : MeasurableSet B) :
    (Measure.pi fun _ : Fin d => unitM) (twice ⁻¹' B) = ENNReal.ofReal ((1 / 2) ^ d) * volume B := by
  rw [pi_unit, Measure.restrict_apply (measurable_twice hm), inter_eq_left.2, twice_volume]
  intro x hx i _
  have := unitBall_lt (hB hx) i
  simp only [twice] at this
  constructor <;> linarith

theorem volume_disc : volume (unitBall 2) = ENNReal.ofReal Real.pi := by
  have := volume_sum_rpow_lt_one (Fin 2) (p := 2) (by norm_num)
  have e : unitBall 2 = {x : Fin 2 → ℝ | ∑ i, |x i| ^ (2 : ℝ) < 1} := by
    ext x; simp [unitBall]
  rw [e, this]
  congr 1
  rw [show (1 : ℝ) / 2 + 1 = 1 / 2 + 1 by rfl, Real.Gamma_add_one (by norm_num), Real.Gamma_one_half_eq]
  have : ((Fintype.card (Fin 2) : ℕ) : ℝ) / 2 + 1 = 2 := by simp; norm_num
  rw [this, show (2 : ℝ) = 1 + 1 by norm_num, Real.Gamma_add_one one_ne_zero, Real.Gamma_one, one_mul, show (1 : ℝ) + 1 = 2 by norm_num, Fintype.card_fin, div_one, show 2 * (1 / 2 * Real.sqrt Real.pi) = Real.sqrt Real.pi by ring, Real.sq_sqrt Real.pi_pos.le]

theorem volume_circle : volume {x : Fin 2 → ℝ | ∑ i, x i ^ 2 = 1} = 0 := by
  have h1 := volume_sum_rpow_lt (Fin 2) (p := 2) (by norm_num) 1
  have h2 := volume_sum_rpow_le (Fin 2) (p := 2) (by norm_num) 1
  have e : {x : Fin 2 → ℝ | ∑ i, x i ^ 2 = 1} =
      {x : Fin 2 → ℝ | (∑ i, |x i| ^ (2 : ℝ)) ^ (1 / (2 : ℝ)) ≤ 1} \ {x : Fin 2 → ℝ | (∑ i, |x i| ^ (2 : ℝ)) ^ (1 / (2 : ℝ)) < 1} := by
    ext x
    have h0 : 0 ≤ ∑ i, x i ^ 2 := Finset.sum_nonneg fun i _ => sq_nonneg _
    simp only [Real.rpow_two, sq_abs, mem_sdiff, Set.mem_ofPred_eq, not_lt, ← Real.sqrt_eq_rpow]
    rw [Real.sqrt_le_one, Real.one_le_sqrt]
    exact le_antisymm_iff
  have hm : MeasurableSet {x : Fin 2 → ℝ | (∑ i, |x i| ^ (2 : ℝ)) ^ (1 / (2 : ℝ)) < 1} := by
    refine measurableSet_lt ?_ measurable_const
    simp only [Real.rpow_two, sq_abs, ← Real.sqrt_eq_rpow]
    fun_prop
  have hsub : {x : Fin 2 → ℝ | (∑ i, |x i| ^ (2 : ℝ)) ^ (1 / (2 : ℝ)) < 1} ⊆ {x : Fin 2 → ℝ | (∑ i, |x i| ^ (2 : ℝ)) ^ (1 / (2 : ℝ)) ≤ 1} :=
    fun x hx => le_of_lt (by simpa only [Set.mem_ofPred_eq] using hx)
  rw [e, measure_sdiff hsub hm.nullMeasurableSet (by rw [h1]; exact ENNReal.mul_ne_top (by simp) ENNReal.ofReal_ne_top), h1, h2, tsub_self]

theorem volume_origin : volume {x : Fin 2 → ℝ | ∑ i, x i ^ 2 = 0} = 0 := by
  have : {x : Fin 2 → ℝ | ∑ i, x i ^ 2 = 0} ⊆ {x : Fin 2 → ℝ | x 0 = 0} := by
    intro x hx
    simp only [Fin.sum_univ_two, Set.mem_ofPred_eq] at hx ⊢
    nlinarith [sq_nonneg (x 0), sq_nonneg (x 1)]
  exact measure_mono_null this (Measure.pi_hyperplane (fun _ : Fin 2 => (volume : Measure ℝ)) 0 0)

/-- The accepted points. -/
def accepted (zero : Bool) : Set (Fin 2 → ℝ) := {x | ¬ ((zero = true ∧ ∑ i, x i ^ 2 = 0) ∨ 1 < ∑ i, x i ^ 2)}

theorem measurable_accepted (zero : Bool) : MeasurableSet (accepted zero) := by
  unfold accepted
  refine MeasurableSet.compl (MeasurableSet.union ?_ (measurableSet_lt measurable_const measurable_sq))
  refine MeasurableSet.inter (.const _) (measurableSet_eq_fun measurable_sq measurable_const)

theorem pi_accepted (zero : Bool) {B : Set (Fin 2 → ℝ)} (hB : MeasurableSet B) :
    (Measure.pi fun _ : Fin 2 => unitM) (twice ⁻¹' (accepted zero ∩ B)) = ENNReal.ofReal (1 / 4) * volume (unitBall 2 ∩ B) := by
  rw [show (1 / 4 : ℝ) = (1 / 2) ^ 2 by norm_num, ← pi_twice inter_subset_left ((measurable_unitBall 2).inter hB)]
  have hz : ∀ {C : Set (Fin 2 → ℝ)}, volume C = 0 → (Measure.pi fun _ : Fin 2 => unitM) (twice ⁻¹' C) = 0 := by
    intro C hC
    rw [pi_unit]
    refine Measure.absolutelyContinuous_of_le Measure.restrict_le_self ?_
    rw [twice_volume, hC, mul_zero]
  apply measure_congr
  have h0 := hz volume_origin
  have h1 := hz volume_circle
  rw [← compl_compl (twice ⁻¹' {x : Fin 2 → ℝ | ∑ i, x i ^ 2 = 0})] at h0
  rw [← compl_compl (twice ⁻¹' {x : Fin 2 → ℝ | ∑ i, x i ^ 2 = 1})] at h1
  filter_upwards [mem_ae_iff.2 h0, mem_ae_iff.2 h1] with x hx0 hx1
  simp only [mem_compl_iff, mem_preimage, Set.mem_ofPred_eq] at hx0 hx1
  apply propext
  change twice x ∈ accepted zero ∧ twice x ∈ B ↔ twice x ∈ unitBall 2 ∧ twice x ∈ B
  refine and_congr_left fun _ => ?_
  simp only [accepted, unitBall, Set.mem_ofPred_eq, not_or, not_lt, hx0, and_false, not_false_eq_true, true_and]
  exact ⟨fun h => lt_of_le_of_ne h hx1, le_of_lt⟩

theorem disc_step (zero : Bool) (n : Nat) (x : Fin 2 → ℝ) (l : List ℝ) [Decidable (twice x ∈ accepted zero)] :
    disc exactOps zero idealNumbers (n + 1) (List.ofFn x ++ l) =
      if twice x ∈ accepted zero then .done (twice x 0, twice x 1, ∑ i, twice x i ^ 2) l else disc exactOps zero idealNumbers n l := by
  have e : ∑ i, twice x i ^ 2 = (x 0 * 2 - 1) * (x 0 * 2 - 1) + (x 1 * 2 - 1) * (x 1 * 2 - 1) := by
    rw [Fin.sum_univ_two, sq, sq]; rfl
  have hl : List.ofFn x ++ l = x 0 :: x 1 :: l := by simp [List.ofFn_succ]
  rw [hl]
  change (if (zero = true ∧ (x 0 * 2 - 1) * (x 0 * 2 - 1) + (x 1 * 2 - 1) * (x 1 * 2 - 1) = 0) ∨
    1 < (x 0 * 2 - 1) * (x 0 * 2 - 1) + (x 1 * 2 - 1) * (x 1 * 2 - 1) then disc exactOps zero idealNumbers n l
    else .done (x 0 * 2 - 1, x 1 * 2 - 1, (x 0 * 2 - 1) * (x 0 * 2 - 1) + (x 1 * 2 - 1) * (x 1 * 2 - 1)) l) = _
  rw [← e]
  by_cases h : twice x ∈ accepted zero
  · rw [if_pos h, if_neg h]
    rfl
  · rw [if_neg h, if_pos (not_not.1 h)]

theorem store_length {K : Type} {l vs : List K} (h : vs.length = l.length) : store l vs = some vs := by
  rw [store, if_pos h.le, h, List.drop_length, List.append_nil]

theorem finish_length {K σ : Type} {d : Dist K} {vs : List K} {s : σ} (h : vs.length = d.container.length) : finish d vs s = .done ⟨vs, d.dim⟩ s := by
  rw [finish, store_length h]

open Classical in
/-- The loop. -/
theorem disc_law (zero : Bool) (d : Nat) (e : Dist ℝ) (hc : e.container.length = d) (f : ℝ → ℝ → ℝ → List ℝ) (hf : ∀ x y q, (f x y q).length = d)
    (A : Set (Fin d → ℝ)) {B : Set (Fin 2 → ℝ)} (hB : MeasurableSet B)
    (hAB : ∀ y : Fin 2 → ℝ, y ∈ accepted zero → ((fun i : Fin d => (f (y 0) (y 1) (∑ i, y i ^ 2)).getD i 0) ∈ A ↔ y ∈ B)) : ∀ (n k : Nat), 2 * n ≤ k →
    chance k (fun l => Lands d A ((disc exactOps zero idealNumbers n l).bind fun r s => finish e (f r.1 r.2.1 r.2.2) s)) =
      ENNReal.ofReal (1 - (1 - Real.pi / 4) ^ n) * (volume (unitBall 2 ∩ B) / ENNReal.ofReal Real.pi)
  | 0, k, _ => by
    rw [chance_false]
    · simp
    · rintro l ⟨_, _, h, _⟩
      cases h
  | n + 1, k, hk => by
    obtain ⟨k, rfl⟩ : ∃ j, k = 2 + j := ⟨k - 2, by omega⟩
    have ih := disc_law zero d e hc f hf A hB hAB n k (by omega)
    set c := chance k (fun l => Lands d A ((disc exactOps zero idealNumbers n l).bind fun r s => finish e (f r.1 r.2.1 r.2.2) s)) with hcdef
    have hF : ∀ x : Fin 2 → ℝ, chance k (fun l => Lands d A ((disc exactOps zero idealNumbers (n + 1) (List.ofFn x ++ l)).bind fun r s => finish e (f r.1 r.2.1 r.2.2) s)) =
        (twice ⁻¹' accepted zero)ᶜ.indicator (fun _ => c) x + (twice ⁻¹' (accepted zero ∩ B)).indicator (fun _ => 1) x := by
      intro x
      simp only [disc_step]
      by_cases h : twice x ∈ accepted zero
      · simp only [if_pos h, Run.bind]
        rw [indicator_of_notMem (by simpa using h), zero_add]
        have : ∀ l : List ℝ, Lands d A (.done ⟨f (twice x 0) (twice x 1) (∑ i, twice x i ^ 2), e.dim⟩ l : Run (List ℝ) (Dist ℝ)) ↔ twice x ∈ B := by
          intro l
          rw [← hAB _ h]
          constructor
          · rintro ⟨_, _, h, _, h2⟩
            cases h
            exact h2
          · intro h
            exact ⟨_, _, rfl, hf _ _ _, h⟩
        simp only [finish_length (show (f (twice x 0) (twice x 1) (∑ i, twice x i ^ 2)).length = e.container.length by rw [hf, hc])]
        rw [chance_congr this, chance_const]
        simp only [indicator, mem_preimage, mem_inter_iff, h, true_and]
      · simp only [if_neg h]
        rw [indicator_of_mem (by simpa using h), indicator_of_notMem (fun h' => h h'.1), add_zero]
    have hm1 : MeasurableSet (twice ⁻¹' accepted zero)ᶜ := (measurable_twice (measurable_accepted zero)).compl
    have hm2 : MeasurableSet (twice ⁻¹' (accepted zero ∩ B)) := measurable_twice ((measurable_accepted zero).inter hB)
    have hmF : Measurable fun x : Fin 2 → ℝ => (twice ⁻¹' accepted zero)ᶜ.indicator (fun _ => c) x + (twice ⁻¹' (accepted zero ∩ B)).indicator (fun _ => (1 : ℝ≥0∞)) x :=
      (measurable_const.indicator hm1).add (measurable_const.indicator hm2)
    rw [le_antisymm (chance_pi_le hmF fun x => (hF x).le) (chance_pi_ge hmF fun x => (hF x).ge)]
    rw [lintegral_add_left (measurable_const.indicator hm1), lintegral_indicator_const hm1, lintegral_indicator_const hm2, one_mul,
      prob_compl_eq_one_sub (measurable_twice (measurable_accepted zero)), pi_accepted zero hB]
    have hp := pi_accepted zero (B := univ) MeasurableSet.univ
    rw [inter_univ, inter_univ, volume_disc] at hp
    have hpi := Real.pi_pos
    have hpi4 := Real.pi_le_four
    rw [hp, ih, ← ENNReal.ofReal_mul (by norm_num), ← ENNReal.ofReal_one, ← ENNReal.ofReal_sub _ (by positivity)]
    have hv : ENNReal.ofReal (1 / 4) * volume (unitBall 2 ∩ B) = ENNReal.ofReal (Real.pi / 4) * (volume (unitBall 2 ∩ B) / ENNReal.ofReal Real.pi) := by
      rw [show Real.pi / 4 = 1 / 4 * Real.pi by ring, ENNReal.ofReal_mul (by norm_num), mul_assoc,
        ENNReal.mul_div_cancel (by simpa using hpi) ENNReal.ofReal_ne_top]
    have hr0 : 0 ≤ 1 - Real.pi / 4 := by linarith
    have hr1 : (1 - Real.pi / 4) ^ n ≤ 1 := pow_le_one₀ hr0 (by linarith)
    rw [hv, mul_right_comm, ← add_mul, ← ENNReal.ofReal_mul (by linarith), ← ENNReal.ofReal_add (mul_nonneg (by linarith) (by linarith)) (by positivity)]
    congr 2
    ring

theorem circle_radial (y : Fin 2 → ℝ) : (fun i : Fin 2 => (circle exactOps (y 0) (y 1) (∑ i, y i ^ 2)).getD i 0) = radial y := by
  funext i
  fin_cases i
  · change y 0 * (1 / Real.sqrt _) = _ / _
    exact mul_one_div _ _
  · change y 1 * (1 / Real.sqrt _) = _ / _
    exact mul_one_div _ _

theorem globe_toGlobe (y : Fin 2 → ℝ) : (fun i : Fin 3 => (globe exactOps (y 0) (y 1) (∑ i, y i ^ 2)).getD i 0) = toGlobe y := by
  funext i
  rw [Fin.sum_univ_two]
  fin_cases i <;> rfl

theorem law_two (n k : Nat) (hk : 2 * n ≤ k) (e : Dist ℝ) (he : e.dim = 2) (hc : e.container.length = 2) {A : Set (Fin 2 → ℝ)} (hA : MeasurableSet A) :
    chance k (fun l => Lands 2 A (generate exactOps idealNumbers n e l)) = ENNReal.ofReal (1 - (1 - Real.pi / 4) ^ n) * sphereLaw 2 A := by
  rw [sphereLaw, volume_disc, ← disc_law true 2 e hc (circle exactOps) (fun _ _ _ => rfl) A (measurable_radial hA)
    (fun y _ => by rw [circle_radial]; rfl) n k hk]
  refine chance_congr fun l => ?_
  rw [generate, he, if_neg (by decide), if_neg (by decide), if_pos rfl]

theorem law_three (n k : Nat) (hk : 2 * n ≤ k) (e : Dist ℝ) (he : e.dim = 3) (hc : e.container.length = 3) {A : Set (Fin 3 → ℝ)} (hA : MeasurableSet A) :
    chance k (fun l => Lands 3 A (generate exactOps idealNumbers n e l)) = ENNReal.ofReal (1 - (1 - Real.pi / 4) ^ n) * sphereLaw 3 A := by
  have h1 := cone_volume hA
  have h2 := cone_volume MeasurableSet.univ
  rw [over, preimage_univ, preimage_univ, inter_univ, inter_univ, volume_disc] at h2
  rw [sphereLaw, h1, h2, ENNReal.mul_div_mul_left _ _ (by simp) ENNReal.ofReal_ne_top, over,
    ← disc_law false 3 e hc (globe exactOps) (fun _ _ _ => rfl) A (measurable_toGlobe hA) (fun y _ => by rw [globe_toGlobe]; rfl) n k hk]
  refine chance_congr fun l => ?_
  rw [generate, he, if_neg (by decide), if_neg (by decide), if_neg (by decide), if_pos rfl]

theorem chance_pi {d k : Nat} {p : List ℝ → Prop} {B : Set (Fin d → ℝ)} (hB : MeasurableSet B) (h : ∀ x l, p (List.ofFn x ++ l) ↔ x ∈ B) :
    chance (d + k) p = (Measure.pi fun _ => unitM) B := by
  classical
  have hm : Measurable (B.indicator fun _ => (1 : ℝ≥0∞)) := measurable_const.indicator hB
  have hF : ∀ x, chance k (fun l => p (List.ofFn x ++ l)) = B.indicator (fun _ => (1 : ℝ≥0∞)) x := by
    intro x
    rw [chance_congr (h x), chance_const]
    rfl
  rw [le_antisymm (chance_pi_le hm fun x => (hF x).le) (chance_pi_ge hm fun x => (hF x).ge), lintegral_indicator_const hB, one_mul]

theorem law_zero (n k : Nat) (e : Dist ℝ) (he : e.dim = 0) (hc : e.container.length = 0) {A : Set (Fin 0 → ℝ)} :
    chance k (fun l => Lands 0 A (generate exactOps idealNumbers n e l)) = sphereLaw 0 A := by
  have hb : unitBall 0 = univ := by ext x; simp [unitBall]
  have hv : volume (univ : Set (Fin 0 → ℝ)) = 1 := by simp [volume_pi]
  rw [sphereLaw, hb, univ_inter, hv, div_one]
  have h : ∀ l, Lands 0 A (generate exactOps idealNumbers n e l) ↔ (Fin.elim0 : Fin 0 → ℝ) ∈ A := by
    intro l
    rw [generate, if_pos he]
    constructor
    · rintro ⟨_, _, h, _, h2⟩
      rwa [Subsingleton.elim (fun i : Fin 0 => _) Fin.elim0] at h2
    · intro h
      exact ⟨_, _, rfl, hc, by rwa [Subsingleton.elim (fun i : Fin 0 => _) Fin.elim0]⟩
  classical
  rw [chance_congr h, chance_const]
  split
  · next h =>
    have : radial ⁻¹' A = univ := by
      ext x; simp only [mem_preimage, mem_univ, iff_true]; rwa [Subsingleton.elim (radial x) Fin.elim0]
    rw [this, hv]
  · next h =>
    have : radial ⁻¹' A = ∅ := by
      ext x; simp only [mem_preimage, mem_empty_iff_false, iff_false]; rwa [Subsingleton.elim (radial x) Fin.elim0]
    rw [this, measure_empty]

theorem law_one (n k : Nat) (hk : 1 ≤ k) (e : Dist ℝ) (he : e.dim = 1) (hc : e.container.length = 1) {A : Set (Fin 1 → ℝ)} (hA : MeasurableSet A) :
    chance k (fun l => Lands 1 A (generate exactOps idealNumbers n e l)) = sphereLaw 1 A := by
  obtain ⟨k, rfl⟩ : ∃ j, k = 1 + j := ⟨k - 1, by omega⟩
  have key : ∀ x : Fin 1 → ℝ, x 0 ≠ 1 / 2 → (fun i : Fin 1 => [if x 0 < 1 / 2 then (-1 : ℝ) else 1].getD i 0) = radial (twice x) := by
    intro x hx
    funext i
    obtain rfl : i = 0 := Subsingleton.elim _ _
    simp only [radial, twice, Fin.sum_univ_one, Real.sqrt_sq_eq_abs]
    change (if x 0 < 1 / 2 then (-1 : ℝ) else 1) = _
    split
    · next h => rw [abs_of_neg (by linarith), div_neg, div_self (by linarith)]
    · next h => rw [abs_of_pos (by have := lt_of_le_of_ne (not_lt.1 h) (Ne.symm hx); linarith), div_self (by intro h'; apply hx; linarith)]
  have hm : Measurable fun x : Fin 1 → ℝ => (fun i : Fin 1 => [if x 0 < 1 / 2 then (-1 : ℝ) else 1].getD i 0) := by
    refine measurable_pi_lambda _ fun i => ?_
    obtain rfl : i = 0 := Subsingleton.elim _ _
    exact Measurable.ite (measurableSet_lt (measurable_pi_apply 0) measurable_const) measurable_const measurable_const
  have h1 : chance (1 + k) (fun l => Lands 1 A (generate exactOps idealNumbers n e l)) =
      (Measure.pi fun _ => unitM) ((fun x : Fin 1 → ℝ => (fun i : Fin 1 => [if x 0 < 1 / 2 then (-1 : ℝ) else 1].getD i 0)) ⁻¹' A) := by
    refine chance_pi (hm hA) fun x l => ?_
    have hl : List.ofFn x ++ l = x 0 :: l := by simp [List.ofFn_succ]
    rw [hl, generate, he, if_neg (by decide), if_pos rfl]
    change Lands 1 A (finish e [if x 0 < 1 / 2 then (-1 : ℝ) else 1] l) ↔ _
    rw [finish_length (by rw [hc]; rfl)]
    constructor
    · rintro ⟨_, _, h, _, h2⟩
      cases h
      exact h2
    · intro h
      exact ⟨_, _, rfl, rfl, h⟩
  have h2 : ∀ B : Set (Fin 1 → ℝ), MeasurableSet B →
      (Measure.pi fun _ => unitM) ((fun x : Fin 1 → ℝ => (fun i : Fin 1 => [if x 0 < 1 / 2 then (-1 : ℝ) else 1].getD i 0)) ⁻¹' B) =
        ENNReal.ofReal ((1 / 2) ^ 1) * volume (unitBall 1 ∩ radial ⁻¹' B) := by
    intro B hB
    rw [← pi_twice inter_subset_left ((measurable_unitBall 1).inter (measurable_radial hB))]
    apply measure_congr
    have hz : (volume : Measure (Fin 1 → ℝ)) {x | x 0 = 1 / 2} = 0 := Measure.pi_hyperplane (fun _ : Fin 1 => (volume : Measure ℝ)) 0 _
    have hz' : (volume : Measure (Fin 1 → ℝ)) {x | x 0 = 0} = 0 := Measure.pi_hyperplane (fun _ : Fin 1 => (volume : Measure ℝ)) 0 _
    rw [pi_unit]
    refine (ae_restrict_iff' (MeasurableSet.univ_pi fun _ => measurableSet_Ico)).2 ?_
    rw [← compl_compl {x : Fin 1 → ℝ | x 0 = 1 / 2}] at hz
    rw [← compl_compl {x : Fin 1 → ℝ | x 0 = 0}] at hz'
    filter_upwards [mem_ae_iff.2 hz, mem_ae_iff.2 hz'] with x hx hx' hI
    apply propext
    have hx0 := hI 0 trivial
    simp only [mem_compl_iff, Set.mem_ofPred_eq] at hx hx'
    change (fun i : Fin 1 => [if x 0 < 1 / 2 then (-1 : ℝ) else 1].getD i 0) ∈ B ↔ twice x ∈ unitBall 1 ∧ radial (twice x) ∈ B
    rw [key x hx, and_iff_right]
    simp only [unitBall, Set.mem_ofPred_eq, Fin.sum_univ_one, twice]
    have : 0 < x 0 := lt_of_le_of_ne hx0.1 (Ne.symm hx')
    nlinarith [hx0.2]
  have h3 := h2 univ MeasurableSet.univ
  rw [preimage_univ, preimage_univ, inter_univ, measure_univ] at h3
  rw [h1, h2 A hA, sphereLaw, ENNReal.eq_inv_of_mul_eq_one_left h3.symm, mul_comm, div_eq_mul_inv]

theorem fill_ideal : ∀ (c : List ℝ) (q : ℝ) (x : Fin c.length → ℝ) (l : List ℝ), fill exactOps idealNumbers c q (List.ofFn x ++ l) =
    .done (q + ∑ i, quantile (gaussianReal 0 1) (x i) ^ 2, List.ofFn fun i => quantile (gaussianReal 0 1) (x i)) l
  | [], q, x, l => by simp [fill]
  | a :: c, q, x, l => by
    have hl : List.ofFn x ++ l = x 0 :: (List.ofFn (fun i : Fin c.length => x i.succ) ++ l) := by
      rw [List.ofFn_succ]; rfl
    rw [hl]
    change (fill exactOps idealNumbers c (q + quantile (gaussianReal 0 1) (x 0) * quantile (gaussianReal 0 1) (x 0)) _).bind _ = _
    rw [fill_ideal c, Run.bind]
    simp only [Fin.sum_univ_succ, List.ofFn_succ, List.length_cons, sq]
    congr 2
    ring

theorem law_many (d n k : Nat) (hd : 3 < d) (hk : d ≤ k) (e : Dist ℝ) (he : e.dim = d) (hc : e.container.length = d) {A : Set (Fin d → ℝ)} (hA : MeasurableSet A) :
    chance k (fun l => Lands d A (generate exactOps idealNumbers (n + 1) e l)) = sphereLaw d A := by
  obtain ⟨k, rfl⟩ : ∃ j, k = d + j := ⟨k - d, by omega⟩
  subst hc
  have hQ := measurable_quantile (gaussianReal 0 1)
  set Q : (Fin e.container.length → ℝ) → Fin e.container.length → ℝ := fun x i => quantile (gaussianReal 0 1) (x i) with hQd
  have hQm : Measurable Q := measurable_pi_lambda _ fun i => hQ.comp (measurable_pi_apply i)
  have hmap : (Measure.pi fun _ : Fin e.container.length => unitM).map Q = Measure.pi fun _ => gaussianReal 0 1 := by
    have : ∀ _i : Fin e.container.length, SigmaFinite (unitM.map (quantile (gaussianReal 0 1))) := fun _ => by rw [map_quantile]; infer_instance
    rw [hQd, Measure.pi_map_pi fun _ => hQ.aemeasurable, map_quantile]
  have hstep : ∀ x l, generate exactOps idealNumbers (n + 1) e (List.ofFn x ++ l) =
      if ∑ i, Q x i ^ 2 = 0 then (direction exactOps idealNumbers (List.ofFn (Q x)) n l).bind fun r s => .done ⟨scaled exactOps r.1 r.2, e.dim⟩ s
      else .done ⟨List.ofFn (radial (Q x)), e.dim⟩ l := by
    intro x l
    rw [generate, if_neg (by omega), if_neg (by omega), if_neg (by omega), if_neg (by omega), direction, fill_ideal]
    rw [Run.bind, zero_add]
    by_cases h : ∑ i, Q x i ^ 2 = 0
    · simp only [if_pos (show ∑ i, quantile (gaussianReal 0 1) (x i) ^ 2 = 0 from h), if_pos h]
      rfl
    · simp only [if_neg h]
      simp only [if_neg (show ¬ ∑ i, quantile (gaussianReal 0 1) (x i) ^ 2 = 0 from h), Run.bind]
      simp only [scaled, exactOps, id, List.map_ofFn]
      congr 3
      funext i
      exact mul_one_div _ _
  have hz : (Measure.pi fun _ : Fin e.container.length => unitM) (Q ⁻¹' {x | ∑ i, x i ^ 2 = 0}) = 0 := by
    rw [← Measure.map_apply hQm (measurableSet_eq_fun measurable_sq measurable_const), hmap]
    have hsub : {x : Fin e.container.length → ℝ | ∑ i, x i ^ 2 = 0} ⊆ {x | x ⟨0, by omega⟩ = 0} := by
      intro x hx
      simp only [Set.mem_ofPred_eq] at hx ⊢
      have := (Finset.sum_eq_zero_iff_of_nonneg (fun i _ => sq_nonneg (x i))).1 hx ⟨0, by omega⟩ (Finset.mem_univ _)
      simpa using this
    refine measure_mono_null hsub ?_
    have := nullSingletonClass_gaussianReal (μ := 0) (v := 1) one_ne_zero
    exact Measure.pi_hyperplane (fun _ : Fin e.container.length => gaussianReal 0 1) _ 0
  have hlands : ∀ x l, ∑ i, Q x i ^ 2 ≠ 0 → (Lands e.container.length A (generate exactOps idealNumbers (n + 1) e (List.ofFn x ++ l)) ↔ radial (Q x) ∈ A) := by
    intro x l h
    rw [hstep, if_neg h]
    have hg : (fun i : Fin e.container.length => (List.ofFn (radial (Q x))).getD i 0) = radial (Q x) := by
      funext i
      rw [List.getD_eq_getElem?_getD, List.getElem?_eq_getElem (by simp)]
      simp
    constructor
    · rintro ⟨_, _, h, _, h2⟩
      cases h
      simp only at h2
      rwa [hg] at h2
    · intro h
      exact ⟨_, _, rfl, by simp, by simp only; rwa [hg]⟩
  rw [← radial_gauss hA, ← hmap, Measure.map_apply hQm (measurable_radial hA)]
  have hm1 : MeasurableSet (Q ⁻¹' (radial ⁻¹' A)) := hQm (measurable_radial hA)
  have hm0 : MeasurableSet (Q ⁻¹' {x | ∑ i, x i ^ 2 = 0}) := hQm (measurableSet_eq_fun measurable_sq measurable_const)
  classical
  apply le_antisymm
  · refine (chance_pi_le (F := (Q ⁻¹' (radial ⁻¹' A) ∪ Q ⁻¹' {x | ∑ i, x i ^ 2 = 0}).indicator fun _ => 1) (measurable_const.indicator (hm1.union hm0)) fun x => ?_).trans ?_
    · by_cases h0 : ∑ i, Q x i ^ 2 = 0
      · rw [indicator_of_mem (.inr h0)]
        exact chance_le_one _ _
      · rw [chance_congr fun l => hlands x l h0, chance_const]
        by_cases h1 : radial (Q x) ∈ A
        · rw [if_pos h1, indicator_of_mem (.inl h1)]
        · rw [if_neg h1]; exact zero_le
    · rw [lintegral_indicator_const (hm1.union hm0), one_mul]
      exact (measure_union_le _ _).trans (by rw [hz, add_zero])
  · refine le_trans ?_ (chance_pi_ge (F := (Q ⁻¹' (radial ⁻¹' A) \ Q ⁻¹' {x | ∑ i, x i ^ 2 = 0}).indicator fun _ => 1) (measurable_const.indicator (hm1.diff hm0)) fun x => ?_)
    · rw [lintegral_indicator_const (hm1.diff hm0), one_mul, measure_sdiff_null hz]
    · by_cases h0 : ∑ i, Q x i ^ 2 = 0
      · rw [indicator_of_notMem (fun h => h.2 h0)]
        exact zero_le
      · rw [chance_congr fun l => hlands x l h0, chance_const]
        by_cases h1 : radial (Q x) ∈ A
        · rw [if_pos h1]; exact indicator_le_self' (fun _ _ => zero_le) _ |>.trans (by simp)
        · rw [if_neg h1, indicator_of_notMem (fun h => h1 h.1)]

theorem law (d n k : Nat) (hk : d * (n + 1) ≤ k) (e : Dist ℝ) (he : e.dim = d) (hc : e.container.length = d) {A : Set (Fin d → ℝ)} (hA : MeasurableSet A) :
    chance k (fun l => Lands d A (generate exactOps idealNumbers (n + 1) e l)) = ENNReal.ofReal (1 - (1 - discShare d) ^ (n + 1)) * sphereLaw d A := by
  match d, e, he, hc, A, hA with
  | 0, e, he, hc, A, hA => rw [law_zero _ _ e he hc]; simp [discShare]
  | 1, e, he, hc, A, hA => rw [law_one _ _ (by omega) e he hc hA]; simp [discShare]
  | 2, e, he, hc, A, hA => rw [law_two _ _ (by omega) e he hc hA]; simp [discShare]
  | 3, e, he, hc, A, hA => rw [law_three _ _ (by omega) e he hc hA]; simp [discShare]
  | d + 4, e, he, hc, A, hA =>
    rw [law_many _ n k (by omega) (le_trans (Nat.le_mul_of_pos_right _ (by omega)) hk) e he hc hA, discShare, if_neg (by omega)]
    simp

end Boost.Random.Sphere
