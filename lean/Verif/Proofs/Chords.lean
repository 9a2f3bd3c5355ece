import Verif.Proofs.SphereChord
import Verif.Proofs.RealDist
import Verif.Proofs.DistText
import Verif.Spec.Intersections
import Verif.Spec.Niederreiter

/-!
# Points of example/intersections.cpp in patches of the sphere
-/

namespace Boost.Random.Intersections
open MeasureTheory Set Spec Sphere RealDist
open scoped ENNReal

theorem chordPoint_norm {u v : ℝ} (h0 : 0 ≤ u) (h1 : u ≤ 1) : ∑ i, chordPoint u v i ^ 2 = 1 := by
  have hp : 0 ≤ 1 - (1 - 2 * u) * (1 - 2 * u) := by nlinarith
  have hs := Real.sq_sqrt hp
  have hc := Real.sin_sq_add_cos_sq (2 * Real.pi * v)
  simp only [Fin.sum_univ_three, chordPoint, Matrix.cons_val_zero, Matrix.cons_val_one, Matrix.cons_val, mul_pow, hs]
  linear_combination (1 - (1 - 2 * u) * (1 - 2 * u)) * hc

theorem mem_patch {b a b' a' : Nat} {p : Fin 3 → ℝ} : p ∈ patch b a b' a' ↔
    ∃ s t : ℝ, ((a : ℝ) ≤ 2 ^ b * s ∧ 2 ^ b * s < a + 1) ∧ ((a' : ℝ) ≤ 2 ^ b' * t ∧ 2 ^ b' * t < a' + 1) ∧ p = chordPoint s t := by
  refine exists_congr fun s => exists_congr fun t => and_congr_right fun _ => and_congr_right fun _ => ⟨fun ⟨h1, h2, h3⟩ => ?_, fun h => ?_⟩
  · rw [h1] at h2 h3
    funext i
    fin_cases i
    · simpa [chordPoint, sq] using h2
    · simpa [chordPoint] using h1
    · simpa [chordPoint, sq] using h3
  · subst h
    simp [chordPoint, sq]

theorem share_bounds {b a : Nat} (ha : a < 2 ^ b) {s : ℝ} (h : (a : ℝ) ≤ 2 ^ b * s ∧ 2 ^ b * s < a + 1) : s ∈ Ico (0 : ℝ) 1 := by
  have hp : (0 : ℝ) < 2 ^ b := by positivity
  have ha' : (a : ℝ) + 1 ≤ 2 ^ b := by exact_mod_cast ha
  constructor
  · by_contra hlt
    have : 2 ^ b * s < 0 := mul_neg_of_pos_of_neg hp (not_le.1 hlt)
    linarith [h.1, (Nat.cast_nonneg a : (0 : ℝ) ≤ a)]
  · by_contra hge
    have : 2 ^ b * 1 ≤ 2 ^ b * s := mul_le_mul_of_nonneg_left (not_lt.1 hge) hp.le
    linarith [h.2]

theorem chordPoint_mem {b a b' a' : Nat} (ha' : a' < 2 ^ b') {u v : ℝ} (hu : u ∈ Ioo (0 : ℝ) 1) (hv : v ∈ Ico (0 : ℝ) 1) :
    chordPoint u v ∈ patch b a b' a' ↔ ((a : ℝ) ≤ 2 ^ b * u ∧ 2 ^ b * u < a + 1) ∧ ((a' : ℝ) ≤ 2 ^ b' * v ∧ 2 ^ b' * v < a' + 1) := by
  rw [mem_patch]
  constructor
  · rintro ⟨s, t, h1, h2, h3⟩
    obtain ⟨rfl, rfl⟩ := chordPoint_inj hu hv (share_bounds ha' h2) h3
    exact ⟨h1, h2⟩
  · rintro ⟨h1, h2⟩
    exact ⟨u, v, h1, h2, rfl⟩

/-- The patch as the image of a box, and perhaps the pole. -/
theorem measurable_patch {b a b' a' : Nat} (ha : a < 2 ^ b) (ha' : a' < 2 ^ b') : MeasurableSet (patch b a b' a') := by
  set B : Set (ℝ × ℝ) := {x | ((a : ℝ) ≤ 2 ^ b * x.1 ∧ 2 ^ b * x.1 < a + 1) ∧ ((a' : ℝ) ≤ 2 ^ b' * x.2 ∧ 2 ^ b' * x.2 < a' + 1)} with hB
  have hBm : MeasurableSet B := by
    have m1 : Measurable fun x : ℝ × ℝ => 2 ^ b * x.1 := by fun_prop
    have m2 : Measurable fun x : ℝ × ℝ => 2 ^ b' * x.2 := by fun_prop
    have : B = ({x : ℝ × ℝ | (a : ℝ) ≤ 2 ^ b * x.1} ∩ {x | 2 ^ b * x.1 < (a : ℝ) + 1}) ∩ ({x | (a' : ℝ) ≤ 2 ^ b' * x.2} ∩ {x | 2 ^ b' * x.2 < (a' : ℝ) + 1}) := rfl
    rw [this]
    exact ((measurableSet_le measurable_const m1).inter (measurableSet_lt m1 measurable_const)).inter
      ((measurableSet_le measurable_const m2).inter (measurableSet_lt m2 measurable_const))
  have hcont : Continuous fun x : ℝ × ℝ => chordPoint x.1 x.2 := by
    refine continuous_pi fun i => ?_
    fin_cases i
    · change Continuous fun x : ℝ × ℝ => Real.sqrt (1 - (1 - 2 * x.1) * (1 - 2 * x.1)) * Real.sin (2 * Real.pi * x.2)
      fun_prop
    · change Continuous fun x : ℝ × ℝ => 1 - 2 * x.1
      fun_prop
    · change Continuous fun x : ℝ × ℝ => Real.sqrt (1 - (1 - 2 * x.1) * (1 - 2 * x.1)) * Real.cos (2 * Real.pi * x.2)
      fun_prop
  have hmem : ∀ x ∈ B, x.1 ∈ Ico (0 : ℝ) 1 ∧ x.2 ∈ Ico (0 : ℝ) 1 := fun x hx => ⟨share_bounds ha hx.1, share_bounds ha' hx.2⟩
  have hpole : ∀ t, chordPoint 0 t = ![0, 1, 0] := by
    intro t
    simp [chordPoint]
  have hsplit : patch b a b' a' = (fun x : ℝ × ℝ => chordPoint x.1 x.2) '' (B ∩ {x | 0 < x.1}) ∪ (fun x : ℝ × ℝ => chordPoint x.1 x.2) '' (B ∩ {x | x.1 = 0}) := by
    rw [← image_union, ← inter_union_distrib_left]
    have : B ∩ ({x : ℝ × ℝ | 0 < x.1} ∪ {x | x.1 = 0}) = B := by
      refine inter_eq_left.2 fun x hx => ?_
      rcases (hmem x hx).1.1.lt_or_eq with h | h
      · exact .inl h
      · exact .inr h.symm
    rw [this]
    ext p
    rw [mem_patch]
    constructor
    · rintro ⟨s, t, h1, h2, h3⟩
      exact ⟨(s, t), ⟨h1, h2⟩, h3.symm⟩
    · rintro ⟨⟨s, t⟩, ⟨h1, h2⟩, h3⟩
      exact ⟨s, t, h1, h2, h3.symm⟩
  rw [hsplit]
  refine MeasurableSet.union ?_ ?_
  · refine (hBm.inter (measurableSet_lt measurable_const measurable_fst)).image_of_continuousOn_injOn hcont.continuousOn ?_
    rintro ⟨u, v⟩ ⟨hx, hp⟩ ⟨u', v'⟩ ⟨hy, _⟩ h
    obtain ⟨e1, e2⟩ := chordPoint_inj (u := u) (v := v) (u' := u') (v' := v') ⟨hp, (hmem _ hx).1.2⟩ (hmem _ hx).2 (hmem _ hy).2 h
    exact Prod.ext e1 e2
  · refine (Set.Subsingleton.measurableSet ?_)
    rintro _ ⟨⟨u, v⟩, ⟨_, hu⟩, rfl⟩ _ ⟨⟨u', v'⟩, ⟨_, hu'⟩, rfl⟩
    have hu0 : u = 0 := hu
    have hu0' : u' = 0 := hu'
    simp only [hu0, hu0', hpole]

theorem volume_share {b a : Nat} (ha : a < 2 ^ b) : volume (Ioo (0 : ℝ) 1 ∩ {s | (a : ℝ) ≤ 2 ^ b * s ∧ 2 ^ b * s < a + 1}) = ENNReal.ofReal (1 / 2 ^ b) := by
  have hp : (0 : ℝ) < 2 ^ b := by positivity
  have hset : {s : ℝ | (a : ℝ) ≤ 2 ^ b * s ∧ 2 ^ b * s < a + 1} = Ico ((a : ℝ) / 2 ^ b) ((a + 1) / 2 ^ b) := by
    ext s
    simp only [Set.mem_ofPred_eq, mem_Ico, div_le_iff₀ hp, lt_div_iff₀ hp, mul_comm s]
  have hae : (Ioo (0 : ℝ) 1 ∩ Ico ((a : ℝ) / 2 ^ b) ((a + 1) / 2 ^ b) : Set ℝ) =ᵐ[volume] (Ico (0 : ℝ) 1 ∩ Ico ((a : ℝ) / 2 ^ b) ((a + 1) / 2 ^ b) : Set ℝ) :=
    Ioo_ae_eq_Ico.inter (ae_eq_refl _)
  have hsub : Ico ((a : ℝ) / 2 ^ b) ((a + 1) / 2 ^ b) ⊆ Ico (0 : ℝ) 1 := by
    intro s hs
    refine share_bounds ha ?_
    rw [← hset] at hs
    exact hs
  rw [hset, measure_congr hae, inter_eq_right.2 hsub, Real.volume_Ico]
  congr 1
  ring

theorem square_patch {b a b' a' : Nat} (ha : a < 2 ^ b) (ha' : a' < 2 ^ b') : volume (square (patch b a b' a')) = ENNReal.ofReal (1 / 2 ^ (b + b')) := by
  have hset : square (patch b a b' a') = univ.pi fun i : Fin 2 => Ioo (0 : ℝ) 1 ∩
      {s | ((![a, a'] i : Nat) : ℝ) ≤ 2 ^ (![b, b'] i) * s ∧ 2 ^ (![b, b'] i) * s < ((![a, a'] i : Nat) : ℝ) + 1} := by
    ext p
    simp only [square, mem_inter_iff, mem_preimage, mem_univ_pi, Fin.forall_fin_two, Matrix.cons_val_zero, Matrix.cons_val_one, Set.mem_ofPred_eq]
    constructor
    · rintro ⟨⟨h0, h1⟩, h2⟩
      rw [← chordPoint_eq h0.1.le h0.2.le, chordPoint_mem ha' h0 ⟨h1.1.le, h1.2⟩] at h2
      exact ⟨⟨h0, h2.1⟩, ⟨h1, h2.2⟩⟩
    · rintro ⟨⟨h0, h2⟩, ⟨h1, h3⟩⟩
      refine ⟨⟨h0, h1⟩, ?_⟩
      rw [← chordPoint_eq h0.1.le h0.2.le, chordPoint_mem ha' h0 ⟨h1.1.le, h1.2⟩]
      exact ⟨h2, h3⟩
  rw [hset, volume_pi, Measure.pi_pi, Fin.prod_univ_two]
  simp only [Matrix.cons_val_zero, Matrix.cons_val_one]
  rw [volume_share ha, volume_share ha', ← ENNReal.ofReal_mul (by positivity)]
  congr 1
  rw [pow_add]
  ring

/-! ## The engine -/

/-- A 64-bit engine with all values. -/
def engWord : EngInfo := ⟨⟨64, false⟩, 0, 2 ^ 64 - 1⟩

theorem uniform01_exact {x : Nat} (hx : x < 2 ^ 64) (xs : List Int) : uniform01 id engWord ((x : Int) :: xs) = .done ((x : ℚ) / 2 ^ 64) xs := by
  have h1 : subTy engWord.ty engWord.max engWord.min = some (2 ^ 64 - 1) := by decide
  have h2 : subTy engWord.ty (x : Int) engWord.min = some (x : Int) := by
    simp only [subTy, engWord, Bool.false_eq_true, if_false, sub_zero]
    congr 1
    exact Int.emod_eq_of_lt (by omega) (by exact_mod_cast hx)
  have h3 : (x : ℚ) / 2 ^ 64 < 1 := by
    rw [div_lt_one (by positivity)]
    exact_mod_cast hx
  unfold uniform01
  rw [h1, h2]
  have e : ((x : Int) : ℚ) * (1 / (((2 ^ 64 - 1 : Int) : ℚ) + 1)) = (x : ℚ) / 2 ^ 64 := by
    push_cast
    norm_num
    rw [mul_one_div]
  simp only [id, e, h3, if_true]

theorem points_exact : ∀ (n : Nat) (vs : List Nat), (∀ x ∈ vs, x < 2 ^ 64) → 2 * n ≤ vs.length →
    ∃ ps, points id engWord n (vs.map fun (x : Nat) => (x : Int)) = .done ps ((vs.drop (2 * n)).map fun (x : Nat) => (x : Int)) ∧ ps.length = n ∧
      ∀ k < n, ps.getD k 0 = chordPoint ((vs.getD (2 * k) 0 : ℝ) / 2 ^ 64) ((vs.getD (2 * k + 1) 0 : ℝ) / 2 ^ 64) := by
  intro n
  induction n with
  | zero => intro vs _ _; exact ⟨[], rfl, rfl, by omega⟩
  | succ n ih =>
    intro vs hv hl
    match vs, hv, hl with
    | [], _, hl => simp at hl
    | [_], _, hl => simp only [List.length_singleton] at hl; omega
    | x :: y :: vs, hv, hl =>
      obtain ⟨ps, h1, h2, h3⟩ := ih vs (fun z hz => hv z (by simp [hz])) (by simp only [List.length_cons] at hl; omega)
      refine ⟨chordPoint ((x : ℝ) / 2 ^ 64) ((y : ℝ) / 2 ^ 64) :: ps, ?_, by simp [h2], ?_⟩
      · unfold points
        simp only [List.map_cons]
        rw [uniform01_exact (hv x (by simp))]
        dsimp only [Draw.bind]
        rw [uniform01_exact (hv y (by simp))]
        dsimp only [Draw.bind]
        rw [h1]
        dsimp only [Draw.bind]
        rw [show 2 * (n + 1) = 2 * n + 1 + 1 by ring, List.drop_succ_cons, List.drop_succ_cons]
        congr 2
        push_cast
        rfl
      · intro k hk
        match k, hk with
        | 0, _ => simp
        | k + 1, hk =>
          have := h3 k (by omega)
          rw [show 2 * (k + 1) = 2 * k + 1 + 1 by ring]
          simpa using this

theorem measurable_chordPoint : Measurable fun p : Fin 2 → ℝ => chordPoint (p 0) (p 1) := by
  refine measurable_pi_lambda _ fun i => ?_
  fin_cases i
  · change Measurable fun p : Fin 2 → ℝ => Real.sqrt (1 - (1 - 2 * p 0) * (1 - 2 * p 0)) * Real.sin (2 * Real.pi * p 1)
    fun_prop
  · change Measurable fun p : Fin 2 → ℝ => 1 - 2 * p 0
    fun_prop
  · change Measurable fun p : Fin 2 → ℝ => Real.sqrt (1 - (1 - 2 * p 0) * (1 - 2 * p 0)) * Real.cos (2 * Real.pi * p 1)
    fun_prop

theorem word_Ico {x : Nat} (hx : x < 2 ^ 64) : (x : ℝ) / 2 ^ 64 ∈ Ico (0 : ℝ) 1 :=
  ⟨by positivity, by rw [div_lt_one (by positivity)]; exact_mod_cast hx⟩

theorem word_Ioo {x : Nat} (h0 : x ≠ 0) (hx : x < 2 ^ 64) : (x : ℝ) / 2 ^ 64 ∈ Ioo (0 : ℝ) 1 := by
  refine ⟨?_, (word_Ico hx).2⟩
  have : 0 < x := by omega
  positivity

/-- A number of 64 bits lies in the part that its leading bits say. -/
theorem word_share {b a x : Nat} (hb : b ≤ 64) : ((a : ℝ) ≤ 2 ^ b * ((x : ℝ) / 2 ^ 64) ∧ 2 ^ b * ((x : ℝ) / 2 ^ 64) < a + 1) ↔ x / 2 ^ (64 - b) = a := by
  obtain ⟨c, hc⟩ : ∃ c, 64 = b + c := ⟨64 - b, by omega⟩
  have e : (2 : ℝ) ^ b * ((x : ℝ) / 2 ^ 64) = x / 2 ^ c := by
    rw [hc, pow_add]
    field_simp
  have hp : (0 : ℝ) < 2 ^ c := by positivity
  rw [e, show 64 - b = c by omega, le_div_iff₀ hp, div_lt_iff₀ hp, Nat.div_eq_iff (Nat.two_pow_pos c)]
  have h1 : (a : ℝ) * 2 ^ c ≤ x ↔ a * 2 ^ c ≤ x := by exact_mod_cast Iff.rfl
  have h2 : (x : ℝ) < (a + 1) * 2 ^ c ↔ x < (a + 1) * 2 ^ c := by exact_mod_cast Iff.rfl
  rw [h1, h2, Nat.add_mul]
  have := Nat.two_pow_pos c
  omega

theorem digital_lt {dim : Nat} {e : Nat → Nat} {vs : List Nat} (S : IsDigitalSequence 64 dim e vs) : ∀ n < 2 ^ 64, ∀ d < dim, pointOf dim vs n d < 2 ^ 64 := by
  intro n hn d hd
  have h := S (fun _ => 0) (fun _ => 0) 64 0 (le_refl _) (by omega) (by simp) (fun _ _ => by simp)
  have hs : ∑ d ∈ Finset.range dim, (fun _ => 0) d * e d = 0 := by simp
  rw [hs, Nat.sub_zero] at h
  have h' : (inBox 64 dim vs 64 0 (fun d => (fun _ => 0) d * e d) fun _ => 0) = Finset.range (2 ^ 64) :=
    Finset.eq_of_subset_of_card_le (Finset.filter_subset _ _) (by rw [h, Finset.card_range])
  have hmem : n ∈ inBox 64 dim vs 64 0 (fun d => (fun _ => 0) d * e d) fun _ => 0 := by rw [h']; exact Finset.mem_range.2 hn
  rw [inBox, Finset.mem_filter] at hmem
  have := hmem.2 d hd
  rw [Nat.zero_mul, Nat.zero_add, Nat.zero_mul, Nat.sub_zero] at this
  exact (Nat.div_eq_zero_iff_lt (by positivity)).1 this

/-- A coordinate whose degree divides 64 takes every value once. -/
theorem digital_once {dim : Nat} {e : Nat → Nat} {vs : List Nat} (S : IsDigitalSequence 64 dim e vs) (hlt : ∀ n < 2 ^ 64, ∀ d < dim, pointOf dim vs n d < 2 ^ 64)
    {d : Nat} (hd : d < dim) (he : e d ∣ 64) {a : Nat} (ha : a < 2 ^ 64) : ((Finset.range (2 ^ 64)).filter fun n => pointOf dim vs n d = a).card = 1 := by
  have hs : ∑ i ∈ Finset.range dim, (if i = d then 64 / e d else 0) * e i = 64 := by
    rw [Finset.sum_eq_single d (fun i _ hi => by rw [if_neg hi, Nat.zero_mul]) (fun h => absurd (Finset.mem_range.2 hd) h), if_pos rfl, Nat.div_mul_cancel he]
  have h := S (fun i => if i = d then 64 / e d else 0) (fun i => if i = d then a else 0) 64 0 (le_refl _) (by omega) hs.le (fun i _ => by
    by_cases hi : i = d
    · subst hi
      simp only [if_true]
      rw [Nat.div_mul_cancel he]
      exact ha
    · simp only [if_neg hi, Nat.zero_mul, Nat.pow_zero]
      decide)
  rw [hs, Nat.sub_self, Nat.pow_zero] at h
  rw [← h]
  refine congrArg Finset.card (Finset.filter_congr fun n hn => ?_)
  rw [Finset.mem_range] at hn
  rw [Nat.zero_mul, Nat.zero_add]
  constructor
  · intro hv i hi
    by_cases hid : i = d
    · subst hid
      simp only [if_true]
      rw [Nat.div_mul_cancel he, Nat.sub_self, Nat.pow_zero, Nat.div_one, hv]
    · simp only [if_neg hid]
      rw [Nat.zero_mul, Nat.sub_zero]
      exact Nat.div_eq_of_lt (hlt n hn i hi)
  · intro hv
    have := hv d hd
    simp only [if_true] at this
    rwa [Nat.div_mul_cancel he, Nat.sub_self, Nat.pow_zero, Nat.div_one] at this

theorem qCalls_length {L α : Type} {D : Qrng.Derived L α} : ∀ {n : Nat} {q q' : Qrng.Q L α} {vs : List α}, qCalls D n q = .ok (vs, q') → vs.length = n := by
  intro n
  induction n with
  | zero =>
    intro q q' vs h
    rw [qCalls] at h
    cases h
    rfl
  | succ n ih =>
    intro q q' vs h
    rw [qCalls] at h
    match hn : Qrng.next D q with
    | .throw => rw [hn] at h; cases h
    | .ub => rw [hn] at h; cases h
    | .ok r =>
      rw [hn] at h
      dsimp only [Qrng.Res.bind] at h
      match hc : qCalls D n r.2 with
      | .throw => rw [hc] at h; cases h
      | .ub => rw [hc] at h; cases h
      | .ok s =>
        rw [hc] at h
        cases h
        rw [List.length_cons, ih (vs := s.1) (q' := s.2) hc]

/-- The greatest value is rounded to 1 and rejected. -/
theorem uniform01_top {fl : ℚ → ℚ} (H : Nearest 53 fl) (xs : List Int) : uniform01 fl engWord (((2 ^ 64 - 1 : Nat) : Int) :: xs) = uniform01 fl engWord xs := by
  have R := Nearest.rounding H
  have r1 : Representable 53 (1 : ℚ) := ⟨1, 0, by norm_num, by norm_num⟩
  have r64 : Representable 53 (2 ^ 64 : ℚ) := ⟨1, 64, by norm_num, by norm_num⟩
  have ri : Representable 53 (1 / 2 ^ 64 : ℚ) := ⟨1, -64, by norm_num, by norm_num⟩
  have e1 : fl (2 ^ 64 - 1) = 2 ^ 64 := Nearest.close H r64 (by norm_num)
  have e2 : fl (2 ^ 64 + 1) = 2 ^ 64 := Nearest.close H r64 (by norm_num)
  have h1 : subTy engWord.ty engWord.max engWord.min = some (2 ^ 64 - 1) := by decide
  have h2 : subTy engWord.ty ((2 ^ 64 - 1 : Nat) : Int) engWord.min = some (2 ^ 64 - 1) := by decide
  conv_lhs => unfold uniform01
  rw [h1, h2]
  have e3 : (((2 ^ 64 - 1 : Int)) : ℚ) = 2 ^ 64 - 1 := by norm_num
  simp only [e3, e1, R.exact 1 r1, e2, R.exact _ ri]
  rw [show (2 ^ 64 : ℚ) * (1 / 2 ^ 64) = 1 by norm_num, R.exact 1 r1, if_neg (lt_irrefl 1)]

end Boost.Random.Intersections
