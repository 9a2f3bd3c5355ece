import Verif.Proofs.Chords
import Verif.Proofs.DistText
import Verif.Props.Niederreiter
import Verif.Props.Sphere

/-!
# Property C163: the points of example/intersections.cpp
-/

namespace Boost.Random
open Spec Qrng Nb RealDist Intersections MeasureTheory
open scoped ENNReal

/-! ## The formula -/

/-- C163: of two independent numbers, uniform in `[0, 1)`, the program makes a point that is uniformly distributed on the unit sphere. -/
theorem c163_law (k : Nat) (A : Set (Fin 3 → ℝ)) (hA : MeasurableSet A) :
    chance (2 + k) (fun l => chordPoint (l.getD 0 0) (l.getD 1 0) ∈ A) = sphereLaw 3 A := by
  have hm := measurable_chordPoint
  have h1 : chance (2 + k) (fun l => chordPoint (l.getD 0 0) (l.getD 1 0) ∈ A) =
      (Measure.pi fun _ : Fin 2 => unitM) ((fun p : Fin 2 → ℝ => chordPoint (p 0) (p 1)) ⁻¹' A) :=
    Sphere.chance_pi (hm hA) fun x l => by simp [List.ofFn_succ]
  have h2 : (Measure.pi fun _ : Fin 2 => unitM) = (volume : Measure (Fin 2 → ℝ)).restrict (Set.univ.pi fun _ => Set.Ioo (0 : ℝ) 1) := by
    rw [volume_pi, Measure.restrict_pi_pi, unitM_Ioo]
  have h3 : (fun p : Fin 2 → ℝ => chordPoint (p 0) (p 1)) ⁻¹' A ∩ (Set.univ.pi fun _ => Set.Ioo (0 : ℝ) 1) = square A := by
    ext p
    rw [square, Set.inter_comm, Set.mem_inter_iff, Set.mem_inter_iff]
    refine and_congr_right fun hp => ?_
    rw [Set.mem_preimage, Set.mem_preimage, chordPoint_eq (hp 0 trivial).1.le (hp 0 trivial).2.le]
  rw [h1, h2, Measure.restrict_apply (hm hA), h3, square_law hA]
  have hQ : (!![1, 0, 0; 0, 0, 1; 0, 1, 0] : Matrix (Fin 3) (Fin 3) ℝ) ∈ Matrix.orthogonalGroup (Fin 3) ℝ := by
    rw [Matrix.mem_orthogonalGroup_iff]
    ext i j
    fin_cases i <;> fin_cases j <;> simp [Matrix.mul_apply, Fin.sum_univ_three]
  have h4 := (c109_spec 3).2.2 _ hQ A
  rw [← h4]
  congr 1
  ext x
  have : turned x = (!![1, 0, 0; 0, 0, 1; 0, 1, 0] : Matrix (Fin 3) (Fin 3) ℝ).mulVec x := by
    funext i
    fin_cases i <;> simp [turned, Matrix.mulVec, dotProduct, Fin.sum_univ_three]
  rw [Set.mem_preimage, this]
  rfl

/-- The northern half. -/
example : chance 2 (fun l => chordPoint (l.getD 0 0) (l.getD 1 0) ∈ {x : Fin 3 → ℝ | 0 < x 1}) = sphereLaw 3 {x | 0 < x 1} :=
  c163_law 0 _ (measurableSet_lt measurable_const (measurable_pi_apply 1))

/-- C163: a patch, of `2^b` zones and `2^b'` sectors, has the corresponding share of the sphere (Archimedes). -/
theorem c163_patch (b a b' a' : Nat) (ha : a < 2 ^ b) (ha' : a' < 2 ^ b') : sphereLaw 3 (patch b a b' a') = ENNReal.ofReal (1 / 2 ^ (b + b')) := by
  have h := c163_law 0 _ (measurable_patch ha ha')
  rw [← h, ← square_patch ha ha']
  have hm := measurable_chordPoint
  have h1 : chance (2 + 0) (fun l => chordPoint (l.getD 0 0) (l.getD 1 0) ∈ patch b a b' a') =
      (Measure.pi fun _ : Fin 2 => unitM) ((fun p : Fin 2 → ℝ => chordPoint (p 0) (p 1)) ⁻¹' patch b a b' a') :=
    Sphere.chance_pi (hm (measurable_patch ha ha')) fun x l => by simp [List.ofFn_succ]
  have h2 : (Measure.pi fun _ : Fin 2 => unitM) = (volume : Measure (Fin 2 → ℝ)).restrict (Set.univ.pi fun _ => Set.Ioo (0 : ℝ) 1) := by
    rw [volume_pi, Measure.restrict_pi_pi, unitM_Ioo]
  rw [h1, h2, Measure.restrict_apply (hm (measurable_patch ha ha'))]
  congr 1
  ext p
  rw [square, Set.inter_comm, Set.mem_inter_iff, Set.mem_inter_iff]
  refine and_congr_right fun hp => ?_
  rw [Set.mem_preimage, Set.mem_preimage, chordPoint_eq (hp 0 trivial).1.le (hp 0 trivial).2.le]

/-- An octant. -/
example : sphereLaw 3 (patch 1 0 2 3) = ENNReal.ofReal (1 / 2 ^ 3) := c163_patch 1 0 2 3 (by norm_num) (by norm_num)

/-! ## The program -/

/-- C163: on every engine, under every rounding in `uniform_01`, there is no undefined behaviour, and the program makes as many points as asked for,
all on the unit sphere. -/
theorem c163_sphere (digits : Nat) (fl : ℚ → ℚ) (H : Rounding digits fl) (E : EngInfo) (hE : EngOK E) (hD : DiffOK E) (n : Nat) :
    ∀ xs, Outputs E xs → points fl E n xs ≠ .ub ∧ ∀ ps rest, points fl E n xs = .done ps rest → ps.length = n ∧ ∀ p ∈ ps, ∑ i, p i ^ 2 = 1 := by
  induction n with
  | zero =>
    intro xs _
    refine ⟨by rintro ⟨⟩, ?_⟩
    rintro ps rest h
    cases h
    exact ⟨rfl, by simp⟩
  | succ n ih =>
    intro xs hO
    unfold points
    obtain ⟨a1, a2⟩ := uniform01_range H hE hD xs hO
    match hu : uniform01 fl E xs with
    | .ub => exact absurd hu a1
    | .more => exact ⟨by rintro ⟨⟩, by rintro _ _ ⟨⟩⟩
    | .done u xs' =>
      obtain ⟨u0, u1, -, usuf⟩ := a2 u xs' hu
      have hO' : Outputs E xs' := fun z hz => hO z (usuf.subset hz)
      obtain ⟨b1, b2⟩ := uniform01_range H hE hD xs' hO'
      dsimp only [Draw.bind]
      match hv : uniform01 fl E xs' with
      | .ub => exact absurd hv b1
      | .more => exact ⟨by rintro ⟨⟩, by rintro _ _ ⟨⟩⟩
      | .done v xs'' =>
        obtain ⟨-, -, -, vsuf⟩ := b2 v xs'' hv
        obtain ⟨c1, c2⟩ := ih xs'' fun z hz => hO' z (vsuf.subset hz)
        dsimp only
        match hp : points fl E n xs'' with
        | .ub => exact absurd hp c1
        | .more => exact ⟨by rintro ⟨⟩, by rintro _ _ ⟨⟩⟩
        | .done ps rest =>
          obtain ⟨d1, d2⟩ := c2 ps rest hp
          refine ⟨by rintro ⟨⟩, ?_⟩
          rintro _ _ ⟨⟩
          refine ⟨by simp [d1], fun p hp' => ?_⟩
          rcases List.mem_cons.1 hp' with rfl | hp'
          · exact chordPoint_norm (by exact_mod_cast u0) (by exact_mod_cast u1.le)
          · exact d2 p hp'

/-- On a Mersenne Twister. -/
example (xs : List Int) (h : Outputs engMt xs) : points (rn 53) engMt 100 xs ≠ .ub :=
  (c163_sphere 53 _ (Nearest.rounding (rn_nearest (by decide))) engMt engMt_ok (fun h => by cases h) 100 xs h).1

/-- The points that the engine of the program returns, from its constructor on until it throws. -/
theorem gen_values : ∃ q vs q', make (niederreiter 64 64 defaultNbTable) 4 = .ok q ∧ qCalls (niederreiter 64 64 defaultNbTable) ((2 ^ 64 - 1) * 4) q = .ok (vs, q') ∧
    next (niederreiter 64 64 defaultNbTable) q' = .throw ∧ vs.length = (2 ^ 64 - 1) * 4 ∧
    (∀ n < 2 ^ 64, ∀ d < 4, pointOf 4 vs n d < 2 ^ 64) ∧
    (∀ d < 3, ∀ a < 2 ^ 64, ((Finset.range (2 ^ 64)).filter fun n => pointOf 4 vs n d = a).card = 1) ∧ IsTsSequence 64 4 3 vs := by
  obtain ⟨q, vs, q', k1, k2, k3, k4⟩ := c66_niederreiter_base2 (dim := 4) (by decide) (by decide)
  have hlen := qCalls_length k2
  have hdeg : ∀ d < 4, (ofNat (defaultNbTable.polynomial d)).natDegree = [1, 1, 2, 3].getD d 0 := by
    intro d hd
    have h : d = 0 ∨ d = 1 ∨ d = 2 ∨ d = 3 := by omega
    rcases h with rfl | rfl | rfl | rfl
    · rw [show defaultNbTable.polynomial 0 = 2 by decide +kernel, (natDegree_ofNat (by decide)).1]; decide
    · rw [show defaultNbTable.polynomial 1 = 3 by decide +kernel, (natDegree_ofNat (by decide)).1]; decide
    · rw [show defaultNbTable.polynomial 2 = 7 by decide +kernel, (natDegree_ofNat (by decide)).1]; decide
    · rw [show defaultNbTable.polynomial 3 = 11 by decide +kernel, (natDegree_ofNat (by decide)).1]; decide
  have hlt := digital_lt k4
  refine ⟨q, vs, q', k1, k2, k3, hlen, hlt, fun d hd a ha => ?_, ?_⟩
  · refine digital_once k4 hlt (by omega) ?_ ha
    rw [hdeg d (by omega)]
    have h : d = 0 ∨ d = 1 ∨ d = 2 := by omega
    rcases h with rfl | rfl | rfl <;> decide
  · have h := Nets.ts_of_digital (fun d hd => ?_) k4
    · rwa [show ∑ d ∈ Finset.range 4, ((ofNat (defaultNbTable.polynomial d)).natDegree - 1) = 3 from ?_] at h
      rw [Finset.sum_congr rfl fun d hd => by rw [hdeg d (Finset.mem_range.1 hd)]]
      decide
    · have hirr : Irreducible (ofNat (defaultNbTable.polynomial d)) := (table_iff (table_lt d)).1 ⟨d, by omega, rfl⟩
      exact hirr.natDegree_pos

open Classical in
/-- C163: in exact arithmetic the program, for any number `n` of points that the engine has values for, makes point `2 k` of the first two and point
`2 k + 1` of the last two coordinates of point `k + 1` of the sequence; in every aligned block of `2^M` points of the sequence, of the first and the
second points made of them, the share that lies in two patches is exactly the share of these patches of the sphere, for all patches in which the
numbers of zones and sectors are powers of two whose product is at most `2^(M-3)`. -/
theorem c163_net : ∃ q vs q', make (niederreiter 64 64 defaultNbTable) 4 = .ok q ∧ qCalls (niederreiter 64 64 defaultNbTable) ((2 ^ 64 - 1) * 4) q = .ok (vs, q') ∧
    next (niederreiter 64 64 defaultNbTable) q' = .throw ∧
    ∀ n ≤ 2 * (2 ^ 64 - 1), ∃ ps, points id engWord n (vs.map fun (x : Nat) => (x : Int)) = .done ps ((vs.drop (2 * n)).map fun (x : Nat) => (x : Int)) ∧ ps.length = n ∧
      (∀ k < n, ps.getD k 0 = chordPoint ((vs.getD (2 * k) 0 : ℝ) / 2 ^ 64) ((vs.getD (2 * k + 1) 0 : ℝ) / 2 ^ 64)) ∧
      ∀ (M c : Nat) (b a : Nat → Nat), M ≤ 64 → 1 ≤ c → 2 * ((c + 1) * 2 ^ M - 1) ≤ n → 3 + (b 0 + b 1 + b 2 + b 3) ≤ M → (∀ d < 4, a d < 2 ^ b d) →
        ((Finset.range (2 ^ M)).filter fun i => ps.getD (2 * (c * 2 ^ M + i - 1)) 0 ∈ patch (b 0) (a 0) (b 1) (a 1) ∧
          ps.getD (2 * (c * 2 ^ M + i - 1) + 1) 0 ∈ patch (b 2) (a 2) (b 3) (a 3)).card = 2 ^ (M - (b 0 + b 1 + b 2 + b 3)) := by
  obtain ⟨q, vs, q', k1, k2, k3, k4, k5, k6, k7⟩ := gen_values
  refine ⟨q, vs, q', k1, k2, k3, fun n hn => ?_⟩
  have hvs : ∀ x ∈ vs, x < 2 ^ 64 := by
    intro x hx
    obtain ⟨j, hj, rfl⟩ := List.getElem_of_mem hx
    have := k5 (j / 4 + 1) (by omega) (j % 4) (by omega)
    rw [pointOf, if_neg (by omega), show (j / 4 + 1 - 1) * 4 + j % 4 = j by omega, List.getD_eq_getElem?_getD, List.getElem?_eq_getElem hj,
      Option.getD_some] at this
    exact this
  obtain ⟨ps, h1, h2, h3⟩ := points_exact n vs hvs (by rw [k4]; omega)
  refine ⟨ps, h1, h2, h3, fun M c b a hM hc hcn hb ha => ?_⟩
  have hp := Nat.two_pow_pos M
  have hcM : (c + 1) * 2 ^ M ≤ 2 ^ 64 := by
    have : 2 ^ M ≤ (c + 1) * 2 ^ M := Nat.le_mul_of_pos_left _ (by omega)
    omega
  have hnet := k7 b a M c hM hcM (by simpa [Finset.sum_range_succ] using hb) ha
  rw [show ∑ d ∈ Finset.range 4, b d = b 0 + b 1 + b 2 + b 3 by simp [Finset.sum_range_succ]] at hnet
  rw [← hnet]
  refine congrArg Finset.card (Finset.filter_congr fun i hi => ?_)
  rw [Finset.mem_range] at hi
  have hcM1 : 2 ^ M ≤ c * 2 ^ M := Nat.le_mul_of_pos_left _ (by omega)
  have hadd : (c + 1) * 2 ^ M = c * 2 ^ M + 2 ^ M := by ring
  have hm1 : 1 ≤ c * 2 ^ M + i := by omega
  have hm2 : c * 2 ^ M + i < 2 ^ 64 := by omega
  have hm3 : 2 * (c * 2 ^ M + i - 1) + 1 < n := by omega
  generalize c * 2 ^ M + i = m at *
  have hv : ∀ d, vs.getD (4 * (m - 1) + d) 0 = pointOf 4 vs m d := by
    intro d
    rw [pointOf, if_neg (by omega), Nat.mul_comm]
  rw [h3 _ (by omega), h3 _ (by omega), show 2 * (2 * (m - 1)) = 4 * (m - 1) + 0 by ring, show 4 * (m - 1) + 0 + 1 = 4 * (m - 1) + 1 by ring,
    show 2 * (2 * (m - 1) + 1) = 4 * (m - 1) + 2 by ring, show 4 * (m - 1) + 2 + 1 = 4 * (m - 1) + 3 by ring, hv, hv, hv, hv]
  have hne : ∀ d < 3, pointOf 4 vs m d ≠ 0 := by
    intro d hd h0
    have := k6 d hd 0 (by decide)
    rw [Finset.card_eq_one] at this
    obtain ⟨x, hx⟩ := this
    have e1 : m ∈ ({x} : Finset Nat) := by rw [← hx, Finset.mem_filter]; exact ⟨Finset.mem_range.2 hm2, h0⟩
    have e2 : 0 ∈ ({x} : Finset Nat) := by rw [← hx, Finset.mem_filter]; exact ⟨Finset.mem_range.2 (by omega), rfl⟩
    rw [Finset.mem_singleton] at e1 e2
    omega
  rw [chordPoint_mem (ha 1 (by omega)) (word_Ioo (hne 0 (by omega)) (k5 m hm2 0 (by omega))) (word_Ico (k5 m hm2 1 (by omega))),
    chordPoint_mem (ha 3 (by omega)) (word_Ioo (hne 2 (by omega)) (k5 m hm2 2 (by omega))) (word_Ico (k5 m hm2 3 (by omega))),
    word_share (by omega), word_share (by omega), word_share (by omega), word_share (by omega)]
  constructor
  · rintro ⟨⟨e0, e1⟩, e2, e3⟩ d hd
    have h : d = 0 ∨ d = 1 ∨ d = 2 ∨ d = 3 := by omega
    rcases h with rfl | rfl | rfl | rfl
    · exact e0
    · exact e1
    · exact e2
    · exact e3
  · intro h
    exact ⟨⟨h 0 (by omega), h 1 (by omega)⟩, h 2 (by omega), h 3 (by omega)⟩

/-- Octants for the first and halves for the second point: 1024 points of the sequence, 64 of them for each choice. -/
example : (3 : Nat) + (1 + 2 + 1 + 0) ≤ 10 ∧ 2 ^ (10 - (1 + 2 + 1 + 0)) = 64 := by decide

/-- C163, with the rounding of a `double`: the sequence has a point whose first coordinate is rejected by the loop of `uniform_01`. There the next
coordinate takes its place, and from there on the points are no longer made of the pairs of coordinates they should be made of. -/
theorem c163_shift : ∃ q vs q', make (niederreiter 64 64 defaultNbTable) 4 = .ok q ∧ qCalls (niederreiter 64 64 defaultNbTable) ((2 ^ 64 - 1) * 4) q = .ok (vs, q') ∧
    next (niederreiter 64 64 defaultNbTable) q' = .throw ∧
    ∃ i < 2 ^ 64 - 1, vs.getD (4 * i) 0 = 2 ^ 64 - 1 ∧ ∀ fl, Nearest 53 fl →
      uniform01 fl engWord ((vs.drop (4 * i)).map fun (x : Nat) => (x : Int)) = uniform01 fl engWord ((vs.drop (4 * i + 1)).map fun (x : Nat) => (x : Int)) := by
  obtain ⟨q, vs, q', k1, k2, k3, k4, k5, k6, k7⟩ := gen_values
  refine ⟨q, vs, q', k1, k2, k3, ?_⟩
  have h := k6 0 (by omega) (2 ^ 64 - 1) (by omega)
  rw [Finset.card_eq_one] at h
  obtain ⟨m, hm⟩ := h
  have hmem : m ∈ (Finset.range (2 ^ 64)).filter fun n => pointOf 4 vs n 0 = 2 ^ 64 - 1 := by rw [hm]; exact Finset.mem_singleton_self m
  rw [Finset.mem_filter, Finset.mem_range] at hmem
  obtain ⟨h1, h2⟩ := hmem
  unfold pointOf at h2
  split at h2
  · omega
  · have hv : vs.getD (4 * (m - 1)) 0 = 2 ^ 64 - 1 := by rw [← h2, Nat.mul_comm]; rfl
    refine ⟨m - 1, by omega, hv, fun fl H => ?_⟩
    have hlt : 4 * (m - 1) < vs.length := by rw [k4]; omega
    rw [List.drop_eq_getElem_cons hlt, List.map_cons]
    have he : vs[4 * (m - 1)] = 2 ^ 64 - 1 := by
      rw [List.getD_eq_getElem?_getD, List.getElem?_eq_getElem hlt, Option.getD_some] at hv
      exact hv
    rw [he]
    exact uniform01_top H _

#guard uniform01 (rn 53) engWord [2 ^ 64 - 1, 2 ^ 63] = .done (1 / 2) []

end Boost.Random
