import Verif.Proofs.SobolTableIrr
import Verif.Proofs.NetTs
import Verif.Props.Niederreiter

/-!
# Property C143: the points of the Sobol engine form nets
-/

namespace Boost.Random
open Spec Qrng Nb

/-- The degrees of the coordinates: 1 for the first, those of the polynomials of the table for the others. -/
noncomputable def sobolDegree (T : SobolTable) (d : Nat) : Nat := if d = 0 then 1 else (ofNat (T.polynomial (d - 1))).natDegree

/-- The engine with a table whose polynomials are irreducible, different from one another and from `x`, and whose initial values are odd and small
enough: all of its `2^w - 1` points, with the point zero in front, are a digital sequence with the degrees of the polynomials. -/
theorem c143_net {w digits : Nat} (h1 : 1 ≤ w) (h2 : w ≤ digits) (h3 : digits ≤ 64) {T : SobolTable} {dim : Nat} (h0 : 0 < dim) (hlt : dim < 2 ^ 63)
    (hmax : dim ≤ T.maxDimension) (hT : ∀ i, i + 1 < dim → GoodRow w digits T i) (hirr : ∀ i, i + 1 < dim → Irreducible (ofNat (T.polynomial i)) ∧ T.polynomial i ≠ 2)
    (hdist : ∀ i j, i + 1 < dim → j + 1 < dim → T.polynomial i = T.polynomial j → i = j) :
    ∃ q vs q', make (sobol w digits T) dim = .ok q ∧ qCalls (sobol w digits T) ((2 ^ w - 1) * dim) q = .ok (vs, q') ∧
      next (sobol w digits T) q' = .throw ∧ IsDigitalSequence w dim (sobolDegree T) vs := by
  obtain ⟨l, hl, hs⟩ := Sobol.sobolLattice_spec h1 h2 h0 hmax hT
  obtain ⟨q, vs, q', k1, k2, k3, k4⟩ := all_values (sobol_class h1 h2 h3 T) h0 hlt hl
  refine ⟨q, vs, q', k1, k2, k3, ?_⟩
  have hi : ∀ d < dim, Irreducible (ofNat (Sobol.coordPoly T d)) := by
    intro d hd
    by_cases hd0 : d = 0
    · rw [Sobol.coordPoly, if_pos hd0]
      exact (small_iff (by decide) (by decide)).2 ⟨(2, 1), by decide, rfl⟩
    · rw [Sobol.coordPoly, if_neg hd0]
      exact (hirr (d - 1) (by omega)).1
  have hdeg : ∀ d < dim, sobolDegree T d = (Sobol.coordPoly T d).log2 := by
    intro d hd
    rw [← (natDegree_ofNat (ofNat_poly (hi d hd)).1).1]
    unfold sobolDegree Sobol.coordPoly
    by_cases hd0 : d = 0
    · rw [if_pos hd0, if_pos hd0, (natDegree_ofNat (by decide)).1]; rfl
    · rw [if_neg hd0, if_neg hd0]
  have hd : ∀ d < dim, ∀ d' < dim, Sobol.coordPoly T d = Sobol.coordPoly T d' → d = d' := by
    intro d hd d' hd' h
    unfold Sobol.coordPoly at h
    by_cases a : d = 0
    · by_cases b : d' = 0
      · omega
      · rw [if_pos a, if_neg b] at h
        exact absurd h.symm (hirr (d' - 1) (by omega)).2
    · by_cases b : d' = 0
      · rw [if_neg a, if_pos b] at h
        exact absurd h (hirr (d - 1) (by omega)).2
      · rw [if_neg a, if_neg b] at h
        have := hdist (d - 1) (d' - 1) (by omega) (by omega) h
        omega
  intro k a M c hM hc hk ha
  have hsum : ∑ d ∈ Finset.range dim, k d * sobolDegree T d = ∑ d ∈ Finset.range dim, k d * (Sobol.coordPoly T d).log2 :=
    Finset.sum_congr rfl fun d hd => by rw [hdeg d (Finset.mem_range.1 hd)]
  rw [hsum] at hk ⊢
  have hnet := Sobol.net hs hi hd k (M := M) (c := c) hM hk a (fun d hd => by rw [← hdeg d hd]; exact ha d hd)
  rw [← hnet]
  refine congrArg Finset.card (Finset.filter_congr fun n hn => ?_)
  rw [Finset.mem_range] at hn
  refine forall_congr' fun d => imp_congr_right fun hd => ?_
  simp only [hdeg d hd]
  have hval : pointOf dim vs (c * 2 ^ M + n) d = xorSelect (fun r => l.getD (dim * r + d) 0) (grayCode (c * 2 ^ M + n)) w := by
    unfold pointOf
    by_cases hz : c * 2 ^ M + n = 0
    · rw [if_pos hz, hz]
      exact (xorSelect_zero _ w).symm
    · rw [if_neg hz]
      have hlt' : c * 2 ^ M + n < 2 ^ w := by rw [Nat.add_mul] at hc; omega
      rw [k4 (c * 2 ^ M + n - 1) (by omega) d hd, show c * 2 ^ M + n - 1 + 1 = c * 2 ^ M + n by omega]
  rw [hval]

/-- Four bits and three dimensions, with the polynomials `x`, `x + 1` and `x^2 + x + 1`. -/
example : ∃ q vs q', make (sobol 4 8 toyTable) 3 = .ok q ∧ qCalls (sobol 4 8 toyTable) ((2 ^ 4 - 1) * 3) q = .ok (vs, q') ∧
    next (sobol 4 8 toyTable) q' = .throw ∧ IsDigitalSequence 4 3 (sobolDegree toyTable) vs := by
  have hcase : ∀ i, i + 1 < 3 → i = 0 ∨ i = 1 := fun i hi => by omega
  refine c143_net (by decide) (by decide) (by decide) (by decide) (by decide) (by decide) (fun i hi => ?_) (fun i hi => ?_) (fun i j hi hj h => ?_)
  · rcases hcase i hi with rfl | rfl
    · refine ⟨by decide, by decide, by decide, ?_⟩
      intro k hk
      have hk : k < 1 := hk
      obtain rfl : k = 0 := by omega
      decide
    · refine ⟨by decide, by decide, by decide, ?_⟩
      intro k hk
      have hk : k < 2 := hk
      have : k = 0 ∨ k = 1 := by omega
      rcases this with rfl | rfl <;> decide
  · rcases hcase i hi with rfl | rfl
    · exact ⟨(small_iff (by decide) (by decide)).2 ⟨(3, 1), by decide, rfl⟩, by decide⟩
    · exact ⟨(small_iff (by decide) (by decide)).2 ⟨(7, 2), by decide, rfl⟩, by decide⟩
  · rcases hcase i hi with rfl | rfl <;> rcases hcase j hj with rfl | rfl <;> revert h <;> decide

/-- The points 8 to 15: one bit of the first, no bit of the second and two bits of the third coordinate, one point for each choice of the bits. -/
example : (match make (sobol 4 8 toyTable) 3 with
    | .ok q => match qOutputs (sobol 4 8 toyTable) 45 q with
      | some vs => decide (∀ x < 8, (inBox 4 3 vs 3 1 (fun d => [1, 0, 2].getD d 0) (fun d => [x / 4, 0, x % 4].getD d 0)).card = 1)
      | none => false
    | _ => false) = true := by decide +kernel

/-- The typedef `sobol`, in every dimension it supports. -/
theorem c143_sobol {dim : Nat} (h0 : 0 < dim) (hmax : dim ≤ 3667) :
    ∃ q vs q', make (sobol 64 64 defaultSobolTable) dim = .ok q ∧ qCalls (sobol 64 64 defaultSobolTable) ((2 ^ 64 - 1) * dim) q = .ok (vs, q') ∧
      next (sobol 64 64 defaultSobolTable) q' = .throw ∧ IsDigitalSequence 64 dim (sobolDegree defaultSobolTable) vs := by
  refine c143_net (by decide) (by decide) (by decide) h0 (by omega) hmax (fun i hi => defaultSobolTable_good (by decide) (by decide) (by omega)) (fun i hi => ?_) ?_
  · refine ⟨Sobol.table_irreducible (by omega), ?_⟩
    have := Sobol.table_ge (by omega : i < 3666)
    omega
  · intro i j hi hj h
    rcases Nat.lt_trichotomy i j with hlt | he | hgt
    · exact absurd h (Nat.ne_of_lt (Sobol.table_ascending hlt (by omega)))
    · exact he
    · exact absurd h (Nat.ne_of_gt (Sobol.table_ascending hgt (by omega)))

/-- Its points are a `(t,s)`-sequence in base 2; `t` is the sum of the degrees less one. -/
theorem c143_ts {dim : Nat} (h0 : 0 < dim) (hmax : dim ≤ 3667) :
    ∃ q vs q', make (sobol 64 64 defaultSobolTable) dim = .ok q ∧ qCalls (sobol 64 64 defaultSobolTable) ((2 ^ 64 - 1) * dim) q = .ok (vs, q') ∧
      next (sobol 64 64 defaultSobolTable) q' = .throw ∧
      IsTsSequence 64 dim (∑ d ∈ Finset.range dim, (sobolDegree defaultSobolTable d - 1)) vs := by
  obtain ⟨q, vs, q', k1, k2, k3, k4⟩ := c143_sobol h0 hmax
  refine ⟨q, vs, q', k1, k2, k3, Nets.ts_of_digital (fun d hd => ?_) k4⟩
  unfold sobolDegree
  split
  · exact le_refl _
  · exact (Sobol.table_irreducible (by omega)).natDegree_pos

/-- In two dimensions `t` is 0: the first two coordinates are distributed as evenly as is possible. -/
theorem c143_two : ∃ q vs q', make (sobol 64 64 defaultSobolTable) 2 = .ok q ∧ qCalls (sobol 64 64 defaultSobolTable) ((2 ^ 64 - 1) * 2) q = .ok (vs, q') ∧
    next (sobol 64 64 defaultSobolTable) q' = .throw ∧ IsTsSequence 64 2 0 vs := by
  obtain ⟨q, vs, q', k1, k2, k3, k4⟩ := c143_ts (dim := 2) (by decide) (by decide)
  refine ⟨q, vs, q', k1, k2, k3, ?_⟩
  have h : ∑ d ∈ Finset.range 2, (sobolDegree defaultSobolTable d - 1) = 0 := by
    rw [Finset.sum_range_succ, Finset.sum_range_one]
    have h1 : defaultSobolTable.polynomial 0 = 3 := by decide +kernel
    have h2 : sobolDegree defaultSobolTable 1 = 1 := by
      unfold sobolDegree
      rw [if_neg (by decide), show 1 - 1 = 0 from rfl, h1, (natDegree_ofNat (by decide)).1]
      decide
    rw [h2]
    rfl
  rwa [h] at k4

/-- The points 4 to 7 of the two-dimensional sequence in four bits: one in each square of side one half. -/
example : (match make (sobol 4 8 toyTable) 2 with
    | .ok q => match qOutputs (sobol 4 8 toyTable) 30 q with
      | some vs => decide (∀ x < 4, (inBox 4 2 vs 2 1 (fun _ => 1) (fun d => [x / 2, x % 2].getD d 0)).card = 1)
      | none => false
    | _ => false) = true := by decide +kernel

end Boost.Random
