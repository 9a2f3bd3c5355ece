import Verif.Proofs.DiscrepancySeq
import Verif.Props.Niederreiter
import Verif.Props.SobolNet
import Verif.Props.Faure

/-!
# Property C164: the discrepancy of the points of the quasi-random engines

How many of the first points lie in a box `[0, y 0) × ... × [0, y (s-1))` differs from their number times the volume of the box by at most
`sequenceBound`, whatever the box: H. Niederreiter's bound for `(t,s)`-sequences.
-/

namespace Boost.Random
open Spec Qrng Nb Faure

/-- C164 for `sobol`: of the first `N` points that the engine makes, their coordinates divided by `2^64`. -/
theorem c164_sobol {dim : Nat} (h0 : 0 < dim) (hmax : dim ≤ 3667) :
    ∃ q vs q', make (sobol 64 64 defaultSobolTable) dim = .ok q ∧ qCalls (sobol 64 64 defaultSobolTable) ((2 ^ 64 - 1) * dim) q = .ok (vs, q') ∧
      ∀ (N w : Nat) (y : Nat → ℝ), N < 2 ^ 64 → N + 1 < 2 ^ w → (∀ d < dim, y d ∈ Set.Icc (0 : ℝ) 1) →
        |(inCorner dim N (fun i d => (vs.getD (i * dim + d) 0 : ℝ) / 2 ^ 64) y : ℝ) - N * ∏ d ∈ Finset.range dim, y d| ≤
          sequenceBound 2 (∑ d ∈ Finset.range dim, (sobolDegree defaultSobolTable d - 1)) dim w (N + 1) + 1 := by
  obtain ⟨q, vs, q', k1, k2, k3, k4⟩ := c143_sobol h0 hmax
  refine ⟨q, vs, q', k1, k2, fun N w y hN hw hy => Nets.ts_corner (Nets.ts_of_digital (fun d hd => ?_) k4) (Intersections.digital_lt k4) hN hw hy⟩
  unfold sobolDegree
  split
  · exact le_refl _
  · exact (Sobol.table_irreducible (by omega)).natDegree_pos

/-- C164 for `niederreiter_base2`. -/
theorem c164_niederreiter {dim : Nat} (h0 : 0 < dim) (hmax : dim ≤ 4720) :
    ∃ q vs q', make (niederreiter 64 64 defaultNbTable) dim = .ok q ∧ qCalls (niederreiter 64 64 defaultNbTable) ((2 ^ 64 - 1) * dim) q = .ok (vs, q') ∧
      ∀ (N w : Nat) (y : Nat → ℝ), N < 2 ^ 64 → N + 1 < 2 ^ w → (∀ d < dim, y d ∈ Set.Icc (0 : ℝ) 1) →
        |(inCorner dim N (fun i d => (vs.getD (i * dim + d) 0 : ℝ) / 2 ^ 64) y : ℝ) - N * ∏ d ∈ Finset.range dim, y d| ≤
          sequenceBound 2 (∑ d ∈ Finset.range dim, ((ofNat (defaultNbTable.polynomial d)).natDegree - 1)) dim w (N + 1) + 1 := by
  obtain ⟨q, vs, q', k1, k2, k3, k4⟩ := c66_niederreiter_base2 h0 hmax
  refine ⟨q, vs, q', k1, k2, fun N w y hN hw hy => Nets.ts_corner (Nets.ts_of_digital (fun d hd => ?_) k4) (Intersections.digital_lt k4) hN hw hy⟩
  have hirr : Irreducible (ofNat (defaultNbTable.polynomial d)) := (table_iff (table_lt d)).1 ⟨d, by omega, rfl⟩
  exact hirr.natDegree_pos

/-- C164 for `faure` in exact arithmetic: `t` is 0, the base is the least prime not below the dimension. -/
theorem c164_faure {digits : Nat} (h1 : 1 ≤ digits) (h64 : digits ≤ 64) {dim : Nat} (h0 : 0 < dim) (hdim : dim ≤ 1117) :
    ∃ q b, make (faure id digits faurePrime) dim = .ok q ∧ IsLeastPrime dim b ∧
      ∀ (vs : List ℚ) (q' : Q Binom ℚ) (N w : Nat) (y : Nat → ℝ), N ≤ 2 ^ digits → qCalls (faure id digits faurePrime) (N * dim) q = .ok (vs, q') →
        N < b ^ w → (∀ d < dim, y d ∈ Set.Icc (0 : ℝ) 1) →
        |(inCorner dim N (fun i d => ((vs.getD (i * dim + d) 0 : ℚ) : ℝ)) y : ℝ) - N * ∏ d ∈ Finset.range dim, y d| ≤ sequenceBound b 0 dim w N := by
  obtain ⟨q, b, k1, k2, k3⟩ := c72_net h1 h64 h0 hdim
  exact ⟨q, b, k1, k2, fun vs q' N w y hN hq hw hy => Nets.faure_corner k2.1.two_le h0 (k3 vs q' N hN hq) hw hy⟩

/-- The first million points in three dimensions. -/
example : ∃ q vs q', make (faure id 64 faurePrime) 3 = .ok q ∧ qCalls (faure id 64 faurePrime) (1000000 * 3) q = .ok (vs, q') ∧
    |(inCorner 3 1000000 (fun i d => ((vs.getD (i * 3 + d) 0 : ℚ) : ℝ)) (fun _ => 1 / 2) : ℝ) - 125000| ≤ 1800 := by
  obtain ⟨q, b, k1, k2, k3⟩ := c164_faure (digits := 64) (by decide) (by decide) (dim := 3) (by decide) (by decide)
  have hb : b = 3 := le_antisymm (k2.2.2 3 (by decide) (le_refl _)) k2.2.1
  obtain ⟨q0, e1, e2, e3⟩ := (c70_dimension id (digits := 64) (by decide) (by decide) 3).2 (by decide) (by decide)
  obtain ⟨⟨vs, q'⟩, hr⟩ := (c72_calls (by decide) (by decide) id (QReach.make e1) (1000000 * 3)).1 (by rw [e2, e3]; decide)
  have hq : q0 = q := by rw [k1] at e1; exact (Res.ok.inj e1).symm
  rw [hq] at hr
  refine ⟨q, vs, q', k1, hr, ?_⟩
  have h := k3 vs q' 1000000 13 (fun _ => 1 / 2) (by decide) hr (by rw [hb]; decide) (fun _ _ => by constructor <;> norm_num)
  rw [hb, show sequenceBound 3 0 3 13 1000000 = 1800 by decide +kernel, Finset.prod_range_succ, Finset.prod_range_succ, Finset.prod_range_one] at h
  rw [show ((1000000 : Nat) : ℝ) * (1 / 2 * (1 / 2) * (1 / 2)) = 125000 by norm_num] at h
  exact_mod_cast h

/-- The bound grows with the number of points like the power `s` of its logarithm: `w` is the number of digits of `N` in base `b`. -/
theorem c164_growth {b t s w N : Nat} (hb : 2 ≤ b) (hs : 0 < s) :
    sequenceBound b t s w N ≤ w * ((b - 1) * (b ^ t * ∑ i ∈ Finset.range s, w.choose i * (b - 1) ^ i)) := Nets.sequenceBound_le hb hs

/-- In three dimensions in base 3. -/
example : sequenceBound 3 0 3 7 2000 = 288 := by decide +kernel

/-- In two dimensions `t` is 0. -/
theorem two_degrees : ∑ d ∈ Finset.range 2, (sobolDegree defaultSobolTable d - 1) = 0 := by
  rw [Finset.sum_range_succ, Finset.sum_range_one]
  have h1 : defaultSobolTable.polynomial 0 = 3 := by decide +kernel
  have h2 : sobolDegree defaultSobolTable 1 = 1 := by
    unfold sobolDegree
    rw [if_neg (by decide), show 1 - 1 = 0 from rfl, h1, (natDegree_ofNat (by decide)).1]
    decide
  rw [h2]
  rfl

/-- The `sobol` engine in two dimensions: at most `w(w+1)/2 + 1` points too many or too few in any rectangle at zero. -/
theorem c164_two : ∃ q vs q', make (sobol 64 64 defaultSobolTable) 2 = .ok q ∧ qCalls (sobol 64 64 defaultSobolTable) ((2 ^ 64 - 1) * 2) q = .ok (vs, q') ∧
    ∀ (N w : Nat) (y : Nat → ℝ), N < 2 ^ 64 → N + 1 < 2 ^ w → (∀ d < 2, y d ∈ Set.Icc (0 : ℝ) 1) →
      |(inCorner 2 N (fun i d => (vs.getD (i * 2 + d) 0 : ℝ) / 2 ^ 64) y : ℝ) - N * (y 0 * y 1)| ≤ (w * (w + 1) / 2 + 1 : Nat) := by
  obtain ⟨q, vs, q', k1, k2, k3⟩ := c164_sobol (dim := 2) (by decide) (by decide)
  refine ⟨q, vs, q', k1, k2, fun N w y hN hw hy => ?_⟩
  have h := k3 N w y hN hw hy
  rw [two_degrees, Finset.prod_range_succ, Finset.prod_range_one] at h
  refine le_trans h ?_
  exact_mod_cast Nat.add_le_add_right Nets.sequenceBound_two 1

/-- Of its first thousand points at least 194 and at most 306 lie in the quarter of the square at zero. -/
example : ∃ q vs q', make (sobol 64 64 defaultSobolTable) 2 = .ok q ∧ qCalls (sobol 64 64 defaultSobolTable) ((2 ^ 64 - 1) * 2) q = .ok (vs, q') ∧
    inCorner 2 1000 (fun i d => (vs.getD (i * 2 + d) 0 : ℝ) / 2 ^ 64) (fun _ => 1 / 2) ∈ Set.Icc 194 306 := by
  obtain ⟨q, vs, q', k1, k2, k3⟩ := c164_two
  refine ⟨q, vs, q', k1, k2, ?_⟩
  have h := k3 1000 10 (fun _ => 1 / 2) (by decide) (by decide) (fun _ _ => by constructor <;> norm_num)
  revert h
  generalize inCorner 2 1000 (fun i d => (vs.getD (i * 2 + d) 0 : ℝ) / 2 ^ 64) (fun _ => 1 / 2) = n
  intro h
  rw [abs_le] at h
  norm_num at h
  have h1 : ((250 : Nat) : ℝ) ≤ (n + 56 : Nat) := by push_cast; exact h.1
  have := Nat.cast_le.1 h1
  exact ⟨by omega, h.2⟩

/-- A box that is large enough is not missed. -/
theorem c164_hit {dim : Nat} (h0 : 0 < dim) (hmax : dim ≤ 3667) :
    ∃ q vs q', make (sobol 64 64 defaultSobolTable) dim = .ok q ∧ qCalls (sobol 64 64 defaultSobolTable) ((2 ^ 64 - 1) * dim) q = .ok (vs, q') ∧
      ∀ (N w : Nat) (y : Nat → ℝ), N < 2 ^ 64 → N + 1 < 2 ^ w → (∀ d < dim, y d ∈ Set.Icc (0 : ℝ) 1) →
        (sequenceBound 2 (∑ d ∈ Finset.range dim, (sobolDegree defaultSobolTable d - 1)) dim w (N + 1) + 1 : ℝ) < N * ∏ d ∈ Finset.range dim, y d →
        ∃ i < N, ∀ d < dim, (vs.getD (i * dim + d) 0 : ℝ) / 2 ^ 64 < y d := by
  obtain ⟨q, vs, q', k1, k2, k3⟩ := c164_sobol h0 hmax
  refine ⟨q, vs, q', k1, k2, fun N w y hN hw hy hlt => ?_⟩
  have h := (abs_le.1 (k3 N w y hN hw hy)).1
  have hpos : (0 : ℝ) < inCorner dim N (fun i d => (vs.getD (i * dim + d) 0 : ℝ) / 2 ^ 64) y := by linarith
  obtain ⟨i, hi⟩ := Finset.card_pos.1 (by exact_mod_cast hpos : 0 < inCorner dim N (fun i d => (vs.getD (i * dim + d) 0 : ℝ) / 2 ^ 64) y)
  rw [Finset.mem_filter, Finset.mem_range] at hi
  exact ⟨i, hi.1, hi.2⟩

/-- The first thousand points in two dimensions do not miss the sixteenth of the square at zero. -/
example : ∃ q vs q', make (sobol 64 64 defaultSobolTable) 2 = .ok q ∧ qCalls (sobol 64 64 defaultSobolTable) ((2 ^ 64 - 1) * 2) q = .ok (vs, q') ∧
    ∃ i < 1000, ∀ d < 2, (vs.getD (i * 2 + d) 0 : ℝ) / 2 ^ 64 < 1 / 4 := by
  obtain ⟨q, vs, q', k1, k2, k3⟩ := c164_hit (dim := 2) (by decide) (by decide)
  refine ⟨q, vs, q', k1, k2, k3 1000 10 (fun _ => 1 / 4) (by decide) (by decide) (fun _ _ => by constructor <;> norm_num) ?_⟩
  rw [two_degrees, show sequenceBound 2 0 2 10 (1000 + 1) = 45 by decide +kernel, Finset.prod_range_succ, Finset.prod_range_one]
  norm_num

end Boost.Random
