import Verif.Proofs.LinearGrid

/-!
# Rounded midpoints and grids are close to the exact ones
-/

namespace Boost.Random
open Spec RealDist

theorem repr_half {p : Nat} {x : ℚ} (h : Representable p x) : Representable p (x / 2) := by
  obtain ⟨m, e, hm, rfl⟩ := h
  exact ⟨m, e - 1, hm, by rw [zpow_sub_one₀ (by norm_num)]; ring⟩

theorem repr_double {p : Nat} {x : ℚ} (h : Representable p x) : Representable p (2 * x) := by
  obtain ⟨m, e, hm, rfl⟩ := h
  exact ⟨m, e + 1, hm, by rw [zpow_add_one₀ (by norm_num)]; ring⟩

/-- One midpoint. -/
theorem midpoint_round {p : Nat} {fl : ℚ → ℚ} (hp : 1 ≤ p) (H : Nearest p fl) {a b : ℚ} (ha : Representable p a) (hb : Representable p b) (hab : a ≤ b) :
    a ≤ fl (fl (a + b) / 2) ∧ fl (fl (a + b) / 2) ≤ b ∧ |fl (fl (a + b) / 2) - (a + b) / 2| ≤ |a + b| / 2 / 2 ^ p := by
  have R := Nearest.rounding H
  have e : fl (fl (a + b) / 2) = fl (a + b) / 2 := R.exact _ (repr_half (H.repr _))
  have h1 := R.mono (2 * a) (a + b) (by linarith)
  rw [R.exact _ (repr_double ha)] at h1
  have h2 := R.mono (a + b) (2 * b) (by linarith)
  rw [R.exact _ (repr_double hb)] at h2
  have h3 := Faure.nearest_rel hp H (a + b)
  rw [e]
  refine ⟨by linarith, by linarith, ?_⟩
  rw [← sub_div, abs_div, abs_two, abs_sub_comm]
  calc |a + b - fl (a + b)| / 2 ≤ |a + b| / 2 ^ p / 2 := div_le_div_of_nonneg_right h3 (by norm_num)
    _ = _ := by ring

theorem midpointsRound_get {fl : ℚ → ℚ} : ∀ (l : List ℚ) (i : Nat) (a b : ℚ), l[i]? = some a → l[i + 1]? = some b →
    (midpointsRound fl l)[i]? = some (fl (fl (a + b) / 2))
  | [], _, _, _, h, _ => by simp at h
  | [_], _, _, _, _, h => by simp at h
  | x :: y :: l, 0, a, b, h1, h2 => by
    simp only [List.getElem?_cons_zero, Option.some.injEq, zero_add, List.getElem?_cons_succ] at h1 h2
    subst h1 h2
    rfl
  | x :: y :: l, i + 1, a, b, h1, h2 => by
    rw [List.getElem?_cons_succ] at h1 h2
    rw [midpointsRound, List.getElem?_cons_succ]
    exact midpointsRound_get (y :: l) i a b h1 h2

/-- The grid of `n` intervals. -/
theorem grid_round {p : Nat} {fl : ℚ → ℚ} (H : Nearest p fl) {n k : Nat} (hk : k < n) (hnp : 4 * n ≤ 2 ^ p) {xmin xmax M : ℚ} (h : xmin < xmax)
    (hM : |xmin| ≤ M) (hM' : |xmax| ≤ M) :
    let δ := fl (fl (xmax - xmin) / fl n)
    |fl (xmin + fl (fl k * δ)) - (xmin + k * ((xmax - xmin) / n))| ≤ 16 * M / 2 ^ p ∧
      |fl (fl (xmin + fl (fl k * δ)) + fl (δ / 2)) - (xmin + (k + 1 / 2) * ((xmax - xmin) / n))| ≤ 24 * M / 2 ^ p := by
  have hp : 2 ≤ p := by
    rcases Nat.lt_or_ge p 2 with h | h
    · interval_cases p <;> omega
    · exact h
  have R := Nearest.rounding H
  have Q := Discrete.rel_of_nearest (by omega) H
  have hq : (0 : ℚ) < n := by exact_mod_cast (show 0 < n by omega)
  have nat : ∀ k, k ≤ n → fl k = k := fun k hk => R.exact _ (Representable.natCast (by omega))
  intro δ
  have eδ : δ = fl (fl (xmax - xmin) / n) := by show fl (fl (xmax - xmin) / fl n) = _; rw [nat n le_rfl]
  have half : fl (δ / 2) = δ / 2 := R.exact _ (repr_half (by rw [eδ]; exact H.repr _))
  rw [nat k hk.le, half]
  obtain ⟨u, hu⟩ : ∃ u : ℚ, 1 / 2 ^ p = u := ⟨_, rfl⟩
  have e16 : 16 * M / 2 ^ p = 16 * M * u := by rw [← hu]; ring
  have e24 : 24 * M / 2 ^ p = 24 * M * u := by rw [← hu]; ring
  rw [e16, e24]
  rw [hu] at Q
  have hup := Q.pos
  have hu4 : u ≤ 1 / 4 := by
    rw [← hu]
    refine one_div_le_one_div_of_le (by norm_num) ?_
    have : 2 ^ 2 ≤ 2 ^ p := Nat.pow_le_pow_right (by norm_num) hp
    exact_mod_cast this
  rw [abs_le] at hM hM'
  obtain ⟨w, hw⟩ : ∃ w, xmax - xmin = w := ⟨_, rfl⟩
  have hw0 : 0 < w := by rw [← hw]; linarith
  have hwM : w ≤ 2 * M := by rw [← hw]; linarith
  have hM0 : 0 < M := by linarith
  rw [hw] at eδ ⊢
  -- the width of an interval
  obtain ⟨D, hD⟩ : ∃ D, fl w = D := ⟨_, rfl⟩
  have d1 := Q.rel w
  rw [hD, abs_of_pos hw0, abs_le] at d1
  have hD0 : 0 ≤ D := by rw [← hD]; exact Q.nonneg hw0.le
  rw [hD] at eδ
  obtain ⟨s, hs⟩ : ∃ s, w / n = s := ⟨_, rfl⟩
  have hs0 : 0 < s := by rw [← hs]; positivity
  have hks : k * s ≤ w := by
    rw [← hs, mul_div_assoc', div_le_iff₀ hq]
    have : (k : ℚ) ≤ n := by exact_mod_cast hk.le
    nlinarith
  have hsw : s ≤ w := by
    rw [← hs, div_le_iff₀ hq]
    have : (1 : ℚ) ≤ n := by exact_mod_cast (show 1 ≤ n by omega)
    nlinarith
  have hk0 : (0 : ℚ) ≤ k := by positivity
  have ds : |D / n - s| ≤ u * s := by
    rw [← hs, ← sub_div, abs_div, abs_of_pos hq, mul_div_assoc']
    refine div_le_div_of_nonneg_right ?_ hq.le
    rw [abs_le]
    constructor <;> linarith [d1.1, d1.2]
  rw [abs_le] at ds
  have d2 := Q.rel (D / n)
  rw [← eδ, abs_of_nonneg (show 0 ≤ D / n by positivity), abs_le] at d2
  have huu : u * (u * s) ≤ 1 / 4 * (u * s) := mul_le_mul_of_nonneg_right hu4 (by positivity)
  have dδ : |δ - s| ≤ 3 * u * s := by
    have : u * (D / n) ≤ u * (s + u * s) := mul_le_mul_of_nonneg_left (by linarith [ds.2]) hup
    have hus : 0 ≤ u * s := by positivity
    rw [abs_le]
    constructor <;> linarith [ds.1, ds.2, d2.1, d2.2]
  have hδ0 : 0 ≤ δ := by rw [eδ]; exact Q.nonneg (by positivity)
  rw [abs_le] at dδ
  have us : u * s ≤ u * w := mul_le_mul_of_nonneg_left hsw hup
  have uw : u * w ≤ u * (2 * M) := mul_le_mul_of_nonneg_left hwM hup
  have uM : 0 ≤ u * M := by positivity
  -- the product
  have kδ1 : k * δ ≤ k * s + 3 * u * (k * s) := by
    have := mul_le_mul_of_nonneg_left (show δ ≤ s + 3 * u * s by linarith [dδ.2]) hk0
    linarith
  have kδ2 : k * s - 3 * u * (k * s) ≤ k * δ := by
    have := mul_le_mul_of_nonneg_left (show s - 3 * u * s ≤ δ by linarith [dδ.1]) hk0
    linarith
  have uks : u * (k * s) ≤ u * w := mul_le_mul_of_nonneg_left hks hup
  have uks0 : 0 ≤ u * (k * s) := by positivity
  have y1 := Q.rel (k * δ)
  rw [abs_of_nonneg (show 0 ≤ k * δ by positivity), abs_le] at y1
  have ukδ : u * (k * δ) ≤ 2 * (u * w) := by
    have a1 := mul_le_mul_of_nonneg_left kδ1 hup
    have a2 : u * (u * (k * s)) ≤ 1 / 4 * (u * (k * s)) := mul_le_mul_of_nonneg_right hu4 uks0
    linarith
  obtain ⟨y, hy⟩ : ∃ y, fl (k * δ) = y := ⟨_, rfl⟩
  rw [hy] at y1 ⊢
  have dy : |y - k * s| ≤ 5 * (u * w) := by
    rw [abs_le]
    constructor <;> linarith [y1.1, y1.2]
  rw [abs_le] at dy
  have hmid : |xmin + k * s| ≤ M := by
    rw [abs_le]
    constructor
    · have : 0 ≤ k * s := by positivity
      linarith
    · linarith
  rw [abs_le] at hmid
  have huM : u * M ≤ 1 / 4 * M := mul_le_mul_of_nonneg_right hu4 hM0.le
  have x1 := Q.rel (xmin + y)
  have hxy : |xmin + y| ≤ 4 * M := by
    rw [abs_le]
    constructor <;> linarith [dy.1, dy.2]
  have x2 : |fl (xmin + y) - (xmin + y)| ≤ u * (4 * M) := x1.trans (mul_le_mul_of_nonneg_left hxy hup)
  rw [abs_le] at x2
  have first : |fl (xmin + y) - (xmin + k * s)| ≤ 14 * M * u := by
    rw [abs_le]
    constructor <;> linarith [dy.1, dy.2, x2.1, x2.2]
  rw [abs_le] at first
  have hmid2 : |xmin + (k + 1 / 2) * s| ≤ 2 * M := by
    rw [abs_le]
    constructor
    · have : 0 ≤ k * s := by positivity
      linarith
    · linarith
  rw [abs_le] at hmid2
  have second : |fl (xmin + y) + δ / 2 - (xmin + (k + 1 / 2) * s)| ≤ 17 * M * u := by
    rw [abs_le]
    constructor <;> linarith [first.1, first.2, dδ.1, dδ.2]
  rw [abs_le] at second
  have z1 := Q.rel (fl (xmin + y) + δ / 2)
  have hz : |fl (xmin + y) + δ / 2| ≤ 7 * M := by
    rw [abs_le]
    constructor <;> linarith [second.1, second.2]
  have z2 := z1.trans (mul_le_mul_of_nonneg_left hz hup)
  rw [abs_le] at z2
  rw [hs]
  constructor <;> rw [abs_le]
  · constructor <;> linarith [first.1, first.2]
  · constructor <;> linarith [second.1, second.2, z2.1, z2.2]

end Boost.Random
