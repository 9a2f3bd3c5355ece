import Verif.Proofs.LinearRound

/-!
# `piecewise_linear_distribution` with rounded boundaries that need not increase strictly
-/

namespace Boost.Random
open Spec RealDist
namespace Discrete
variable {fl : ℚ → ℚ} {u : ℚ}

theorem Rel.fpos (R : Rel fl u) (hu : u < 1) {x : ℚ} (hx : 0 < x) : 0 < fl x := by
  have h := R.rel x
  rw [abs_of_pos hx, abs_le] at h
  have : 0 < (1 - u) * x := mul_pos (by linarith) hx
  linarith [h.1]

theorem Rel.ne (R : Rel fl u) (hu : u < 1) {x : ℚ} (hx : x ≠ 0) : fl x ≠ 0 := by
  intro e
  have h := R.rel x
  rw [e, zero_sub, abs_neg] at h
  have : 0 < (1 - u) * |x| := mul_pos (by linarith) (abs_pos.2 hx)
  linarith

end Discrete

section
variable {fl : ℚ → ℚ}

theorem binWeights_nonneg_le (hf : ∀ x, 0 ≤ x → 0 ≤ fl x) : ∀ (ivs ws W : List ℚ), ivs.Pairwise (· ≤ ·) → (∀ w ∈ ws, 0 ≤ w) →
    binWeights fl ivs ws = some W → ∀ x ∈ W, 0 ≤ x
  | [], _, _, _, _, h => by simp [binWeights] at h
  | [a], ws, W, _, _, h => by
    rw [binWeights] at h
    rw [← Option.some.inj h]
    simp
  | a :: b :: l, [], _, _, _, h => by simp [binWeights] at h
  | a :: b :: l, [_], _, _, _, h => by simp [binWeights] at h
  | a :: b :: l, v :: w :: ws, W, hp, hw, h => by
    obtain ⟨hp1, hp2⟩ := List.pairwise_cons.1 hp
    have hab : 0 ≤ fl (b - a) := hf _ (by linarith [hp1 b (by simp)])
    rw [binWeights, Option.map_eq_some_iff] at h
    obtain ⟨W', h1, rfl⟩ := h
    have ih := binWeights_nonneg_le hf (b :: l) (w :: ws) W' hp2 (fun x hx => hw x (List.mem_cons_of_mem _ hx)) h1
    intro x hx
    rcases List.mem_cons.1 hx with rfl | hx
    · exact hf _ (mul_nonneg (le_min (hw v (by simp)) (hw w (by simp))) hab)
    rcases List.mem_cons.1 hx with rfl | hx
    · exact hf _ (div_nonneg (hf _ (mul_nonneg (abs_nonneg _) hab)) (by norm_num))
    · exact ih x hx

/-- The bins of an interval without width weigh nothing. -/
theorem binWeights_flat (h0 : fl 0 = 0) : ∀ (ivs ws W : List ℚ) (i : Nat) (a : ℚ), ivs.length = ws.length → binWeights fl ivs ws = some W →
    ivs[i / 2]? = some a → ivs[i / 2 + 1]? = some a → W.getD i 0 = 0
  | [], _, _, _, _, _, h, _, _ => by simp [binWeights] at h
  | [_], _, _, _, _, _, _, _, h => by simp at h
  | _ :: _ :: _, [], _, _, _, h, _, _, _ => by simp at h
  | _ :: _ :: _, [_], _, _, _, h, _, _, _ => by simp at h
  | x :: y :: l, v :: w :: ws, W, i, a, hl, h, h1, h2 => by
    rw [binWeights, Option.map_eq_some_iff] at h
    obtain ⟨W', h3, rfl⟩ := h
    match i with
    | 0 =>
      simp only [Nat.zero_div, List.getElem?_cons_zero, Option.some.injEq, zero_add, List.getElem?_cons_succ] at h1 h2
      rw [h1, h2]
      simp [h0]
    | 1 =>
      simp only [show 1 / 2 = 0 from rfl, List.getElem?_cons_zero, Option.some.injEq, zero_add, List.getElem?_cons_succ] at h1 h2
      rw [h1, h2]
      simp [h0]
    | i + 2 =>
      rw [show (i + 2) / 2 = i / 2 + 1 by omega, List.getElem?_cons_succ] at h1 h2
      exact binWeights_flat h0 (y :: l) (w :: ws) W' i a (by simpa using hl) h3 h1 h2

/-- The sum of the weights of the bins is positive when a function is positive at a boundary, and not all boundaries are equal. -/
theorem binWeights_pos_le (h0 : ∀ x, 0 ≤ x → 0 ≤ fl x) (hpos : ∀ x, 0 < x → 0 < fl x) (hne : ∀ x, x ≠ 0 → fl x ≠ 0) (f : ℚ → ℚ) :
    ∀ (ivs W : List ℚ), ivs.Pairwise (· ≤ ·) → (∀ x ∈ ivs, 0 ≤ f x) → binWeights fl ivs (ivs.map f) = some W → (∃ x ∈ ivs, 0 < f x) →
      (∃ x ∈ ivs, ∃ y ∈ ivs, x < y) → 0 < W.sum
  | [], _, _, _, h, _, _ => by simp [binWeights] at h
  | [a], _, _, _, _, _, h => by
    obtain ⟨x, hx, y, hy, hxy⟩ := h
    rw [List.mem_singleton.1 hx, List.mem_singleton.1 hy] at hxy
    exact absurd hxy (lt_irrefl _)
  | a :: b :: l, W, hp, hw, h, hex, hlt => by
    have hnn := binWeights_nonneg_le h0 _ _ _ hp (by
      intro w hm
      obtain ⟨x, hx, rfl⟩ := List.mem_map.1 hm
      exact hw x hx) h
    obtain ⟨hp1, hp2⟩ := List.pairwise_cons.1 hp
    have hab := hp1 b (by simp)
    simp only [List.map_cons] at h
    rw [binWeights, Option.map_eq_some_iff] at h
    obtain ⟨W', h3, rfl⟩ := h
    have hv := hw a (by simp)
    have hw' := hw b (by simp)
    have n1 := hnn _ (List.mem_cons_self)
    have n2 := hnn _ (List.mem_cons_of_mem _ List.mem_cons_self)
    have n3 : 0 ≤ W'.sum := List.sum_nonneg fun z hz => hnn z (List.mem_cons_of_mem _ (List.mem_cons_of_mem _ hz))
    rw [List.sum_cons, List.sum_cons]
    have ih := binWeights_pos_le h0 hpos hne f (b :: l) W' hp2 (fun x hx => hw x (List.mem_cons_of_mem _ hx)) h3
    rcases hab.eq_or_lt with e | e
    · subst e
      have r1 : ∃ x ∈ a :: l, 0 < f x := by
        obtain ⟨x, hx, hfx⟩ := hex
        refine ⟨x, ?_, hfx⟩
        simpa using hx
      have r2 : ∃ x ∈ a :: l, ∃ y ∈ a :: l, x < y := by
        obtain ⟨x, hx, y, hy, hxy⟩ := hlt
        exact ⟨x, by simpa using hx, y, by simpa using hy, hxy⟩
      linarith [ih r1 r2]
    · have hxy : 0 < fl (b - a) := hpos _ (by linarith)
      by_cases hvw : 0 < f a ∨ 0 < f b
      · by_cases e : f a = f b
        · have : 0 < fl (min (f a) (f b) * fl (b - a)) := hpos _ (mul_pos (lt_min (by rcases hvw with h | h <;> linarith) (by rcases hvw with h | h <;> linarith)) hxy)
          linarith
        · have : 0 < fl (fl (|fl (f a - f b)| * fl (b - a)) / 2) := hpos _ (div_pos (hpos _ (mul_pos (abs_pos.2 (hne _ (sub_ne_zero.2 e))) hxy)) (by norm_num))
          linarith
      · rw [not_or, not_lt, not_lt] at hvw
        obtain ⟨x, hx, hfx⟩ := hex
        have hx2 : x ∈ b :: l := by
          rcases List.mem_cons.1 hx with rfl | h
          · linarith [hvw.1]
          · exact h
        have hx3 : x ∈ l := by
          rcases List.mem_cons.1 hx2 with rfl | h
          · linarith [hvw.2]
          · exact h
        have hbx : b < x := by
          refine lt_of_le_of_ne ((List.pairwise_cons.1 hp2).1 x hx3) ?_
          rintro rfl
          linarith [hvw.2]
        linarith [ih ⟨x, hx2, hfx⟩ ⟨b, by simp, x, hx2, hbx⟩]

end

theorem boundsRound_length (fl : ℚ → ℚ) (n : Nat) (xmin xmax : ℚ) : (boundsRound fl n xmin xmax).length = n + 1 := by unfold boundsRound; simp

/-- The rounded boundaries: they do not decrease, lie between the numbers given and are representable. -/
theorem boundsRound_spec {p : Nat} {fl : ℚ → ℚ} (H : Nearest p fl) {n : Nat} (hn : 0 < n) (hnp : 4 * n ≤ 2 ^ p) {xmin xmax : ℚ} (h : xmin < xmax)
    (hmin : Representable p xmin) (hmax : Representable p xmax) :
    (boundsRound fl n xmin xmax).Pairwise (· ≤ ·) ∧ (boundsRound fl n xmin xmax).head? = some xmin ∧ (boundsRound fl n xmin xmax).getLast? = some xmax ∧
      ∀ x ∈ boundsRound fl n xmin xmax, Representable p x := by
  have hp : 1 ≤ p := by
    rcases Nat.eq_zero_or_pos p with rfl | h
    · simp at hnp; omega
    · exact h
  have R := Nearest.rounding H
  have Q := Discrete.rel_of_nearest hp H
  have hq : (0 : ℚ) < n := by exact_mod_cast hn
  have nat : ∀ k, k ≤ n → fl k = k := fun k hk => R.exact _ (Representable.natCast (by omega))
  obtain ⟨u, hu⟩ : ∃ u : ℚ, 1 / 2 ^ p = u := ⟨_, rfl⟩
  rw [hu] at Q
  have hup := Q.pos
  have hnu : 4 * (n : ℚ) * u ≤ 1 := by
    rw [← hu, mul_one_div, div_le_one (by positivity)]
    exact_mod_cast hnp
  have hn1 : (1 : ℚ) ≤ n := by exact_mod_cast hn
  have hu4 : u ≤ 1 / 4 := by nlinarith
  have up : ∀ {x y : ℚ}, 0 ≤ x → x ≤ y → fl x ≤ y * (1 + u) := by
    intro x y hx hxy
    have a := Q.rel x
    rw [abs_of_nonneg hx, abs_le] at a
    have : x * (1 + u) ≤ y * (1 + u) := mul_le_mul_of_nonneg_right hxy (by linarith)
    linarith [a.2]
  obtain ⟨w, hw⟩ : ∃ w, xmax - xmin = w := ⟨_, rfl⟩
  have hw0 : 0 < w := by rw [← hw]; linarith
  obtain ⟨D, hD⟩ : ∃ D, fl w = D := ⟨_, rfl⟩
  have hD0 : 0 ≤ D := by rw [← hD]; exact Q.nonneg hw0.le
  have hDw : D ≤ w * (1 + u) := by rw [← hD]; exact up hw0.le le_rfl
  obtain ⟨δ, hδ⟩ : ∃ δ, fl (D / n) = δ := ⟨_, rfl⟩
  have hδ0 : 0 ≤ δ := by rw [← hδ]; exact Q.nonneg (by positivity)
  have hδw : δ ≤ w * (1 + u) / n * (1 + u) := by rw [← hδ]; exact up (by positivity) (div_le_div_of_nonneg_right hDw hq.le)
  have cube : (1 + u) * (1 + u) * (1 + u) ≤ 1 + 4 * u := by nlinarith [mul_nonneg hup hup]
  have hy : ∀ k, k < n → fl (k * δ) ≤ w := by
    intro k hk
    have hk1 : (k : ℚ) + 1 ≤ n := by exact_mod_cast hk
    have hk0 : (0 : ℚ) ≤ k := by positivity
    refine (up (by positivity) (mul_le_mul_of_nonneg_left hδw hk0)).trans ?_
    have e : (k : ℚ) * (w * (1 + u) / n * (1 + u)) * (1 + u) = w * (k * ((1 + u) * (1 + u) * (1 + u)) / n) := by ring
    rw [e]
    have : (k : ℚ) * ((1 + u) * (1 + u) * (1 + u)) / n ≤ 1 := by
      rw [div_le_one hq]
      have a1 := mul_le_mul_of_nonneg_left cube hk0
      have a2 : 4 * (k : ℚ) * u ≤ 4 * n * u := by
        have : (k : ℚ) ≤ n := by linarith
        have := mul_le_mul_of_nonneg_right this hup
        linarith
      linarith
    exact (mul_le_mul_of_nonneg_left this hw0.le).trans_eq (mul_one w)
  have hb : boundsRound fl n xmin xmax = ((List.range n).map fun k : Nat => fl (xmin + fl (k * δ))) ++ [xmax] := by
    unfold boundsRound
    rw [hw, hD, nat n le_rfl, hδ]
    congr 1
    refine List.map_congr_left fun k hk => ?_
    rw [nat k (List.mem_range.1 hk).le]
  rw [hb]
  refine ⟨?_, ?_, ?_, fun x hx => ?_⟩
  · rw [List.pairwise_append]
    refine ⟨?_, List.pairwise_singleton _ _, fun x hx y hy' => ?_⟩
    · rw [List.pairwise_map]
      refine List.pairwise_lt_range.imp fun {j k} hjk => ?_
      have : (j : ℚ) ≤ k := by exact_mod_cast hjk.le
      have a := R.mono _ _ (mul_le_mul_of_nonneg_right this hδ0)
      exact R.mono _ _ (by linarith)
    · obtain ⟨k, hk, rfl⟩ := List.mem_map.1 hx
      rw [List.mem_singleton.1 hy']
      have := hy k (List.mem_range.1 hk)
      exact (R.mono (xmin + fl (k * δ)) xmax (by linarith)).trans_eq (R.exact _ hmax)
  · obtain ⟨m, rfl⟩ : ∃ m, n = m + 1 := ⟨n - 1, by omega⟩
    rw [List.range_succ_eq_map]
    simp [Q.zero, R.exact _ hmin]
  · simp
  · rcases List.mem_append.1 hx with hx | hx
    · obtain ⟨k, _, rfl⟩ := List.mem_map.1 hx
      exact H.repr _
    · rw [List.mem_singleton.1 hx]
      exact hmax

theorem interval_bounds_le {l : List ℚ} (hs : l.Pairwise (· ≤ ·)) {i : Nat} {a b v : ℚ} (ha : l[i]? = some a) (hb : l[i + 1]? = some b) (h1 : a ≤ v) (h2 : v < b) :
    ∃ x y, l.head? = some x ∧ l.getLast? = some y ∧ x ≤ v ∧ v < y := by
  obtain ⟨hi, rfl⟩ := List.getElem?_eq_some_iff.1 ha
  obtain ⟨hi', rfl⟩ := List.getElem?_eq_some_iff.1 hb
  have mono : ∀ (j k : Nat) (hj : j < l.length) (hk : k < l.length), j ≤ k → l[j] ≤ l[k] := by
    intro j k hj hk hjk
    rcases Nat.lt_or_eq_of_le hjk with h | h
    · exact List.pairwise_iff_getElem.1 hs j k hj hk h
    · subst h; exact le_refl _
  refine ⟨l[0]'(by omega), l[l.length - 1]'(by omega), ?_, ?_, le_trans (mono 0 i (by omega) hi (by omega)) h1,
    lt_of_lt_of_le h2 (mono (i + 1) (l.length - 1) hi' (by omega) (by omega))⟩
  · rw [List.head?_eq_getElem?, List.getElem?_eq_getElem]
  · rw [List.getLast?_eq_getElem?, List.getElem?_eq_getElem]

end Boost.Random
