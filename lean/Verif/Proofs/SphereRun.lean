import Verif.Proofs.SphereLaw

/-!
# What `uniform_on_sphere` returns
-/

namespace Boost.Random.Sphere
open Spec

section
variable {K σ : Type} [Field K] [LinearOrder K] {o : RealOps K} {N : Numbers K σ}

theorem bind_done {α β : Type} {r : Run σ α} {f : α → σ → Run σ β} {v : β} {s : σ} (h : r.bind f = .done v s) : ∃ a t, r = .done a t ∧ f a t = .done v s := by
  cases r with
  | done a t => exact ⟨a, t, rfl, h⟩
  | more => cases h
  | ub => cases h

/-- The sum of the squares. -/
def squares (o : RealOps K) (q : K) (vs : List K) : K := vs.foldl (fun q v => o.fl (q + o.fl (v * v))) q

theorem disc_done (zero : Bool) : ∀ (n : Nat) (s : σ) (r : K × K × K) (s' : σ), disc o zero N n s = .done r s' →
    ∃ u v t t', (∃ t0, N.unif t0 = .done u t) ∧ N.unif t = .done v t' ∧ r = (side o u, side o v, square o (side o u) (side o v)) ∧
      ¬ (zero = true ∧ r.2.2 = 0) ∧ r.2.2 ≤ 1
  | 0, s, r, s', h => by cases h
  | n + 1, s, r, s', h => by
    rw [disc] at h
    obtain ⟨u, t, hu, h⟩ := bind_done h
    obtain ⟨v, t', hv, h⟩ := bind_done h
    by_cases hc : (zero = true ∧ square o (side o u) (side o v) = 0) ∨ 1 < square o (side o u) (side o v)
    · simp only [if_pos hc] at h
      exact disc_done zero n t' r s' h
    · simp only [if_neg hc] at h
      cases h
      exact ⟨u, v, t, s', ⟨s, hu⟩, hv, rfl, fun h => hc (.inl h), not_lt.1 fun h => hc (.inr h)⟩

theorem fill_done : ∀ (c : List K) (q : K) (s : σ) (r : K × List K) (s' : σ), fill o N c q s = .done r s' →
    r.1 = squares o q r.2 ∧ r.2.length = c.length ∧ ∀ v ∈ r.2, ∃ t t', N.norm t = .done v t'
  | [], q, s, r, s', h => by cases h; exact ⟨rfl, rfl, by simp⟩
  | a :: c, q, s, r, s', h => by
    rw [fill] at h
    obtain ⟨v, t, hv, h⟩ := bind_done h
    obtain ⟨r', t', hr, h⟩ := bind_done h
    obtain ⟨h1, h2, h3⟩ := fill_done c _ _ _ _ hr
    cases h
    refine ⟨h1, by simp [h2], fun w hw => ?_⟩
    rcases List.mem_cons.1 hw with rfl | hw
    · exact ⟨_, _, hv⟩
    · exact h3 w hw

theorem direction_done : ∀ (n : Nat) (c : List K) (s : σ) (r : K × List K) (s' : σ), direction o N c n s = .done r s' →
    r.1 = squares o 0 r.2 ∧ r.1 ≠ 0 ∧ r.2.length = c.length ∧ ∀ v ∈ r.2, ∃ t t', N.norm t = .done v t'
  | 0, c, s, r, s', h => by cases h
  | n + 1, c, s, r, s', h => by
    rw [direction] at h
    obtain ⟨r', t, hr, h⟩ := bind_done h
    obtain ⟨h1, h2, h3⟩ := fill_done _ _ _ _ _ hr
    by_cases h0 : r'.1 = 0
    · simp only [if_pos h0] at h
      obtain ⟨g1, g2, g3, g4⟩ := direction_done n _ _ _ _ h
      exact ⟨g1, g2, g3.trans h2, g4⟩
    · simp only [if_neg h0] at h
      cases h
      exact ⟨h1, h0, h2, h3⟩

/-- The points a call can return. -/
inductive Point (o : RealOps K) (N : Numbers K σ) : Nat → List K → Prop
  | zero : Point o N 0 []
  | low : Point o N 1 [-1]
  | high : Point o N 1 [1]
  | circle (u v : K) (h0 : square o (side o u) (side o v) ≠ 0) (h1 : square o (side o u) (side o v) ≤ 1) :
      Point o N 2 (Sphere.circle o (side o u) (side o v) (square o (side o u) (side o v)))
  | globe (u v : K) (h1 : square o (side o u) (side o v) ≤ 1) :
      Point o N 3 (Sphere.globe o (side o u) (side o v) (square o (side o u) (side o v)))
  | many (vs : List K) (h4 : 4 ≤ vs.length) (h0 : squares o 0 vs ≠ 0) (hN : ∀ v ∈ vs, ∃ t t', N.norm t = .done v t') :
      Point o N vs.length (scaled o (squares o 0 vs) vs)

theorem generate_done {n : Nat} {e e' : Dist K} {s s' : σ} (hs : Sized e) (h : generate o N n e s = .done e' s') :
    e'.dim = e.dim ∧ Point o N e.container.length e'.container := by
  obtain ⟨c, d⟩ := e
  simp only [Sized] at hs
  subst hs
  rw [generate] at h
  simp only at h ⊢
  by_cases h0 : (c.length : Int) = 0
  · rw [if_pos h0] at h
    cases h
    refine ⟨rfl, ?_⟩
    obtain rfl : c = [] := List.eq_nil_of_length_eq_zero (by omega)
    exact .zero
  rw [if_neg h0] at h
  by_cases h1 : (c.length : Int) = 1
  · rw [if_pos h1] at h
    obtain ⟨u, t, hu, h⟩ := bind_done h
    rw [finish_length (by simp only [List.length_singleton]; omega)] at h
    cases h
    refine ⟨rfl, ?_⟩
    rw [show c.length = 1 by omega]
    by_cases hlt : u < o.fl (1 / 2)
    · simp only [if_pos hlt]; exact .low
    · simp only [if_neg hlt]; exact .high
  rw [if_neg h1] at h
  by_cases h2 : (c.length : Int) = 2
  · rw [if_pos h2] at h
    obtain ⟨r, t, hr, h⟩ := bind_done h
    obtain ⟨u, v, t1, t2, -, -, rfl, hz, hle⟩ := disc_done _ _ _ _ _ hr
    rw [finish_length (by simp only [Sphere.circle, List.length_cons, List.length_nil]; omega)] at h
    cases h
    refine ⟨rfl, ?_⟩
    rw [show c.length = 2 by omega]
    exact .circle u v (fun h => hz ⟨rfl, h⟩) hle
  rw [if_neg h2] at h
  by_cases h3 : (c.length : Int) = 3
  · rw [if_pos h3] at h
    obtain ⟨r, t, hr, h⟩ := bind_done h
    obtain ⟨u, v, t1, t2, -, -, rfl, hz, hle⟩ := disc_done _ _ _ _ _ hr
    rw [finish_length (by simp only [Sphere.globe, List.length_cons, List.length_nil]; omega)] at h
    cases h
    refine ⟨rfl, ?_⟩
    rw [show c.length = 3 by omega]
    exact .globe u v hle
  rw [if_neg h3] at h
  obtain ⟨r, t, hr, h⟩ := bind_done h
  obtain ⟨g1, g2, g3, g4⟩ := direction_done _ _ _ _ _ hr
  cases h
  refine ⟨rfl, ?_⟩
  simp only
  rw [g1, ← g3]
  exact .many r.2 (by omega) (by rwa [← g1]) g4

theorem Point.length {d : Nat} {l : List K} (h : Point o N d l) : l.length = d := by
  cases h <;> simp [Sphere.circle, Sphere.globe, scaled]

theorem direction_congr : ∀ (n : Nat) (c c' : List K) (s : σ), c.length = c'.length → direction o N c n s = direction o N c' n s
  | 0, _, _, _, _ => rfl
  | n + 1, c, c', s, h => by
    have : ∀ (c c' : List K) (q : K) (s : σ), c.length = c'.length → fill o N c q s = fill o N c' q s := by
      intro c
      induction c with
      | nil => intro c' q s h; obtain rfl : c' = [] := List.eq_nil_of_length_eq_zero h.symm; rfl
      | cons a c ih =>
        intro c' q s h
        cases c' with
        | nil => cases h
        | cons b c' =>
          simp only [fill]
          congr 1
          funext v t
          rw [ih c' _ _ (by simpa using h)]
    rw [direction, direction, this c c' 0 s h]

/-- The elements of the container before the call have no influence. -/
theorem generate_congr {n : Nat} {e e' : Dist K} (hs : Sized e) (hs' : Sized e') (hd : e.dim = e'.dim) (s : σ) : generate o N n e s = generate o N n e' s := by
  obtain ⟨c, d⟩ := e
  obtain ⟨c', d'⟩ := e'
  simp only [Sized] at hs hs' hd
  subst hd
  have hl : c.length = c'.length := by omega
  unfold generate
  simp only
  have hf : ∀ vs (s : σ), vs.length = c.length → finish ⟨c, d⟩ vs s = finish ⟨c', d⟩ vs s := by
    intro vs s h
    rw [finish_length h, finish_length (h.trans hl)]
  split
  · obtain rfl : c = [] := List.eq_nil_of_length_eq_zero (by omega)
    obtain rfl : c' = [] := List.eq_nil_of_length_eq_zero (by omega)
    rfl
  split
  · congr 1
    funext u t
    exact hf _ _ (by simp only [List.length_singleton]; omega)
  split
  · congr 1
    funext u t
    exact hf _ _ (by simp only [Sphere.circle, List.length_cons, List.length_nil]; omega)
  split
  · congr 1
    funext u t
    exact hf _ _ (by simp only [Sphere.globe, List.length_cons, List.length_nil]; omega)
  rw [direction_congr n c c' s hl]

end

/-! ## Exact arithmetic -/

section
variable {σ : Type} {N : Numbers ℝ σ}

theorem squares_exact : ∀ (vs : List ℝ) (q : ℝ), squares exactOps q vs = q + (vs.map (· ^ 2)).sum
  | [], q => by simp [squares]
  | v :: vs, q => by
    have := squares_exact vs (q + v * v)
    simp only [squares, exactOps, id, List.foldl_cons, List.map_cons, List.sum_cons] at this ⊢
    rw [this]
    ring

theorem sum_nonneg (vs : List ℝ) : 0 ≤ (vs.map (· ^ 2)).sum :=
  List.sum_nonneg fun x hx => by obtain ⟨v, _, rfl⟩ := List.mem_map.1 hx; positivity

theorem Point.norm {d : Nat} {l : List ℝ} (h : Point exactOps N d l) (hd : d ≠ 0) : (l.map (· ^ 2)).sum = 1 := by
  cases h with
  | zero => exact absurd rfl hd
  | low => simp
  | high => simp
  | circle u v h0 h1 =>
    simp only [side, square, exactOps, id] at h0 h1
    simp only [Sphere.circle, side, square, exactOps, id, List.map_cons, List.map_nil, List.sum_cons, List.sum_nil]
    generalize u * 2 - 1 = x at *
    generalize v * 2 - 1 = y at *
    have hp : 0 < x * x + y * y := lt_of_le_of_ne (by nlinarith [sq_nonneg x, sq_nonneg y]) (Ne.symm h0)
    have e : ∀ a : ℝ, (a * (1 / Real.sqrt (x * x + y * y))) ^ 2 = a ^ 2 / (x * x + y * y) := fun a => by
      rw [mul_one_div, div_pow, Real.sq_sqrt hp.le]
    rw [e, e, add_zero, ← add_div, div_eq_one_iff_eq hp.ne']
    ring
  | globe u v h1 =>
    simp only [side, square, exactOps, id] at h1
    simp only [Sphere.globe, side, square, exactOps, id, List.map_cons, List.map_nil, List.sum_cons, List.sum_nil]
    generalize u * 2 - 1 = x at *
    generalize v * 2 - 1 = y at *
    have e : ∀ a : ℝ, (a * (2 * Real.sqrt (1 - (x * x + y * y)))) ^ 2 = a ^ 2 * (4 * (1 - (x * x + y * y))) := fun a => by
      rw [mul_pow, mul_pow, Real.sq_sqrt (by linarith)]
      ring
    rw [e, e]
    ring
  | many vs h4 h0 hN =>
    have e := squares_exact vs 0
    rw [zero_add] at e
    have hp : 0 < squares exactOps 0 vs := lt_of_le_of_ne (by rw [e]; exact sum_nonneg vs) (Ne.symm h0)
    generalize squares exactOps 0 vs = q at *
    change (List.map (· ^ 2) (vs.map fun v => v * (1 / Real.sqrt q))).sum = 1
    have e' : (List.map (· ^ 2) (vs.map fun v => v * (1 / Real.sqrt q))) = vs.map fun v => v ^ 2 * q⁻¹ := by
      rw [List.map_map]
      refine List.map_congr_left fun v _ => ?_
      simp only [Function.comp_apply]
      rw [mul_one_div, div_pow, Real.sq_sqrt hp.le, div_eq_mul_inv]
    rw [e', List.sum_map_mul_right, ← e, mul_inv_cancel₀ hp.ne']

/-- A point of the sphere is between the points with the first coordinates -1 and 1. -/
theorem lex_of_norm {a : ℝ} {l : List ℝ} (h : ((a :: l).map (· ^ 2)).sum = 1) :
    LexLe (-1 :: List.replicate l.length 0) (a :: l) ∧ LexLe (a :: l) (1 :: List.replicate l.length 0) := by
  rw [List.map_cons, List.sum_cons] at h
  have h0 := sum_nonneg l
  have hz : a ^ 2 = 1 → l = List.replicate l.length 0 := by
    intro ha
    have hs : (l.map (· ^ 2)).sum = 0 := by linarith
    refine List.eq_replicate_iff.2 ⟨rfl, fun b hb => ?_⟩
    have : b ^ 2 ≤ (l.map (· ^ 2)).sum := List.single_le_sum (fun x hx => by obtain ⟨v, _, rfl⟩ := List.mem_map.1 hx; positivity) _ (List.mem_map.2 ⟨b, hb, rfl⟩)
    nlinarith [sq_nonneg b]
  have hrefl : ∀ m : List ℝ, LexLe m m := by
    intro m
    induction m with
    | nil => trivial
    | cons b m ih => exact .inr ⟨rfl, ih⟩
  have ha : a ^ 2 ≤ 1 := by linarith
  have ha' := abs_le.1 ((sq_le_one_iff_abs_le_one a).1 ha)
  constructor
  · rcases ha'.1.lt_or_eq with h1 | h1
    · exact .inl h1
    · refine .inr ⟨h1, ?_⟩
      rw [← hz (by rw [← h1]; norm_num)]
      exact hrefl l
  · rcases ha'.2.lt_or_eq with h1 | h1
    · exact .inl h1
    · refine .inr ⟨h1, ?_⟩
      rw [← hz (by rw [h1]; norm_num)]
      exact hrefl l

end

end Boost.Random.Sphere
