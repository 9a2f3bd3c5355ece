import Verif.Model.Ziggurat
import Verif.Props.RealDist

/-!
# The ziggurat algorithms in floating-point arithmetic
-/

namespace Boost.Random
open Spec RealDist

/-- No undefined behaviour; the values have `p`, and what remains of the input is a part of it. -/
def SafeRun {α : Type} (p : α → Prop) (E : EngInfo) (q : List Int → Run (List Int) α) : Prop :=
  ∀ xs, Outputs E xs → q xs ≠ .ub ∧ ∀ v rest, q xs = .done v rest → p v ∧ rest <:+ xs

theorem Outputs.suffix {E : EngInfo} {xs ys : List Int} (h : Outputs E xs) (hs : ys <:+ xs) : Outputs E ys := fun x hx => h x (hs.mem hx)

theorem SafeRun.bind {α β : Type} {p : α → Prop} {r : β → Prop} {E : EngInfo} {q : List Int → Run (List Int) α} {f : α → List Int → Run (List Int) β}
    (hq : SafeRun p E q) (hf : ∀ v, p v → SafeRun r E (f v)) : SafeRun r E fun xs => (q xs).bind f := by
  intro xs hO
  obtain ⟨h1, h2⟩ := hq xs hO
  cases h : q xs with
  | ub => exact absurd h h1
  | more => simp only [h, Run.bind]; exact ⟨by simp, by simp⟩
  | done v mid =>
    obtain ⟨hp, hs⟩ := h2 v mid h
    obtain ⟨h3, h4⟩ := hf v hp mid (Outputs.suffix hO hs)
    simp only [h, Run.bind]
    exact ⟨h3, fun w rest hw => ⟨(h4 w rest hw).1, (h4 w rest hw).2.trans hs⟩⟩

theorem SafeRun.done {α : Type} {p : α → Prop} {E : EngInfo} {v : α} (h : p v) : SafeRun p E fun xs => .done v xs := by
  intro xs _
  exact ⟨by rintro ⟨⟩, by rintro _ _ ⟨⟩; exact ⟨h, List.suffix_refl _⟩⟩

theorem SafeRun.more {α : Type} {p : α → Prop} {E : EngInfo} : SafeRun p E fun _ => (.more : Run (List Int) α) := by
  intro xs _
  exact ⟨by rintro ⟨⟩, by rintro _ _ ⟨⟩⟩

theorem entry_some (o : RealOps ℚ) {t : List Nat} {i : Nat} (h : i < t.length) : entry o t i = some (o.fl ((t[i] : ℚ) / 10 ^ 23)) := by
  rw [entry, List.getElem?_eq_getElem h]; rfl

section
variable {o : RealOps ℚ} {E : EngInfo}

theorem fl_nonneg (H : Rounding 53 o.fl) {x : ℚ} (h : 0 ≤ x) : 0 ≤ o.fl x := by
  have := H.mono 0 x h
  rwa [H.exact 0 (Representable.zero _)] at this

/-- The pair. -/
theorem pair_safe (H : Rounding 53 o.fl) (hE : EngOK E) (hsafe : engineBits E - 8 % engineBits E < 53 → ¬ engineBits E ∣ 61) :
    SafeRun (fun v : ℚ × Nat => 0 ≤ v.1 ∧ v.1 < 1 ∧ v.2 < 256) E fun xs => (intFloatPair o.fl E 53 8 xs).run := by
  intro xs hO
  obtain ⟨h1, h2⟩ := c49_bounds_partial 53 8 o.fl H (by decide) E hE (by decide) (by decide) hsafe xs hO
  have h3 : ∀ v rest, intFloatPair o.fl E 53 8 xs = .done v rest → rest <:+ xs := by
    intro v rest h
    obtain ⟨m1, m2, m3, m4, m5⟩ := engineBits_facts hE
    rw [intFloatPair_eq H (by decide) hE m1 m2 m3 m4 m5 (by decide) (by decide) hsafe xs hO] at h
    cases hp : pairNat E (engineBits E) (8 % engineBits E) (tailWidths (engineBits E) (53 - (engineBits E - 8 % engineBits E))) (8 / engineBits E) 0 xs with
    | more => rw [hp] at h; cases h
    | ub => rw [hp] at h; cases h
    | done v' rest' =>
      rw [hp] at h
      obtain ⟨pre, e, _⟩ := pairNat_local E _ _ _ _ _ xs v' rest' hO hp
      cases h
      exact ⟨pre, e.symm⟩
  simp only
  generalize intFloatPair o.fl E 53 8 xs = r at *
  cases h : r with
  | ub => exact absurd h h1
  | more => exact ⟨by rintro ⟨⟩, by rintro _ _ ⟨⟩⟩
  | done v rest =>
    refine ⟨by rintro ⟨⟩, ?_⟩
    rintro _ _ ⟨⟩
    exact ⟨h2 v.1 v.2 rest h, h3 v rest h⟩

theorem unif_safe (H : Rounding 53 o.fl) (hE : EngOK E) (hD : DiffOK E) :
    SafeRun (fun v : ℚ => 0 ≤ v ∧ v < 1) E fun xs => (uniform01 o.fl E xs).run := by
  intro xs hO
  obtain ⟨h1, h2⟩ := uniform01_range H hE hD xs hO
  simp only
  generalize uniform01 o.fl E xs = r at *
  cases h : r with
  | ub => exact absurd h h1
  | more => exact ⟨by rintro ⟨⟩, by rintro _ _ ⟨⟩⟩
  | done v rest =>
    refine ⟨by rintro ⟨⟩, ?_⟩
    rintro _ _ ⟨⟩
    obtain ⟨a, b, _, d⟩ := h2 v rest h
    exact ⟨⟨a, b⟩, d⟩

namespace Exponential

theorem lengths : tableX.length = 257 ∧ tableY.length = 257 := by decide +kernel

theorem iter_safe (H : Rounding 53 o.fl) {S : Source ℚ (List Int)} (hp : SafeRun (fun v : ℚ × Nat => 0 ≤ v.1 ∧ v.1 < 1 ∧ v.2 < 256) E S.pair)
    (hu : SafeRun (fun v : ℚ => 0 ≤ v ∧ v < 1) E S.unif) {shift : ℚ} (hs : 0 ≤ shift) :
    SafeRun (fun r : ℚ ⊕ ℚ => match r with | .inl v => 0 ≤ v | .inr s => 0 ≤ s) E (iter o S shift) := by
  refine hp.bind fun v hv => ?_
  obtain ⟨u, i⟩ := v
  obtain ⟨hu0, _, hi⟩ := hv
  have hx0 : ∀ j, j < 257 → ∃ x, entry o tableX j = some x ∧ 0 ≤ x := by
    intro j hj
    exact ⟨_, entry_some o (by rw [lengths.1]; exact hj), fl_nonneg H (by positivity)⟩
  obtain ⟨xi, e1, hxi⟩ := hx0 i (by omega)
  obtain ⟨xj, e2, _⟩ := hx0 (i + 1) (by omega)
  obtain ⟨x1, e3, hx1⟩ := hx0 1 (by omega)
  have e4 := entry_some o (t := tableY) (i := i) (by rw [lengths.2]; omega)
  have e5 := entry_some o (t := tableY) (i := i + 1) (by rw [lengths.2]; omega)
  simp only [e1, e2, e3, e4, e5]
  have hx : 0 ≤ o.fl (u * xi) := fl_nonneg H (mul_nonneg hu0 hxi)
  split
  · exact SafeRun.done (fl_nonneg H (by linarith))
  · split
    · exact SafeRun.done (fl_nonneg H (by linarith))
    · refine hu.bind fun y _ => ?_
      split
      · exact SafeRun.done (fl_nonneg H (by linarith))
      · exact SafeRun.done hs

theorem unit_safe (H : Rounding 53 o.fl) {S : Source ℚ (List Int)} (hp : SafeRun (fun v : ℚ × Nat => 0 ≤ v.1 ∧ v.1 < 1 ∧ v.2 < 256) E S.pair)
    (hu : SafeRun (fun v : ℚ => 0 ≤ v ∧ v < 1) E S.unif) (n : Nat) : ∀ shift : ℚ, 0 ≤ shift → SafeRun (fun v : ℚ => 0 ≤ v) E (unit o S n shift) := by
  induction n with
  | zero => intro shift _; exact SafeRun.more
  | succ n ih =>
    intro shift hs
    refine (iter_safe H hp hu hs).bind fun r hr => ?_
    cases r with
    | inl v => exact SafeRun.done hr
    | inr s => exact ih s hr

end Exponential

namespace Normal

theorem lengths : tableX.length = 129 ∧ tableY.length = 129 := by decide +kernel

theorem tail_safe (H : Rounding 53 o.fl) {S : Source ℚ (List Int)} (he : SafeRun (fun v : ℚ => 0 ≤ v) E S.expo) (n : Nat) :
    SafeRun (fun v : ℚ => o.fl (344261985589665212140000 / 10 ^ 23) ≤ v) E (tail o S n) := by
  induction n with
  | zero => exact SafeRun.more
  | succ n ih =>
    have e1 := entry_some o (t := tableX) (i := 1) (by rw [lengths.1]; omega)
    rw [show tableX[1]'(by rw [lengths.1]; omega) = 344261985589665212140000 by decide +kernel] at e1
    have e : tail o S (n + 1) = fun s => (Exponential.generate o (o.fl (344261985589665212140000 / 10 ^ 23)) S s).bind fun x s =>
        (Exponential.generate o 1 S s).bind fun y s => if o.fl (x * x) < o.fl (2 * y) then .done (o.fl (x + o.fl (344261985589665212140000 / 10 ^ 23))) s
          else tail o S n s := by
      funext s
      simp only [tail, e1]
      norm_num
    rw [e]
    refine SafeRun.bind (p := fun v => 0 ≤ v) (he.bind fun v hv => SafeRun.done (fl_nonneg H (div_nonneg hv (fl_nonneg H (by positivity))))) fun x hx => ?_
    refine SafeRun.bind (p := fun v => 0 ≤ v) (he.bind fun v hv => SafeRun.done (fl_nonneg H (div_nonneg hv (by norm_num)))) fun y _ => ?_
    split
    · refine SafeRun.done ?_
      have h1 := H.mono (o.fl (344261985589665212140000 / 10 ^ 23)) (x + o.fl (344261985589665212140000 / 10 ^ 23)) (by linarith)
      rw [H.exact _ (H.repr _)] at h1
      exact h1
    · exact ih

theorem iter_safe (H : Rounding 53 o.fl) {S : Source ℚ (List Int)} (hp : SafeRun (fun v : ℚ × Nat => 0 ≤ v.1 ∧ v.1 < 1 ∧ v.2 < 256) E S.pair)
    (hu : SafeRun (fun v : ℚ => 0 ≤ v ∧ v < 1) E S.unif) (he : SafeRun (fun v : ℚ => 0 ≤ v) E S.expo) (n : Nat) :
    SafeRun (fun _ : Option ℚ => True) E (iter o S n) := by
  refine hp.bind fun v hv => ?_
  obtain ⟨u, b⟩ := v
  obtain ⟨_, _, hb⟩ := hv
  have hb : b < 256 := hb
  have e1 := entry_some o (t := tableX) (i := b / 2) (by rw [lengths.1]; omega)
  have e2 := entry_some o (t := tableX) (i := b / 2 + 1) (by rw [lengths.1]; omega)
  have e4 := entry_some o (t := tableY) (i := b / 2) (by rw [lengths.2]; omega)
  have e5 := entry_some o (t := tableY) (i := b / 2 + 1) (by rw [lengths.2]; omega)
  simp only [e1, e2, e4, e5]
  split
  · exact SafeRun.done trivial
  · split
    · exact (tail_safe H he n).bind fun v _ => SafeRun.done trivial
    · refine hu.bind fun y _ => ?_
      split
      · exact SafeRun.done trivial
      · exact SafeRun.done trivial

theorem unit_safe (H : Rounding 53 o.fl) {S : Source ℚ (List Int)} (hp : SafeRun (fun v : ℚ × Nat => 0 ≤ v.1 ∧ v.1 < 1 ∧ v.2 < 256) E S.pair)
    (hu : SafeRun (fun v : ℚ => 0 ≤ v ∧ v < 1) E S.unif) (he : SafeRun (fun v : ℚ => 0 ≤ v) E S.expo) (n : Nat) :
    SafeRun (fun _ : ℚ => True) E (unit o S n) := by
  induction n with
  | zero => exact SafeRun.more
  | succ n ih =>
    refine (iter_safe H hp hu he n).bind fun r _ => ?_
    cases r with
    | some v => exact SafeRun.done trivial
    | none => exact ih

end Normal
end
end Boost.Random
