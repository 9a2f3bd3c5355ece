import Verif.Proofs.OldUniform01
import Verif.Props.RealDist

/-!
# C149: the two forms of `uniform_01` agree, and what integral promotion does to them

`uniform_01<Engine>` (deprecated) keeps an engine and a factor, `uniform_01<>` is called with an engine.
-/

namespace Boost.Random

open Spec RealDist OldUniform01

/-- An engine of type `signed char` with all values of the type. -/
def engInt8 : EngInfo := ⟨⟨8, true⟩, -128, 127⟩

/-- C149: an object of the deprecated form can be made from every engine whose type is narrower than `int` or holds the differences of its values, and
any number of calls of it return values in `[0, 1)`. -/
theorem c149_old (digits : Nat) (hd : 1 ≤ digits) (fl : ℚ → ℚ) (H : Rounding digits fl) (E : EngInfo) (hE : EngOK E) (h : OldOK E) (xs : List Int) (hO : Outputs E xs) :
    ∃ u, Old.make fl E xs = some u ∧ u.rng = xs ∧ Old.next fl E u ≠ .ub ∧
      ∀ n vs u', Old.calls fl E n u = some (vs, u') → vs.length = n ∧ (∀ v ∈ vs, 0 ≤ v ∧ v < 1) ∧ u'.rng <:+ xs ∧ u'.factor = u.factor := by
  have hlt := hE.lt
  have hden := den_pos H hd hE
  refine ⟨⟨xs, fl (1 / fl (fl ((E.max - E.min : Int) : ℚ) + fl 1))⟩, ?_, rfl, ?_, ?_⟩
  · unfold Old.make
    rw [minus_eq hE h ⟨hlt.le, le_refl _⟩, Option.bind_some]
    simp only
    rw [if_neg hden.ne']
  · obtain ⟨w1, w2⟩ := widen_ok hE h
    show Old.loop fl E _ xs ≠ _
    rw [loop_eq hE h xs hO]
    exact (uniform01_range H w1 w2 xs (by intro y hy; rw [widen_min, widen_max]; exact hO y hy)).1
  · intro n
    induction n generalizing xs with
    | zero =>
      intro vs u' hc
      cases hc
      exact ⟨rfl, by simp, List.suffix_refl _, rfl⟩
    | succ n ih =>
      intro vs u' hc
      rw [Old.calls] at hc
      split at hc
      · rename_i v rest hv
        obtain ⟨⟨ws, u''⟩, hr, he⟩ := Option.map_eq_some_iff.1 hc
        simp only [Prod.mk.injEq] at he
        obtain ⟨rfl, rfl⟩ := he
        obtain ⟨w1, w2⟩ := widen_ok hE h
        change Old.loop fl E _ xs = _ at hv
        rw [loop_eq hE h xs hO] at hv
        obtain ⟨a1, a2, _, a3⟩ := (uniform01_range H w1 w2 xs (by intro y hy; rw [widen_min, widen_max]; exact hO y hy)).2 v rest hv
        obtain ⟨b1, b2, b3, b4⟩ := ih rest (fun y hy => hO y (a3.subset hy)) ws u'' hr
        refine ⟨by simp [b1], ?_, b3.trans a3, b4⟩
        intro w hw
        rcases List.mem_cons.1 hw with rfl | hw
        · exact ⟨a1, a2⟩
        · exact b2 w hw
      · cases hc

/-- C149: in exact arithmetic the deprecated form divides the range into equal parts: it returns `(x - min) / (max - min + 1)` for each engine value `x`. -/
theorem c149_exact (E : EngInfo) (hE : EngOK E) (h : OldOK E) (x : Int) (xs : List Int) (h1 : E.min ≤ x) (h2 : x ≤ E.max) :
    (Old.make id E (x :: xs)).map (Old.next id E) = some (.done (((x - E.min : Int) : ℚ) / ((E.max - E.min : Int) + 1 : ℚ)) xs) := by
  have hlt := hE.lt
  have hR : (0 : ℚ) < ((E.max - E.min : Int) : ℚ) + 1 := by
    have : (0 : ℚ) ≤ ((E.max - E.min : Int) : ℚ) := by exact_mod_cast (by omega : (0 : Int) ≤ E.max - E.min)
    linarith
  have hle : ((x - E.min : Int) : ℚ) ≤ ((E.max - E.min : Int) : ℚ) := by exact_mod_cast (by omega : x - E.min ≤ E.max - E.min)
  unfold Old.make
  rw [minus_eq hE h ⟨hlt.le, le_refl _⟩, Option.bind_some]
  simp only [id]
  rw [if_neg hR.ne', Option.map_some]
  simp only [Old.next, Old.loop, minus_eq hE h ⟨h1, h2⟩, id]
  rw [mul_one_div, if_pos]
  rw [div_lt_one hR]
  linarith

example : (Old.make id engInt8 [127]).map (Old.next id engInt8) = some (.done (255 / 256) []) :=
  (c149_exact engInt8 ⟨by decide, by decide, by decide, by decide⟩ (.inl (by decide)) 127 [] (by decide) (by decide)).trans (by norm_num [engInt8])

/-- C149 (partial: the differences of engine values fit their type): the two forms give the same values, any number of them, and read the same engine
values. Missing: see `c149_narrow_false`. -/
theorem c149_same_partial (digits : Nat) (hd : 1 ≤ digits) (fl : ℚ → ℚ) (H : Rounding digits fl) (E : EngInfo) (hE : EngOK E) (hD : DiffOK E) (n : Nat) (xs : List Int) (hO : Outputs E xs) :
    ∃ u, Old.make fl E xs = some u ∧ (Old.calls fl E n u).map (fun r => (r.1, r.2.rng)) = newCalls fl E n xs := by
  have h : OldOK E := .inr hD
  have hlt := hE.lt
  have hden := den_pos H hd hE
  refine ⟨⟨xs, fl (1 / fl (fl ((E.max - E.min : Int) : ℚ) + fl 1))⟩, ?_, ?_⟩
  · unfold Old.make
    rw [minus_eq hE h ⟨hlt.le, le_refl _⟩, Option.bind_some]
    simp only
    rw [if_neg hden.ne']
  · have hone : ∀ xs, Outputs E xs → new fl E xs = Old.loop fl E (fl (1 / fl (fl ((E.max - E.min : Int) : ℚ) + fl 1))) xs := by
      intro xs
      induction xs with
      | nil => intro _; rfl
      | cons x xs ih =>
        intro hO
        have hx := hO x List.mem_cons_self
        rw [new, Old.loop, minus_eq hE h hx, minus_eq hE h ⟨hlt.le, le_refl _⟩]
        simp only
        rw [convert_eq hE hD ⟨hlt.le, le_refl _⟩, convert_eq hE hD hx, if_neg hden.ne', ih fun y hy => hO y (List.mem_cons_of_mem _ hy)]
    induction n generalizing xs with
    | zero => rfl
    | succ n ih =>
      rw [Old.calls, newCalls, hone xs hO]
      show (Option.map _ (match Old.loop fl E _ xs with | .done v rest => _ | _ => _)) = _
      have hsuf : ∀ v rest, Old.loop fl E (fl (1 / fl (fl ((E.max - E.min : Int) : ℚ) + fl 1))) xs = .done v rest → Outputs E rest := by
        intro v rest hv
        obtain ⟨w1, w2⟩ := widen_ok hE h
        rw [loop_eq hE h xs hO] at hv
        have := ((uniform01_range H w1 w2 xs (by intro y hy; rw [widen_min, widen_max]; exact hO y hy)).2 v rest hv).2.2.2
        exact fun y hy => hO y (this.subset hy)
      cases hv : Old.loop fl E (fl (1 / fl (fl ((E.max - E.min : Int) : ℚ) + fl 1))) xs with
      | done v rest =>
        simp only
        rw [← ih rest (hsuf v rest hv)]
        simp only [Option.map_map]
        rfl
      | more => rfl
      | ub => rfl

/-- An engine of type `short` with values from -20000 to 20000. -/
def engShort : EngInfo := ⟨⟨16, true⟩, -20000, 20000⟩

/-- An engine of type `short` with all values of the type. -/
def engShortFull : EngInfo := ⟨⟨16, true⟩, -32768, 32767⟩

theorem engShort_ok : EngOK engShort := ⟨by decide, by decide, by decide, by decide⟩
theorem engShortFull_ok : EngOK engShortFull := ⟨by decide, by decide, by decide, by decide⟩

/-- C149 is false for narrow signed engines: the new form converts the differences, computed in `int`, back to the narrow type. It returns negative values
(here for exact arithmetic), and divides by zero if the engine has all values of its type; the old form is right. -/
theorem c149_narrow_false : EngOK engShort ∧ Outputs engShort [-19900] ∧ new id engShort [-19900] = .done (-100 / 25535) [] ∧
    (Old.make id engShort [-19900]).map (Old.next id engShort) = some (.done (100 / 40001) []) ∧
    EngOK engShortFull ∧ new id engShortFull [0] = .ub ∧ (Old.make id engShortFull [0]).map (Old.next id engShortFull) = some (.done (1 / 2) []) := by
  refine ⟨engShort_ok, by simp [Outputs, engShort], ?_, ?_, engShortFull_ok, ?_, ?_⟩
  · decide +kernel
  · decide +kernel
  · decide +kernel
  · decide +kernel

example : OldOK engShort ∧ ¬ DiffOK engShort := ⟨.inl (by decide), fun h => absurd (h rfl) (by decide)⟩
example : ∃ u, Old.make (rn 24) engShort [5, -20000, 20000] = some u ∧ u.rng = [5, -20000, 20000] :=
  let ⟨u, h1, h2, _⟩ := c149_old 24 (by decide) (rn 24) (Nearest.rounding (rn_nearest (by decide))) engShort engShort_ok (.inl (by decide)) [5, -20000, 20000] (by simp [Outputs, engShort])
  ⟨u, h1, h2⟩
#guard (Old.make id engMt [3221225472, 4294967295, 1]).bind (Old.calls id engMt 2) |>.map (·.1) |>.isEqSome [3 / 4, 4294967295 / 4294967296]
#guard (newCalls id engMt 2 [3221225472, 4294967295, 1]).isEqSome ([3 / 4, 4294967295 / 4294967296], [1])
example : ∃ u, Old.make (rn 53) engMt [3221225472, 4294967295, 1] = some u ∧
    (Old.calls (rn 53) engMt 2 u).map (fun r => (r.1, r.2.rng)) = newCalls (rn 53) engMt 2 [3221225472, 4294967295, 1] :=
  c149_same_partial 53 (by decide) (rn 53) (Nearest.rounding (rn_nearest (by decide))) engMt engMt_ok (by intro h; cases h) 2 _ (by simp [Outputs, engMt])

end Boost.Random
