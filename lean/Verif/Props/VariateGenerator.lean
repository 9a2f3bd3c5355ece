import Verif.Proofs.VariateGenerator

/-!
# C148: programs with variate generators

`variate_generator` joins an engine, held by value, by reference or by pointer, with a distribution. The theorems speak about all programs that create,
copy, assign, call and destroy engines and generators, with any distribution and any engine.
-/

namespace Boost.Random

open Vg

variable {E D T R : Type}

/-- C148. A generator that holds its engine by value (engine state `e`, distribution state `d`) is alone with it: whatever else the program does, also to the
engine it was made from and to copies of the generator, its results are those of the distribution called on the engine again and again. -/
theorem c148_value (cl : D → E → Option T → R × D × E) (s : Vars E D) (i : Nat) (d : D) (e : E) (hg : s.gens i = some ⟨.value e, d⟩) (p : List (Act E D T))
    (hp : ∀ x ∈ p, ¬ Spec.Vg.Touches i x) (s' : Vars E D) (o : List (Nat × R)) (h : run cl s p = .ok (s', o)) :
    Spec.Vg.resultsOf i o = (Spec.Vg.alone cl d e (Spec.Vg.callsOf i p)).1 ∧
      s'.gens i = some ⟨.value (Spec.Vg.alone cl d e (Spec.Vg.callsOf i p)).2.2, (Spec.Vg.alone cl d e (Spec.Vg.callsOf i p)).2.1⟩ :=
  value_run cl i p s d e s' o hg hp h

/-- C148. The same from the construction on: a generator made from engine variable `a` in state `e` starts from a copy of that state. -/
theorem c148_made (cl : D → E → Option T → R × D × E) (s : Vars E D) (i a : Nat) (d : D) (e : E) (ha : s.engines a = some e) (p : List (Act E D T))
    (hp : ∀ x ∈ p, ¬ Spec.Vg.Touches i x) (s' : Vars E D) (o : List (Nat × R)) (h : run cl s (.make i .value a d :: p) = .ok (s', o)) :
    Spec.Vg.resultsOf i o = (Spec.Vg.alone cl d e (Spec.Vg.callsOf i p)).1 := by
  obtain ⟨t, o1, o2, h1, h2, rfl⟩ := run_cons h
  rw [step_out h1 (by intro _ _ h; cases h)]
  simp only [step, construct, ha] at h1
  injection h1 with h1
  injection h1 with h1 _
  subst h1
  exact (value_run cl i p _ d e s' o2 (put_same _ _ _) hp h2).1

/-- C148. A copy of such a generator, and one that is assigned from it, continues from the state of the original, and from then on neither affects the other. -/
theorem c148_copied (cl : D → E → Option T → R × D × E) (s : Vars E D) (i j : Nat) (d : D) (e : E) (hij : i ≠ j) (hj : s.gens j = some ⟨.value e, d⟩)
    (x : Act E D T) (hx : x = .copy i j ∨ x = .assign i j) (p : List (Act E D T)) (hp : ∀ y ∈ p, ¬ Spec.Vg.Touches i y ∧ ¬ Spec.Vg.Touches j y)
    (s' : Vars E D) (o : List (Nat × R)) (h : run cl s (x :: p) = .ok (s', o)) :
    Spec.Vg.resultsOf i o = (Spec.Vg.alone cl d e (Spec.Vg.callsOf i p)).1 ∧ Spec.Vg.resultsOf j o = (Spec.Vg.alone cl d e (Spec.Vg.callsOf j p)).1 := by
  obtain ⟨t, o1, o2, h1, h2, rfl⟩ := run_cons h
  have ho : o1 = [] := by
    rcases hx with rfl | rfl <;> exact step_out h1 (by intro _ _ h; cases h)
  subst ho
  have htj : t.gens j = some ⟨.value e, d⟩ := by
    rcases hx with rfl | rfl <;> exact (step_gens h1 hij (by intro _ h; cases h)).trans hj
  have hti : t.gens i = some ⟨.value e, d⟩ := by
    rcases hx with rfl | rfl
    · simp only [step, hj] at h1
      injection h1 with h1
      injection h1 with h1 _
      subst h1
      exact put_same _ _ _
    · simp only [step, assign, hj] at h1
      repeat' split at h1
      all_goals first
        | (cases h1; done)
        | (rename_i hh; repeat' split at hh
           all_goals first
            | (cases hh; done)
            | (injection hh with hh; injection h1 with h1; injection h1 with h1 _; subst h1 hh; simp_all))
  exact ⟨(value_run cl i p t d e s' o2 hti (fun y hy => (hp y hy).1) h2).1, (value_run cl j p t d e s' o2 htj (fun y hy => (hp y hy).2) h2).1⟩

/-- C148. The generators that refer to engine `a`, by reference or by pointer (those in `B`), share it: whatever else the program does, their results and
the final states are those of distributions called on one engine in the order of the program, the direct uses of the engine in between. -/
theorem c148_shared (cl : D → E → Option T → R × D × E) (a : Nat) (B : Nat → Bool) (s : Vars E D) (ds : Nat → D) (e : E) (ha : s.engines a = some e)
    (hin : ∀ i, B i = true → s.gens i = some ⟨.reference a, ds i⟩ ∨ s.gens i = some ⟨.pointer a, ds i⟩)
    (hout : ∀ i g, B i = false → s.gens i = some g → g.eng ≠ .reference a ∧ g.eng ≠ .pointer a)
    (p : List (Act E D T)) (hp : ∀ x ∈ p, Spec.Vg.Keeps a B x) (s' : Vars E D) (o : List (Nat × R)) (h : run cl s p = .ok (s', o)) :
    o.filter (B ·.1) = (Spec.Vg.shared cl ds e (Spec.Vg.events a B p)).1 ∧ s'.engines a = some (Spec.Vg.shared cl ds e (Spec.Vg.events a B p)).2.2 ∧
      ∀ i, B i = true → (s'.gens i).map Gen.dist = some ((Spec.Vg.shared cl ds e (Spec.Vg.events a B p)).2.1 i) := by
  obtain ⟨h1, h2⟩ := shared_run cl a B p s ds e s' o ⟨ha, hin, hout⟩ hp h
  refine ⟨h1, h2.live, fun i hi => ?_⟩
  rcases h2.inside i hi with h | h <;> rw [h] <;> rfl

/-- C148. A generator made by reference or pointer, a copy of it, and a pointer generator assigned from it refer to the same engine. -/
theorem c148_bound (cl : D → E → Option T → R × D × E) (s : Vars E D) (i j a : Nat) (d : D) (hij : i ≠ j) (ha : (s.engines a).isSome) :
    (∀ k, k ≠ .value → ∃ t o, run cl s [.make j k a d, .copy i j] = .ok (t, o) ∧ t.gens i = t.gens j ∧ t.engines = s.engines ∧
      (t.gens i = some ⟨.reference a, d⟩ ∨ t.gens i = some ⟨.pointer a, d⟩)) ∧
    (∀ b d', ∃ t o, run cl s [.make i .pointer b d', .make j .pointer a d, .assign i j] = .ok (t, o) ∧ t.gens i = t.gens j ∧ t.engines = s.engines ∧
      t.gens i = some ⟨.pointer a, d⟩) ∧
    (∀ b d', (s.engines b).isSome → run cl s [.make i .reference b d', .make j .reference a d, .assign i j] = .illFormed) := by
  obtain ⟨e, he⟩ := Option.isSome_iff_exists.1 ha
  have hji : j ≠ i := hij.symm
  refine ⟨?_, ?_, ?_⟩
  · intro k hk
    cases k
    · exact absurd rfl hk
    · exact ⟨⟨s.engines, put (put s.gens j (some ⟨.reference a, d⟩)) i (some ⟨.reference a, d⟩)⟩, [],
        by simp [run, step, construct, he], by simp [put], rfl, .inl (by simp)⟩
    · exact ⟨⟨s.engines, put (put s.gens j (some ⟨.pointer a, d⟩)) i (some ⟨.pointer a, d⟩)⟩, [],
        by simp [run, step, construct], by simp [put], rfl, .inr (by simp)⟩
  · intro b d'
    exact ⟨⟨s.engines, put (put (put s.gens i (some ⟨.pointer b, d'⟩)) j (some ⟨.pointer a, d⟩)) i (some ⟨.pointer a, d⟩)⟩, [],
      by simp [run, step, construct, assign, put, hij], by simp [put], rfl, by simp⟩
  · intro b d' hb
    obtain ⟨e', he'⟩ := Option.isSome_iff_exists.1 hb
    simp [run, step, construct, assign, put, hij, he, he']

/-- C148. A program that names only engines and generators that exist, destroys no engine and assigns no generator is defined, if at the start every generator
has an engine. -/
theorem c148_defined (cl : D → E → Option T → R × D × E) (s : Vars E D) (A G : Nat → Prop) (hA : ∀ a, A a → (s.engines a).isSome)
    (hG : ∀ i, G i → (s.gens i).isSome)
    (hs : ∀ i g a, s.gens i = some g → g.eng = .reference a ∨ g.eng = .pointer a → (s.engines a).isSome)
    (p : List (Act E D T)) (hp : Spec.Vg.Names A G p) : ∃ s' o, run cl s p = .ok (s', o) := by
  refine names_run cl p A G s ⟨hA, hG, fun i g hg => ?_⟩ hp
  unfold engine
  split
  · rfl
  · exact hs i g _ hg (.inl (by assumption))
  · exact hs i g _ hg (.inr (by assumption))

/-- C148. After the engine is destroyed, a call of a generator that refers to it is undefined, whatever comes in between, unless a new engine is made in the
same place. -/
theorem c148_dangling (cl : D → E → Option T → R × D × E) (s : Vars E D) (a i : Nat) (m : Member E) (d : D) (hg : s.gens i = some ⟨m, d⟩)
    (hm : m = .reference a ∨ m = .pointer a) (p : List (Act E D T)) (hp : ∀ x ∈ p, ¬ Spec.Vg.Touches i x ∧ ∀ e, x ≠ .newEngine a e)
    (s' : Vars E D) (o : List (Nat × R)) (h : run cl s (.dropEngine a :: p) = .ok (s', o)) (v : Option T) :
    run cl s (.dropEngine a :: p ++ [.call i v]) = .ub := by
  rw [run_append cl _ _ s s' o h]
  obtain ⟨t, o1, o2, h1, h2, rfl⟩ := run_cons h
  have ht : t.engines a = none ∧ t.gens = s.gens := by
    simp only [step] at h1
    split at h1
    · cases h1
    · injection h1 with h1
      injection h1 with h1 _
      subst h1
      exact ⟨put_same _ _ _, rfl⟩
  obtain ⟨hd, d', hg'⟩ := dead_run cl a i p t m s' o2 ht.1 ⟨d, by rw [ht.2]; exact hg⟩ hm hp h2
  have hu : step cl s' (.call i v) = .ub := by
    rcases hm with rfl | rfl <;> simp [step, invoke, hg', engine, hd]
  simp only [run, hu]

/-! ### A concrete case

The engine counts upwards; the distribution adds its parameter, or the argument of the call. -/

namespace VgExample

/-- An engine that counts; a distribution that adds. -/
def cl (d e : Nat) (v : Option Nat) : Nat × Nat × Nat := (e + v.getD d, d, e + 1)

/-- No variables. -/
def empty : Vars Nat Nat := ⟨fun _ => none, fun _ => none⟩

/-- The results of a program, if it is defined. -/
def results (p : List (Act Nat Nat Nat)) : Option (List (Nat × Nat)) :=
  match run cl empty p with
  | .ok (_, o) => some o
  | _ => none

/-- Engine 0 starts at 10. Generator 0 copies it, generators 1 and 2 refer to it. -/
def start : List (Act Nat Nat Nat) := [.newEngine 0 10, .make 0 .value 0 100, .make 1 .reference 0 200, .make 2 .pointer 0 300]

#guard results (start ++ [.call 0 none, .call 1 none, .call 2 none, .useEngine 0 (· + 5), .call 1 none, .call 0 (some 1)]) ==
  some [(0, 110), (1, 210), (2, 311), (1, 217), (0, 12)]
#guard results (start ++ [.dropEngine 0, .call 0 none]) == some [(0, 110)]
#guard results (start ++ [.dropEngine 0, .call 2 none]) == none

/-- The variables after `start`. -/
def vars : Vars Nat Nat := ⟨fun a => if a = 0 then some 10 else none,
  fun i => if i = 0 then some ⟨.value 10, 100⟩ else if i = 1 then some ⟨.reference 0, 200⟩ else if i = 2 then some ⟨.pointer 0, 300⟩ else none⟩

example : ∃ s' o, run cl vars [.call 0 none, .useEngine 0 (· + 5), .dropEngine 0, .call 0 (some 1)] = .ok (s', o) ∧
    Spec.Vg.resultsOf 0 o = [110, 12] := by
  refine ⟨_, _, rfl, ?_⟩
  exact (c148_value cl vars 0 100 10 rfl [.call 0 none, .useEngine 0 (· + 5), .dropEngine 0, .call 0 (some 1)] (by simp [Spec.Vg.Touches]) _ _ rfl).1.trans rfl

example : ∃ s' o, run cl vars [.make 3 .value 0 1, .call 1 none, .call 3 none] = .ok (s', o) ∧ Spec.Vg.resultsOf 3 o = [11] := by
  refine ⟨_, _, rfl, ?_⟩
  exact (c148_made cl vars 3 0 1 10 rfl [.call 1 none, .call 3 none] (by simp [Spec.Vg.Touches]) _ _ rfl).trans rfl

example : ∃ s' o, run cl vars [.copy 3 0, .call 0 none, .call 3 none] = .ok (s', o) ∧ Spec.Vg.resultsOf 3 o = [110] ∧ Spec.Vg.resultsOf 0 o = [110] := by
  refine ⟨_, _, rfl, ?_⟩
  have := c148_copied cl vars 3 0 100 10 (by decide) rfl (.copy 3 0) (.inl rfl) [.call 0 none, .call 3 none] (by simp [Spec.Vg.Touches]) _ _ rfl
  exact ⟨this.1.trans rfl, this.2.trans rfl⟩

example : ∃ s' o, run cl vars [.call 1 none, .call 0 none, .useEngine 0 (· + 5), .call 2 (some 0)] = .ok (s', o) ∧
    o.filter (fun r => r.1 = 1 ∨ r.1 = 2) = [(1, 210), (2, 16)] ∧ s'.engines 0 = some 17 := by
  refine ⟨_, _, rfl, ?_⟩
  have := c148_shared cl 0 (fun i => i = 1 ∨ i = 2) vars (fun i => if i = 1 then 200 else 300) 10 rfl
    (by
      intro i hi
      have : i = 1 ∨ i = 2 := by simpa using hi
      rcases this with rfl | rfl <;> simp [vars])
    (by
      intro i g hi hg
      have : ¬ (i = 1 ∨ i = 2) := by simpa using hi
      by_cases h0 : i = 0
      · subst h0
        simp only [vars, if_true, Option.some.injEq] at hg
        subst hg
        simp
      · simp [vars, h0, not_or.1 this] at hg)
    [.call 1 none, .call 0 none, .useEngine 0 (· + 5), .call 2 (some 0)] (by simp [Spec.Vg.Keeps]) _ _ rfl
  exact ⟨this.1.trans rfl, this.2.1.trans rfl⟩

example : ∃ s' o, run cl vars [.make 3 .pointer 0 1, .copy 4 3, .call 4 none, .dropGen 3, .call 4 none] = .ok (s', o) :=
  c148_defined cl vars (· = 0) (fun i => i < 3) (by rintro _ rfl; rfl)
    (by
      intro i hi
      have : i = 0 ∨ i = 1 ∨ i = 2 := by omega
      rcases this with rfl | rfl | rfl <;> rfl)
    (by
      intro i g a hg ha
      simp only [vars] at hg
      split at hg
      · injection hg with hg; subst hg; simp at ha
      · split at hg
        · injection hg with hg; subst hg; simp at ha; subst ha; rfl
        · split at hg
          · injection hg with hg; subst hg; simp at ha; subst ha; rfl
          · cases hg)
    _ (by simp [Spec.Vg.Names])

example : run cl vars [.dropEngine 0, .call 0 none, .call 1 none] = .ub :=
  c148_dangling cl vars 0 1 (.reference 0) 200 rfl (.inl rfl) [.call 0 none] (by simp [Spec.Vg.Touches]) _ _ rfl none

example : ∃ t o, run cl vars [.make 5 .pointer 7 1, .make 6 .pointer 0 2, .assign 5 6] = .ok (t, o) ∧ t.gens 5 = some ⟨.pointer 0, 2⟩ := by
  obtain ⟨t, o, h, _, _, h2⟩ := (c148_bound cl vars 5 6 0 2 (by decide) rfl).2.1 7 1
  exact ⟨t, o, h, h2⟩

end VgExample

end Boost.Random
