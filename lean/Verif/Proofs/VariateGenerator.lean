import Mathlib.Logic.Function.Basic
import Mathlib.Tactic.Common
import Verif.Spec.VariateGenerator

/-!
# Lemmas on programs with variate generators
-/

namespace Boost.Random
namespace Vg

variable {E D T R : Type}

@[simp] theorem put_same {α : Type} (f : Nat → Option α) (a : Nat) (v : Option α) : put f a v a = v := by simp [put]
theorem put_other {α : Type} (f : Nat → Option α) {a b : Nat} (v : Option α) (h : b ≠ a) : put f a v b = f b := by simp [put, h]

/-- A program that succeeds: its first action and its rest. -/
theorem run_cons {cl : D → E → Option T → R × D × E} {s : Vars E D} {x : Act E D T} {xs : List (Act E D T)} {s' : Vars E D} {o : List (Nat × R)}
    (h : run cl s (x :: xs) = .ok (s', o)) : ∃ t o1 o2, step cl s x = .ok (t, o1) ∧ run cl t xs = .ok (s', o2) ∧ o = o1 ++ o2 := by
  rw [run] at h
  split at h
  · rename_i t o1 h1
    split at h
    · rename_i u o2 h2
      injection h with h
      injection h with ha hb
      subst ha hb
      exact ⟨t, o1, o2, h1, h2, rfl⟩
    all_goals cases h
  all_goals cases h

/-- Results are of the generator that is called. -/
theorem step_out {cl : D → E → Option T → R × D × E} {s : Vars E D} {x : Act E D T} {t : Vars E D} {o : List (Nat × R)}
    (h : step cl s x = .ok (t, o)) (hx : ∀ i v, x ≠ .call i v) : o = [] := by
  cases x
  case call i v => exact absurd rfl (hx i v)
  all_goals
    simp only [step] at h
    repeat' split at h
    all_goals first
      | (injection h with h; injection h with _ h; exact h.symm)
      | cases h

/-- A call that succeeds. -/
theorem step_call {cl : D → E → Option T → R × D × E} {s : Vars E D} {i : Nat} {v : Option T} {t : Vars E D} {o : List (Nat × R)}
    (h : step cl s (.call i v) = .ok (t, o)) : ∃ g e, s.gens i = some g ∧ engine s g = some e ∧
      t = write s i g (cl g.dist e v).2.2 (cl g.dist e v).2.1 ∧ o = [(i, (cl g.dist e v).1)] := by
  simp only [step, invoke] at h
  cases hg : s.gens i with
  | none => simp [hg] at h
  | some g =>
    cases he : engine s g with
    | none => simp [hg, he] at h
    | some e =>
      simp only [hg, he] at h
      injection h with h
      injection h with h1 h2
      exact ⟨g, e, rfl, he, h1.symm, h2.symm⟩

/-- Other generators do not change. -/
theorem write_gens {s : Vars E D} {i j : Nat} {g : Gen E D} {e : E} {d : D} (h : j ≠ i) : (write s i g e d).gens j = s.gens j := by
  unfold write
  split <;> exact put_other _ _ h

theorem step_gens {cl : D → E → Option T → R × D × E} {s : Vars E D} {x : Act E D T} {t : Vars E D} {o : List (Nat × R)} {i : Nat}
    (h : step cl s x = .ok (t, o)) (ht : ¬ Spec.Vg.Touches i x) (hc : ∀ v, x ≠ .call i v) : t.gens i = s.gens i := by
  cases x
  case call j v =>
    obtain ⟨g, e, _, _, rfl, _⟩ := step_call h
    exact write_gens fun hij => hc v (by rw [hij])
  case assign j k =>
    have hij : i ≠ j := fun h => ht h.symm
    simp only [step, assign] at h
    repeat' split at h
    all_goals first
      | (cases h; done)
      | (rename_i hh; repeat' split at hh
         all_goals first
          | (cases hh; done)
          | (injection hh with hh; injection h with h; injection h with h _; subst h hh; exact put_other _ _ hij))
  all_goals
    simp only [Spec.Vg.Touches] at ht
    simp only [step] at h
    repeat' split at h
    all_goals first
      | (cases h; done)
      | (injection h with h; injection h with h _; subst h; first | rfl | exact write_gens (fun h => ht h.symm) | exact put_other _ _ (fun h => ht h.symm))

/-- A generator that holds its engine is alone with it. -/
theorem value_run (cl : D → E → Option T → R × D × E) (i : Nat) (p : List (Act E D T)) : ∀ (s : Vars E D) (d : D) (e : E) (s' : Vars E D) (o : List (Nat × R)),
    s.gens i = some ⟨.value e, d⟩ → (∀ x ∈ p, ¬ Spec.Vg.Touches i x) → run cl s p = .ok (s', o) →
    Spec.Vg.resultsOf i o = (Spec.Vg.alone cl d e (Spec.Vg.callsOf i p)).1 ∧
      s'.gens i = some ⟨.value (Spec.Vg.alone cl d e (Spec.Vg.callsOf i p)).2.2, (Spec.Vg.alone cl d e (Spec.Vg.callsOf i p)).2.1⟩ := by
  induction p with
  | nil =>
    intro s d e s' o hg _ h
    injection h with h
    injection h with h1 h2
    subst h1 h2
    exact ⟨rfl, hg⟩
  | cons x p ih =>
    intro s d e s' o hg ht h
    obtain ⟨t, o1, o2, h1, h2, rfl⟩ := run_cons h
    have htp : ∀ y ∈ p, ¬ Spec.Vg.Touches i y := fun y hy => ht y (List.mem_cons_of_mem _ hy)
    by_cases hx : ∃ v, x = .call i v
    · obtain ⟨v, rfl⟩ := hx
      obtain ⟨g, e', hg', he, rfl, rfl⟩ := step_call h1
      rw [hg] at hg'
      injection hg' with hg'
      subst hg'
      simp only [engine, Option.some.injEq] at he
      subst he
      have := ih _ _ _ s' o2 (by simp only [write, put_same]; rfl) htp h2
      have hc : Spec.Vg.callsOf i (.call i v :: p) = v :: Spec.Vg.callsOf i p := by simp [Spec.Vg.callsOf]
      rw [hc]
      refine ⟨?_, this.2⟩
      simp only [Spec.Vg.alone, ← this.1]
      simp [Spec.Vg.resultsOf]
    · have hx' : ∀ v, x ≠ .call i v := fun v hv => hx ⟨v, hv⟩
      have hgt := step_gens h1 (ht x List.mem_cons_self) hx'
      have := ih t d e s' o2 (hgt.trans hg) htp h2
      have hc : Spec.Vg.callsOf i (x :: p) = Spec.Vg.callsOf i p := by
        cases x
        case call j v => simp [Spec.Vg.callsOf, show j ≠ i from fun h => hx' v (by rw [h])]
        all_goals simp [Spec.Vg.callsOf]
      have ho : Spec.Vg.resultsOf i (o1 ++ o2) = Spec.Vg.resultsOf i o2 := by
        cases x
        case call j v =>
          obtain ⟨g, e', _, _, _, rfl⟩ := step_call h1
          simp [Spec.Vg.resultsOf, show j ≠ i from fun h => hx' v (by rw [h])]
        all_goals rw [step_out h1 (by intro _ _ h; cases h)]; rfl
      rw [hc, ho]
      exact this

/-- The generators in `B`, and no others, refer to engine `a`. -/
structure Bound (a : Nat) (B : Nat → Bool) (s : Vars E D) (ds : Nat → D) (e : E) : Prop where
  live : s.engines a = some e
  inside : ∀ i, B i = true → s.gens i = some ⟨.reference a, ds i⟩ ∨ s.gens i = some ⟨.pointer a, ds i⟩
  outside : ∀ i g, B i = false → s.gens i = some g → g.eng ≠ .reference a ∧ g.eng ≠ .pointer a

theorem Bound.gen {a : Nat} {B : Nat → Bool} {s : Vars E D} {ds : Nat → D} {e : E} (h : Bound a B s ds e) {i : Nat} (hi : B i = true) :
    ∃ g, s.gens i = some g ∧ g.dist = ds i ∧ (g.eng = .reference a ∨ g.eng = .pointer a) ∧ engine s g = some e := by
  rcases h.inside i hi with h1 | h1
  · exact ⟨_, h1, rfl, .inl rfl, h.live⟩
  · exact ⟨_, h1, rfl, .inr rfl, h.live⟩

theorem Bound.write_in {a : Nat} {B : Nat → Bool} {s : Vars E D} {ds : Nat → D} {e : E} (h : Bound a B s ds e) {i : Nat} {g : Gen E D} (hi : B i = true)
    (hg : g.eng = .reference a ∨ g.eng = .pointer a) (e' : E) (d' : D) : Bound a B (write s i g e' d') (Function.update ds i d') e' := by
  constructor
  · rcases hg with hg | hg <;> simp [write, hg]
  · intro j hj
    by_cases hij : j = i
    · subst hij
      rcases hg with hg | hg <;> simp [write, hg]
    · rw [write_gens hij, Function.update_of_ne hij]
      exact h.inside j hj
  · intro j k hj hk
    have hij : j ≠ i := fun h => by rw [h, hi] at hj; cases hj
    rw [write_gens hij] at hk
    exact h.outside j k hj hk

theorem Bound.write_out {a : Nat} {B : Nat → Bool} {s : Vars E D} {ds : Nat → D} {e : E} (h : Bound a B s ds e) {i : Nat} {g : Gen E D} (hi : B i = false)
    (hg : g.eng ≠ .reference a ∧ g.eng ≠ .pointer a) (e' : E) (d' : D) : Bound a B (write s i g e' d') ds e := by
  constructor
  · unfold write
    split
    · exact h.live
    · rename_i b hb
      exact (put_other _ _ fun hab => hg.1 (by rw [hb, hab])).trans h.live
    · rename_i b hb
      exact (put_other _ _ fun hab => hg.2 (by rw [hb, hab])).trans h.live
  · intro j hj
    have hij : j ≠ i := fun h => by rw [h, hi] at hj; cases hj
    rw [write_gens hij]
    exact h.inside j hj
  · intro j k hj hk
    by_cases hij : j = i
    · subst hij
      obtain ⟨m, d⟩ := g
      cases m <;> simp only [write, put_same, Option.some.injEq] at hk <;> subst hk <;> simp_all
    · rw [write_gens hij] at hk
      exact h.outside j k hj hk

theorem Bound.put_out {a : Nat} {B : Nat → Bool} {s : Vars E D} {ds : Nat → D} {e : E} (h : Bound a B s ds e) {i : Nat} {v : Option (Gen E D)} (hi : B i = false)
    (hv : ∀ g, v = some g → g.eng ≠ .reference a ∧ g.eng ≠ .pointer a) : Bound a B { s with gens := put s.gens i v } ds e := by
  constructor
  · exact h.live
  · intro j hj
    have hij : j ≠ i := fun h => by rw [h, hi] at hj; cases hj
    have := h.inside j hj
    rwa [← put_other s.gens v hij] at this
  · intro j k hj hk
    by_cases hij : j = i
    · subst hij
      exact hv k (by simpa using hk)
    · exact h.outside j k hj (by rwa [← put_other s.gens v hij])

theorem Bound.engines {a : Nat} {B : Nat → Bool} {s : Vars E D} {ds : Nat → D} {e e' : E} (h : Bound a B s ds e) {f : Nat → Option E} (hf : f a = some e') :
    Bound a B { s with engines := f } ds e' := ⟨hf, h.inside, h.outside⟩

/-- One action of a program in which the generators in `B` share engine `a`. -/
theorem shared_step {cl : D → E → Option T → R × D × E} {a : Nat} {B : Nat → Bool} {s : Vars E D} {ds : Nat → D} {e : E} (hb : Bound a B s ds e)
    {x : Act E D T} (hk : Spec.Vg.Keeps a B x) {t : Vars E D} {o : List (Nat × R)} (h : step cl s x = .ok (t, o)) :
    o.filter (B ·.1) = (Spec.Vg.shared cl ds e (Spec.Vg.events a B [x])).1 ∧
      Bound a B t (Spec.Vg.shared cl ds e (Spec.Vg.events a B [x])).2.1 (Spec.Vg.shared cl ds e (Spec.Vg.events a B [x])).2.2 := by
  cases x
  case call i v =>
    obtain ⟨g, e', hg, he, rfl, rfl⟩ := step_call h
    cases hi : B i
    · simp only [Spec.Vg.events, List.filterMap_cons, hi, List.filterMap_nil]
      exact ⟨by simp [hi, Spec.Vg.shared], hb.write_out hi (hb.outside i g hi hg) _ _⟩
    · obtain ⟨g', hg', hd, hm, he'⟩ := hb.gen hi
      rw [hg] at hg'
      injection hg' with hg'
      subst hg'
      rw [he] at he'
      injection he' with he'
      subst he'
      simp only [Spec.Vg.events, List.filterMap_cons, hi, List.filterMap_nil, Spec.Vg.shared, if_true]
      rw [hd]
      exact ⟨by simp [hi], hb.write_in hi hm _ _⟩
  all_goals have ho := step_out h (by intro _ _ h; cases h)
  all_goals subst ho
  all_goals simp only [Spec.Vg.Keeps] at hk
  case newEngine b f =>
    simp only [step] at h
    injection h with h
    injection h with h _
    subst h
    exact ⟨rfl, hb.engines ((put_other _ _ (Ne.symm hk)).trans hb.live)⟩
  case dropEngine b =>
    simp only [step] at h
    split at h
    · cases h
    · injection h with h
      injection h with h _
      subst h
      exact ⟨rfl, hb.engines ((put_other _ _ (Ne.symm hk)).trans hb.live)⟩
  case useEngine b f =>
    simp only [step] at h
    split at h
    · cases h
    · rename_i e' he'
      injection h with h
      injection h with h _
      subst h
      by_cases hba : b = a
      · subst hba
        rw [hb.live] at he'
        injection he' with he'
        subst he'
        simp only [Spec.Vg.events, List.filterMap_cons, List.filterMap_nil, Spec.Vg.shared, if_true]
        exact ⟨rfl, hb.engines (put_same _ _ _)⟩
      · simp only [Spec.Vg.events, List.filterMap_cons, List.filterMap_nil, Spec.Vg.shared, if_neg hba]
        exact ⟨rfl, hb.engines ((put_other _ _ (Ne.symm hba)).trans hb.live)⟩
  case make i k b d =>
    simp only [step] at h
    split at h
    · rename_i g hg
      injection h with h
      injection h with h _
      subst h
      refine ⟨rfl, hb.put_out hk.1 ?_⟩
      rintro g' hgg
      injection hgg with hgg
      subst hgg
      simp only [construct] at hg
      split at hg
      · injection hg with hg; subst hg; simp
      · injection hg with hg; subst hg
        simp only [ne_eq, Member.reference.injEq, reduceCtorEq, not_false_eq_true, and_true]
        exact fun hba => by cases hk.2 hba
      · injection hg with hg; subst hg
        simp only [ne_eq, Member.pointer.injEq, reduceCtorEq, not_false_eq_true, true_and]
        exact fun hba => by cases hk.2 hba
      · cases hg
    all_goals cases h
  case copy i j =>
    simp only [step] at h
    split at h
    · cases h
    · rename_i g hg
      injection h with h
      injection h with h _
      subst h
      refine ⟨rfl, hb.put_out hk.1 ?_⟩
      rintro g' hgg
      injection hgg with hgg
      subst hgg
      exact hb.outside j g hk.2 hg
  case assign i j =>
    simp only [step] at h
    split at h
    · rename_i s' hs
      injection h with h
      injection h with h _
      subst h
      simp only [assign] at hs
      split at hs
      · rename_i g g' hg hg'
        have hput : Bound a B { s with gens := put s.gens i (some g') } ds e := by
          refine hb.put_out hk.1 ?_
          rintro g'' hgg
          injection hgg with hgg
          subst hgg
          exact hb.outside j g' hk.2 hg'
        split at hs
        · injection hs with hs; subst hs; exact ⟨rfl, hput⟩
        · injection hs with hs; subst hs; exact ⟨rfl, hput⟩
        · cases hs
      · cases hs
    all_goals cases h
  case dropGen i =>
    simp only [step] at h
    split at h
    · cases h
    · injection h with h
      injection h with h _
      subst h
      exact ⟨rfl, hb.put_out hk (by intro _ h; cases h)⟩
  case engineOf i f =>
    simp only [step] at h
    split at h
    · cases h
    · rename_i g hg
      split at h
      · cases h
      · rename_i e' he
        injection h with h
        injection h with h _
        subst h
        cases hi : B i
        · simp only [Spec.Vg.events, List.filterMap_cons, hi, List.filterMap_nil]
          exact ⟨rfl, hb.write_out hi (hb.outside i g hi hg) _ _⟩
        · obtain ⟨g', hg', hd, hm, he'⟩ := hb.gen hi
          rw [hg] at hg'
          injection hg' with hg'
          subst hg'
          rw [he] at he'
          injection he' with he'
          subst he'
          simp only [Spec.Vg.events, List.filterMap_cons, hi, List.filterMap_nil, Spec.Vg.shared, if_true]
          have := hb.write_in hi hm (f e') g.dist
          rw [hd, Function.update_eq_self] at this
          rw [hd]
          exact ⟨rfl, this⟩
  case distOf i f =>
    simp only [step] at h
    split at h
    · cases h
    · rename_i g hg
      injection h with h
      injection h with h _
      subst h
      refine ⟨rfl, hb.put_out hk ?_⟩
      rintro g' hgg
      injection hgg with hgg
      subst hgg
      exact hb.outside i g hk hg

/-- Events one after the other. -/
theorem shared_append (cl : D → E → Option T → R × D × E) (p q : List (Spec.Vg.Event E T)) : ∀ (ds : Nat → D) (e : E),
    Spec.Vg.shared cl ds e (p ++ q) =
      ((Spec.Vg.shared cl ds e p).1 ++ (Spec.Vg.shared cl (Spec.Vg.shared cl ds e p).2.1 (Spec.Vg.shared cl ds e p).2.2 q).1,
        (Spec.Vg.shared cl (Spec.Vg.shared cl ds e p).2.1 (Spec.Vg.shared cl ds e p).2.2 q).2) := by
  induction p with
  | nil => intro ds e; rfl
  | cons x p ih =>
    intro ds e
    cases x with
    | use f => exact ih _ _
    | call i v =>
      simp only [List.cons_append, Spec.Vg.shared, ih]

theorem shared_run (cl : D → E → Option T → R × D × E) (a : Nat) (B : Nat → Bool) (p : List (Act E D T)) : ∀ (s : Vars E D) (ds : Nat → D) (e : E)
    (s' : Vars E D) (o : List (Nat × R)), Bound a B s ds e → (∀ x ∈ p, Spec.Vg.Keeps a B x) → run cl s p = .ok (s', o) →
    o.filter (B ·.1) = (Spec.Vg.shared cl ds e (Spec.Vg.events a B p)).1 ∧
      Bound a B s' (Spec.Vg.shared cl ds e (Spec.Vg.events a B p)).2.1 (Spec.Vg.shared cl ds e (Spec.Vg.events a B p)).2.2 := by
  induction p with
  | nil =>
    intro s ds e s' o hb _ h
    injection h with h
    injection h with h1 h2
    subst h1 h2
    exact ⟨rfl, hb⟩
  | cons x p ih =>
    intro s ds e s' o hb hk h
    obtain ⟨t, o1, o2, h1, h2, rfl⟩ := run_cons h
    have hs := shared_step hb (hk x List.mem_cons_self) h1
    have := ih _ _ _ s' o2 hs.2 (fun y hy => hk y (List.mem_cons_of_mem _ hy)) h2
    have hev : Spec.Vg.events a B (x :: p) = Spec.Vg.events a B [x] ++ Spec.Vg.events a B p := by
      rw [Spec.Vg.events, ← List.singleton_append, List.filterMap_append]; rfl
    rw [hev, shared_append]
    exact ⟨by rw [List.filter_append, hs.1, this.1], this.2⟩

/-- Every engine that a generator refers to is alive. -/
def Alive (A G : Nat → Prop) (s : Vars E D) : Prop :=
  (∀ a, A a → (s.engines a).isSome) ∧ (∀ i, G i → (s.gens i).isSome) ∧ ∀ i g, s.gens i = some g → (engine s g).isSome

theorem engine_mono {s t : Vars E D} (h : ∀ a, (s.engines a).isSome → (t.engines a).isSome) {g : Gen E D} (hg : (engine s g).isSome) : (engine t g).isSome := by
  unfold engine at hg ⊢
  split <;> simp_all

theorem put_some {α : Type} (f : Nat → Option α) (a b : Nat) (v : α) (h : (f b).isSome) : (put f a (some v) b).isSome := by
  unfold put
  split
  · rfl
  · exact h

theorem write_alive {A G : Nat → Prop} {s : Vars E D} (h : Alive A G s) {i : Nat} {g : Gen E D} (hg : s.gens i = some g) (e : E) (d : D) :
    Alive A G (write s i g e d) := by
  have hm : ∀ a, (s.engines a).isSome → ((write s i g e d).engines a).isSome := by
    intro a ha
    unfold write
    split
    · exact ha
    · exact put_some _ _ _ _ ha
    · exact put_some _ _ _ _ ha
  refine ⟨fun a ha => hm a (h.1 a ha), fun j hj => ?_, fun j k hk => ?_⟩
  · by_cases hij : j = i
    · subst hij
      unfold write
      split <;> simp
    · rw [write_gens hij]
      exact h.2.1 j hj
  · by_cases hij : j = i
    · subst hij
      have hge := h.2.2 j g hg
      obtain ⟨m, d0⟩ := g
      cases m with
      | value e0 =>
        simp only [write, put_same, Option.some.injEq] at hk
        subst hk
        rfl
      | reference a =>
        have := hm a hge
        simp only [write, put_same, Option.some.injEq] at hk
        subst hk
        exact this
      | pointer a =>
        have := hm a hge
        simp only [write, put_same, Option.some.injEq] at hk
        subst hk
        exact this
    · rw [write_gens hij] at hk
      exact engine_mono hm (h.2.2 j k hk)

theorem put_gen_alive {A G G' : Nat → Prop} {s : Vars E D} (h : Alive A G s) {i : Nat} {g : Gen E D} (hg : (engine s g).isSome) (hG : ∀ j, G' j → j = i ∨ G j) :
    Alive A G' { s with gens := put s.gens i (some g) } := by
  refine ⟨h.1, fun j hj => ?_, fun j k hk => ?_⟩
  · rcases hG j hj with rfl | hj
    · simp
    · exact put_some _ _ _ _ (h.2.1 j hj)
  · by_cases hij : j = i
    · subst hij
      simp only [put_same, Option.some.injEq] at hk
      subst hk
      exact hg
    · exact h.2.2 j k (by rwa [← put_other s.gens (some g) hij])

/-- Programs that name what exists are defined. -/
theorem names_run (cl : D → E → Option T → R × D × E) (p : List (Act E D T)) : ∀ (A G : Nat → Prop) (s : Vars E D), Alive A G s → Spec.Vg.Names A G p →
    ∃ s' o, run cl s p = .ok (s', o) := by
  induction p with
  | nil => intro A G s _ _; exact ⟨s, [], rfl⟩
  | cons x p ih =>
    intro A G s hs hn
    suffices ∃ t o1, step cl s x = .ok (t, o1) ∧ ∃ s' o, run cl t p = .ok (s', o) by
      obtain ⟨t, o1, h1, s', o, h2⟩ := this
      exact ⟨s', o1 ++ o, by rw [run, h1]; simp only [h2]⟩
    cases x
    case dropEngine a => exact hn.elim
    case assign i j => exact hn.elim
    case newEngine a e =>
      refine ⟨_, _, rfl, ih _ _ _ ⟨?_, hs.2.1, ?_⟩ hn⟩
      · rintro b (rfl | hb)
        · simp
        · exact put_some _ _ _ _ (hs.1 b hb)
      · exact fun i g hg => engine_mono (fun b hb => put_some _ _ _ _ hb) (hs.2.2 i g hg)
    case useEngine a f =>
      obtain ⟨e, he⟩ := Option.isSome_iff_exists.1 (hs.1 a hn.1)
      refine ⟨{ s with engines := put s.engines a (some (f e)) }, _, by simp only [step, he]; rfl, ih _ _ _ ⟨?_, hs.2.1, ?_⟩ hn.2⟩
      · exact fun b hb => put_some _ _ _ _ (hs.1 b hb)
      · exact fun i g hg => engine_mono (fun b hb => put_some _ _ _ _ hb) (hs.2.2 i g hg)
    case make i k a d =>
      obtain ⟨e, he⟩ := Option.isSome_iff_exists.1 (hs.1 a hn.1)
      cases k
      all_goals refine ⟨_, _, by simp only [step, construct, he]; rfl, ih _ _ _ (put_gen_alive hs ?_ fun j hj => hj) hn.2⟩
      all_goals simp [engine, he]
    case copy i j =>
      obtain ⟨g, hg⟩ := Option.isSome_iff_exists.1 (hs.2.1 j hn.1)
      exact ⟨_, _, by simp only [step, hg]; rfl, ih _ _ _ (put_gen_alive hs (hs.2.2 j g hg) fun j hj => hj) hn.2⟩
    case dropGen i =>
      obtain ⟨g, hg⟩ := Option.isSome_iff_exists.1 (hs.2.1 i hn.1)
      refine ⟨{ s with gens := put s.gens i none }, _, by simp only [step, hg]; rfl, ih _ _ _ ⟨hs.1, ?_, ?_⟩ hn.2⟩
      · intro j hj
        show (put s.gens i none j).isSome
        rw [put_other _ _ hj.1]
        exact hs.2.1 j hj.2
      · intro j k hk
        have hij : j ≠ i := fun h => by subst h; simp at hk
        exact hs.2.2 j k (by rwa [← put_other s.gens none hij])
    case call i v =>
      obtain ⟨g, hg⟩ := Option.isSome_iff_exists.1 (hs.2.1 i hn.1)
      obtain ⟨e, he⟩ := Option.isSome_iff_exists.1 (hs.2.2 i g hg)
      exact ⟨_, _, by simp only [step, invoke, hg, he]; rfl, ih _ _ _ (write_alive hs hg _ _) hn.2⟩
    case engineOf i f =>
      obtain ⟨g, hg⟩ := Option.isSome_iff_exists.1 (hs.2.1 i hn.1)
      obtain ⟨e, he⟩ := Option.isSome_iff_exists.1 (hs.2.2 i g hg)
      exact ⟨_, _, by simp only [step, hg, he]; rfl, ih _ _ _ (write_alive hs hg _ _) hn.2⟩
    case distOf i f =>
      obtain ⟨g, hg⟩ := Option.isSome_iff_exists.1 (hs.2.1 i hn.1)
      refine ⟨_, _, by simp only [step, hg]; rfl, ih _ _ _ (put_gen_alive hs (g := ⟨g.eng, f g.dist⟩) (hs.2.2 i g hg) fun j hj => .inr hj) hn.2⟩

/-- An engine that is not alive stays so until a new one is made in its place. -/
theorem dead_step {cl : D → E → Option T → R × D × E} {s : Vars E D} {x : Act E D T} {t : Vars E D} {o : List (Nat × R)} {a : Nat}
    (h : step cl s x = .ok (t, o)) (hd : s.engines a = none) (hx : ∀ e, x ≠ .newEngine a e) : t.engines a = none := by
  have hw : ∀ i g e e' d, engine s g = some e → (write s i g e' d).engines a = none := by
    intro i g e e' d he
    unfold write
    split
    · exact hd
    · rename_i b hb
      simp only [engine, hb] at he
      exact (put_other _ _ fun hab => by rw [← hab, hd] at he; cases he).trans hd
    · rename_i b hb
      simp only [engine, hb] at he
      exact (put_other _ _ fun hab => by rw [← hab, hd] at he; cases he).trans hd
  cases x
  case call i v =>
    obtain ⟨g, e, _, he, rfl, _⟩ := step_call h
    exact hw _ _ _ _ _ he
  case assign j k =>
    simp only [step, assign] at h
    repeat' split at h
    all_goals first
      | (cases h; done)
      | (rename_i hh; repeat' split at hh
         all_goals first
          | (cases hh; done)
          | (injection hh with hh; injection h with h; injection h with h _; subst h hh; exact hd))
  case newEngine b e =>
    simp only [step] at h
    injection h with h
    injection h with h _
    subst h
    exact (put_other _ _ fun hab => hx e (by rw [hab])).trans hd
  case useEngine b f =>
    simp only [step] at h
    split at h
    · cases h
    · rename_i e he
      injection h with h
      injection h with h _
      subst h
      exact (put_other _ _ fun hab => by rw [← hab, hd] at he; cases he).trans hd
  case dropEngine b =>
    simp only [step] at h
    split at h
    · cases h
    · injection h with h
      injection h with h _
      subst h
      show put _ _ _ _ = _
      unfold put
      split
      · rfl
      · exact hd
  all_goals
    simp only [step] at h
    repeat' split at h
    all_goals first
      | (cases h; done)
      | (injection h with h; injection h with h _; subst h; first | exact hd | exact hw _ _ _ _ _ (by assumption))

theorem dead_run (cl : D → E → Option T → R × D × E) (a i : Nat) (p : List (Act E D T)) : ∀ (s : Vars E D) (m : Member E) (s' : Vars E D) (o : List (Nat × R)),
    s.engines a = none → (∃ d, s.gens i = some ⟨m, d⟩) → (m = .reference a ∨ m = .pointer a) → (∀ x ∈ p, ¬ Spec.Vg.Touches i x ∧ ∀ e, x ≠ .newEngine a e) →
    run cl s p = .ok (s', o) → s'.engines a = none ∧ ∃ d, s'.gens i = some ⟨m, d⟩ := by
  induction p with
  | nil =>
    intro s m s' o hd hg _ _ h
    injection h with h
    injection h with h1 h2
    subst h1 h2
    exact ⟨hd, hg⟩
  | cons x p ih =>
    intro s m s' o hd hg hm ht h
    obtain ⟨t, o1, o2, h1, h2, rfl⟩ := run_cons h
    have hx := ht x List.mem_cons_self
    refine ih t m s' o2 (dead_step h1 hd hx.2) ?_ hm (fun y hy => ht y (List.mem_cons_of_mem _ hy)) h2
    obtain ⟨d, hg⟩ := hg
    refine ⟨d, (step_gens h1 hx.1 ?_).trans hg⟩
    rintro v rfl
    obtain ⟨g, e, hg', he, _, _⟩ := step_call h1
    rw [hg] at hg'
    injection hg' with hg'
    subst hg'
    rcases hm with rfl | rfl <;> simp [engine, hd] at he

/-- Programs one after the other. -/
theorem run_append (cl : D → E → Option T → R × D × E) (p q : List (Act E D T)) : ∀ (s s' : Vars E D) (o : List (Nat × R)), run cl s p = .ok (s', o) →
    run cl s (p ++ q) = match run cl s' q with
      | .ok (t, o') => .ok (t, o ++ o')
      | .ub => .ub
      | .illFormed => .illFormed := by
  induction p with
  | nil =>
    intro s s' o h
    injection h with h
    injection h with h1 h2
    subst h1 h2
    simp only [List.nil_append]
    cases run cl s q <;> rfl
  | cons x p ih =>
    intro s s' o h
    obtain ⟨t, o1, o2, h1, h2, rfl⟩ := run_cons h
    rw [List.cons_append, run, h1]
    simp only [ih t s' o2 h2]
    cases run cl s' q with
    | ok v => simp [List.append_assoc]
    | ub => rfl
    | illFormed => rfl

end Vg
end Boost.Random
