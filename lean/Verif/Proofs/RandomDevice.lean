import Verif.Spec.RandomDevice
import Mathlib.Tactic.IntervalCases
import Mathlib.Data.List.Nodup
import Mathlib.Data.List.Perm.Basic

/-!
# `random_device`: lemmas
-/

namespace Boost.Random
namespace RandomDevice
open Spec

theorem bytesAt_length_le (data : Nat → Option (Fin 256)) (pos n : Nat) : (bytesAt data pos n).length ≤ n := by
  induction n generalizing pos with
  | zero => simp [bytesAt]
  | succ n ih =>
    rw [bytesAt]
    split
    · simp
    · simp only [List.length_cons]; have := ih (pos + 1); omega

theorem bytesAt_get (data : Nat → Option (Fin 256)) (pos n i : Nat) (hi : i < (bytesAt data pos n).length) : data (pos + i) = some (bytesAt data pos n)[i] := by
  induction n generalizing pos i with
  | zero => simp [bytesAt] at hi
  | succ n ih =>
    revert hi
    rw [bytesAt]
    split
    · rintro hi; simp at hi
    · rename_i b hb
      intro hi
      cases i with
      | zero => simpa using hb
      | succ i =>
        have := ih (pos + 1) i (by simpa using hi)
        rw [show pos + (i + 1) = pos + 1 + i by omega, this]
        simp

theorem bytesAt_end (data : Nat → Option (Fin 256)) (pos n : Nat) (h : (bytesAt data pos n).length < n) : data (pos + (bytesAt data pos n).length) = none := by
  induction n generalizing pos with
  | zero => simp at h
  | succ n ih =>
    revert h
    rw [bytesAt]
    split
    · rename_i hb; intro _; simpa using hb
    · intro h
      simp only [List.length_cons] at h ⊢
      have := ih (pos + 1) (by omega)
      rw [← this]; congr 1; omega

/-- The three ways in which the loop ends, from the point where `offset` bytes have been read. -/
theorem loop_spec (path : String) (little : Bool) (fuel : Nat) (got : List (Fin 256)) (f : File) (hg : got.length < 4) (hf : 4 - got.length ≤ fuel) :
    (∃ more r, loop path little fuel (got.map some ++ List.replicate (4 - got.length) none) got.length f =
        (match load little ((got ++ more).map some) with | none => .ub | some v => .ok v { f with pos := f.pos + more.length, reads := r }) ∧
      (got ++ more).length = 4 ∧ (∀ i (h : i < more.length), f.data (f.pos + i) = some more[i]) ∧ f.reads < r ∧ r ≤ f.reads + more.length ∧
      ∀ i, f.reads ≤ i → i < r → ∃ k, f.plan i = .give k) ∨
    (∃ e n r, loop path little fuel (got.map some ++ List.replicate (4 - got.length) none) got.length f =
        .throws (error path "error while reading" e) { f with pos := f.pos + n, reads := r + 1 } ∧ got.length + n < 4 ∧ (∀ i < n, f.data (f.pos + i) ≠ none) ∧
      f.reads ≤ r ∧ r ≤ f.reads + n ∧ f.plan r = .fail e ∧ ∀ i, f.reads ≤ i → i < r → ∃ k, f.plan i = .give k) ∨
    (∃ n r, loop path little fuel (got.map some ++ List.replicate (4 - got.length) none) got.length f =
        .throws (error path "EOF while reading" 0) { f with pos := f.pos + n, reads := r + 1 } ∧ got.length + n < 4 ∧ (∀ i < n, f.data (f.pos + i) ≠ none) ∧
      f.reads ≤ r ∧ r ≤ f.reads + n ∧ f.data (f.pos + n) = none ∧ ∀ i, f.reads ≤ i → i < r + 1 → ∃ k, f.plan i = .give k) := by
  induction fuel generalizing got f with
  | zero => omega
  | succ fuel ih =>
    rw [loop, File.read]
    cases hp : f.plan f.reads with
    | fail e =>
      refine Or.inr (Or.inl ⟨e, 0, f.reads, rfl, by omega, fun i hi => by omega, le_refl _, by omega, hp, fun i h1 h2 => by omega⟩)
    | give k =>
      dsimp only
      generalize hbs : bytesAt f.data f.pos (min (k + 1) (4 - got.length)) = bs
      have hl : bs.length ≤ min (k + 1) (4 - got.length) := hbs ▸ bytesAt_length_le _ _ _
      have hget : ∀ i (h : i < bs.length), f.data (f.pos + i) = some bs[i] := fun i h => by subst hbs; exact bytesAt_get _ _ _ i h
      have hone : ∀ i, f.reads ≤ i → i < f.reads + 1 → ∃ k, f.plan i = .give k := fun i h1 h2 => ⟨k, by rw [show i = f.reads by omega, hp]⟩
      by_cases h0 : bs.length = 0
      · rw [if_pos h0]
        refine Or.inr (Or.inr ⟨0, f.reads, by rw [h0], by omega, fun i hi => by omega, le_refl _, by omega, ?_, hone⟩)
        have := bytesAt_end f.data f.pos (min (k + 1) (4 - got.length)) (by rw [hbs, h0]; omega)
        rwa [hbs, h0] at this
      · rw [if_neg h0]
        have hst : store (got.map some ++ List.replicate (4 - got.length) none) got.length bs =
            some ((got ++ bs).map some ++ List.replicate (4 - (got ++ bs).length) none) := by
          rw [store, if_pos (by simp; omega)]
          have e1 : (List.map some got ++ List.replicate (4 - got.length) (none : Option (Fin 256))).take got.length = got.map some := by
            rw [List.take_append_of_le_length (by rw [List.length_map]), List.take_of_length_le (by rw [List.length_map])]
          have e2 : (List.map some got ++ List.replicate (4 - got.length) (none : Option (Fin 256))).drop (got.length + bs.length) =
              List.replicate (4 - (got ++ bs).length) none := by
            rw [List.drop_append]
            simp only [List.length_map, List.drop_replicate, List.length_append]
            rw [List.drop_eq_nil_of_le (show (got.map some).length ≤ got.length + bs.length by rw [List.length_map]; omega), List.nil_append]
            congr 1
            omega
          rw [e1, e2, List.map_append]
        rw [hst]
        dsimp only
        by_cases h4 : got.length + bs.length < 4
        · rw [if_pos h4]
          have ih' := ih (got ++ bs) { f with pos := f.pos + bs.length, reads := f.reads + 1 } (by simpa using h4) (by simp; omega)
          dsimp only at ih'
          rw [show (got ++ bs).length = got.length + bs.length by simp] at ih' ⊢
          have hd : ∀ n, (∀ i < n, f.data (f.pos + bs.length + i) ≠ none) → ∀ i < bs.length + n, f.data (f.pos + i) ≠ none := fun n hn i hi => by
            rcases Nat.lt_or_ge i bs.length with h | h
            · rw [hget i h]; simp
            · have := hn (i - bs.length) (by omega)
              rwa [show f.pos + bs.length + (i - bs.length) = f.pos + i by omega] at this
          have hpl : ∀ r, (∀ i, f.reads + 1 ≤ i → i < r → ∃ k, f.plan i = .give k) → ∀ i, f.reads ≤ i → i < r → ∃ k, f.plan i = .give k := fun r hr i h1 h2 => by
            rcases Nat.lt_or_ge i (f.reads + 1) with h | h
            · exact hone i h1 h
            · exact hr i h h2
          rcases ih' with ⟨more, r, e, hl4, hm, h1, h2, h3⟩ | ⟨e, n, r, he, hn, hdn, h1, h2, h3, h5⟩ | ⟨n, r, he, hn, hdn, h1, h2, h3, h5⟩
          · refine Or.inl ⟨bs ++ more, r, ?_, by rw [← List.append_assoc]; exact hl4, fun i hi => ?_, by omega, by simp; omega, hpl r h3⟩
            · rw [e, ← List.append_assoc, List.length_append, Nat.add_assoc]
            · rcases Nat.lt_or_ge i bs.length with h | h
              · rw [hget i h, List.getElem_append_left h]
              · rw [List.getElem_append_right h, ← hm (i - bs.length) (by simp at hi; omega)]
                congr 1; omega
          · exact Or.inr (Or.inl ⟨e, bs.length + n, r, by rw [he, Nat.add_assoc], by omega, hd n hdn, by omega, by omega, h3, hpl r h5⟩)
          · exact Or.inr (Or.inr ⟨bs.length + n, r, by rw [he, Nat.add_assoc], by omega, hd n hdn, by omega, by omega, by rw [← h3]; congr 1; omega, hpl (r + 1) h5⟩)
        · rw [if_neg h4]
          refine Or.inl ⟨bs, f.reads + 1, ?_, by simp; omega, hget, by omega, by omega, hone⟩
          rw [show 4 - (got ++ bs).length = 0 by simp; omega, List.replicate_zero, List.append_nil]
          cases load little (List.map some (got ++ bs)) <;> rfl

theorem load_four (little : Bool) (a b c d : Fin 256) : load little ([a, b, c, d].map some) = some (wordOf little a b c d) := by
  cases little
  · simp [load, wordOf]; omega
  · simp [load, wordOf]; omega

theorem wordOf_lt (little : Bool) (a b c d : Fin 256) : wordOf little a b c d < 2 ^ 32 := by
  cases little <;> simp [wordOf] <;> omega

/-! ## Programs -/

theorem lowestFree_free (table : List (Nat × File)) (fuel n : Nat) (h : (table.map Prod.fst).countP (fun i => decide (n ≤ i)) < fuel) (hn : (table.map Prod.fst).Nodup) :
    lowestFree table fuel n ∉ table.map Prod.fst := by
  induction fuel generalizing n with
  | zero => omega
  | succ fuel ih =>
    rw [lowestFree]
    split
    · rename_i hm
      refine ih (n + 1) ?_
      have : (table.map Prod.fst).countP (fun i => decide (n + 1 ≤ i)) < (table.map Prod.fst).countP (fun i => decide (n ≤ i)) := by
        clear h ih hn
        generalize table.map Prod.fst = l at hm
        induction l with
        | nil => simp at hm
        | cons x l ihl =>
          rw [List.countP_cons, List.countP_cons]
          have hmono : l.countP (fun i => decide (n + 1 ≤ i)) ≤ l.countP (fun i => decide (n ≤ i)) :=
            List.countP_mono_left fun i _ hi => by simp only [decide_eq_true_eq] at *; omega
          rcases List.mem_cons.1 hm with rfl | hm
          · simp; omega
          · have := ihl hm
            by_cases h1 : n + 1 ≤ x
            · simp [h1, show n ≤ x by omega]; exact this
            · by_cases h2 : n ≤ x
              · simp [h1, h2]; omega
              · simp [h1, h2]; exact this
      omega
    · rename_i hm; exact hm

theorem open_free (table : List (Nat × File)) (hn : (table.map Prod.fst).Nodup) : lowestFree table (table.length + 1) 0 ∉ table.map Prod.fst :=
  lowestFree_free table _ 0 (by have := List.countP_le_length (p := fun i => decide (0 ≤ i)) (l := table.map Prod.fst); simp at this ⊢) hn

/-- What holds between the actions of a program that started with the descriptors `base`. -/
structure Inv (base : List (Nat × File)) (s : Prog) : Prop where
  table : ∃ L, s.os.table = L ++ base ∧ (L.map Prod.fst).Perm (s.alive.map fun q => q.2.fd)
  fds : (s.os.table.map Prod.fst).Nodup
  names : (s.alive.map Prod.fst).Nodup

theorem find_alive {α : Type} {l : List (Nat × α)} (h : (l.map Prod.fst).Nodup) {q : Nat × α} (hq : q ∈ l) : l.find? (fun r => r.1 = q.1) = some q := by
  induction l with
  | nil => simp at hq
  | cons x l ih =>
    rw [List.map_cons, List.nodup_cons] at h
    rcases List.mem_cons.1 hq with rfl | hm
    · simp
    · have : x.1 ≠ q.1 := fun e => h.1 (e ▸ List.mem_map_of_mem hm)
      rw [List.find?_cons_of_neg (by simpa using this), ih h.2 hm]

theorem filter_ne_of_notMem {α : Type} {l : List (Nat × α)} {n : Nat} (h : n ∉ l.map Prod.fst) : l.filter (fun p => p.1 ≠ n) = l := by
  rw [List.filter_eq_self]
  intro q hq
  simp only [ne_eq, decide_eq_true_eq]
  rintro rfl
  exact h (List.mem_map_of_mem hq)

theorem map_filter_erase {α : Type} {l : List (Nat × α)} (g : Nat × α → Nat) (n : Nat) (h : (l.map Prod.fst).Nodup) {q : Nat × α} (hq : q ∈ l) (hn : q.1 = n) :
    (l.map g).Perm (g q :: (l.filter (fun p => p.1 ≠ n)).map g) := by
  induction l with
  | nil => simp at hq
  | cons x l ih =>
    rw [List.map_cons, List.nodup_cons] at h
    rcases List.mem_cons.1 hq with rfl | hm
    · rw [List.filter_cons_of_neg (by simp [hn]), filter_ne_of_notMem (hn ▸ h.1), List.map_cons]
    · have hx : x.1 ≠ n := fun e => h.1 (by rw [e, ← hn]; exact List.mem_map_of_mem hm)
      rw [List.filter_cons_of_pos (by simpa using hx), List.map_cons, List.map_cons]
      exact ((ih h.2 hm).cons _).trans (List.Perm.swap _ _ _)

end RandomDevice
end Boost.Random
