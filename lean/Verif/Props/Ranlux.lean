import Verif.Props.Swc01
import Verif.Props.Adaptors

/-!
# C126: the `ranlux` engines
-/

namespace Boost.Random
open Spec

theorem ranlux64Base_valid : SwcValid ranlux64Base := ⟨by decide, by decide, by decide⟩

theorem Swc.run_engine (E : Swc) (n : Nat) (st : SwcState) :
    run E.engine.next n st = (run E.next n st).map fun p => (p.1.map fun v : Nat => (v : Int), p.2) := by
  induction n generalizing st with
  | zero => rfl
  | succ n ih =>
    simp only [run, Option.bind_eq_bind]
    show ((E.next st).map fun p => ((p.1 : Int), p.2)).bind _ = _
    cases E.next st with
    | none => rfl
    | some p =>
      simp only [Option.map_some, Option.bind_some, ih]
      cases run E.next n p.2 <;> rfl

theorem Swc.sameFuture_engine (E : Swc) {a b : SwcState} (h : SameFuture E.next a b) : SameFuture E.engine.next a b := by
  intro n
  rw [Swc.run_engine, Swc.run_engine, Option.map_map, Option.map_map]
  have := congrArg (Option.map (List.map fun v : Nat => (v : Int))) (h n)
  rwa [Option.map_map, Option.map_map] at this

/-- C126, the text of the base engines. -/
theorem Swc.textOK (E : Swc) (hv : SwcValid E) : TextOK E.engine (SwcOK E) := by
  intro s other hs ho rest
  obtain ⟨s', e, ok, heq, -, -, hf⟩ := c18_round_trip hv s hs other ho.len rest
  exact ⟨s', e, ok, heq, Swc.sameFuture_engine E hf⟩

theorem Swc01.textOK {fl : ℚ → ℚ} (E : Swc01) (R : Rounding E.digits fl) (hv : Swc01Valid E) :
    TextOK (E.engine fl) fun st => ∃ s, SwcOK (swcOf E) s ∧ st = asFractions E.w s := by
  rintro _ _ ⟨s, hs, rfl⟩ ⟨o, ho, rfl⟩ rest
  obtain ⟨s', e, ok, heq, -, -, hf⟩ := c125_round_trip R hv s hs (asFractions E.w o) ((List.length_map _).trans ho.len) rest
  exact ⟨_, e, ⟨s', ok, rfl⟩, heq, hf⟩

/-- **C126.** The six `ranlux` engines with integral results return, from any state of the base, the values with numbers
`(n div r) p + n mod r` of the subtract-with-carry sequence continued from the table: `r` values are used, `p - r` are thrown away. -/
theorem c126_values (E : Swc) (p r : Nat) (hE : (E, p, r) ∈ ranluxInt) (st : SwcState) (h : SwcOK E st) :
    ∃ X C : Nat → Nat, IsSwc E.w E.s E.r X C ∧ (∀ j < E.r, X j = swcWindow st j) ∧ C 0 = st.carry ∧
      Produces (DiscardBlock.next p r E.engine) ⟨st, 0⟩ fun n => (X (n / r * p + n % r + E.r) : Int) := by
  have hval : SwcValid E ∧ 0 < r ∧ r ≤ p ∧ p < 2 ^ 64 := by
    simp only [ranluxInt, List.mem_cons, Prod.mk.injEq, List.not_mem_nil, or_false] at hE
    rcases hE with ⟨rfl, rfl, rfl⟩ | ⟨rfl, rfl, rfl⟩ | ⟨rfl, rfl, rfl⟩ | ⟨rfl, rfl, rfl⟩ | ⟨rfl, rfl, rfl⟩ | ⟨rfl, rfl, rfl⟩ <;>
      first
      | exact ⟨ranluxBase_valid, by decide, by decide, by decide⟩
      | exact ⟨ranlux64Base_valid, by decide, by decide, by decide⟩
      | exact ⟨ranlux48Base_valid, by decide, by decide, by decide⟩
  obtain ⟨hv, h1, h2, h3⟩ := hval
  obtain ⟨X, C, a, b, c, -, -, d⟩ := c15_recurrence hv st h
  refine ⟨X, C, a, b, c, ?_⟩
  refine c31_block p r E.engine st (fun n => (X (n + E.r) : Int)) h1 h2 h3 fun n => ?_
  obtain ⟨st', e, -⟩ := d n
  refine ⟨st', ?_⟩
  rw [Swc.run_engine, e, Option.map_some, List.map_map]
  rfl

/-- **C126**, the four `ranlux` engines with floating-point results: the same sequence divided by `2^w`, without rounding error. -/
theorem c126_values_real {fl : ℚ → ℚ} (E : Swc01) (p r : Nat) (hE : (E, p, r) ∈ ranlux01) (R : Rounding E.digits fl) (st : SwcState)
    (h : SwcOK (swcOf E) st) :
    ∃ X C : Nat → Nat, IsSwc E.w E.s E.r X C ∧ (∀ j < E.r, X j = swcWindow st j) ∧ C 0 = st.carry ∧ (∀ n, X n < 2 ^ E.w) ∧
      Produces (DiscardBlock.next p r (E.engine fl)) ⟨asFractions E.w st, 0⟩ fun n => (X (n / r * p + n % r + E.r) : ℚ) / 2 ^ E.w := by
  have hval : Swc01Valid E ∧ 0 < r ∧ r ≤ p ∧ p < 2 ^ 64 := by
    simp only [ranlux01, List.mem_cons, Prod.mk.injEq, List.not_mem_nil, or_false] at hE
    rcases hE with ⟨rfl, rfl, rfl⟩ | ⟨rfl, rfl, rfl⟩ | ⟨rfl, rfl, rfl⟩ | ⟨rfl, rfl, rfl⟩ <;>
      first
      | exact ⟨ranluxBase01_valid, by decide, by decide, by decide⟩
      | exact ⟨ranlux64Base01_valid, by decide, by decide, by decide⟩
  obtain ⟨hv, h1, h2, h3⟩ := hval
  obtain ⟨X, C, a, b, c, hX, -, d⟩ := c122_recurrence R hv st h
  refine ⟨X, C, a, b, c, hX, ?_⟩
  refine c31_block p r (E.engine fl) _ (fun n => (X (n + E.r) : ℚ) / 2 ^ E.w) h1 h2 h3 fun n => ?_
  obtain ⟨st', e, -⟩ := d n
  exact ⟨_, e⟩

example : (ranluxBase, 223, 23) ∈ ranluxInt ∧ (ranluxBase01, 223, 24) ∈ ranlux01 ∧ SwcOK ranluxBase ⟨List.range 24, 0, 0⟩ ∧
    SwcOK (swcOf ranluxBase01) ⟨List.range 24, 0, 0⟩ := by
  refine ⟨?_, ?_, ⟨rfl, by decide, by decide, by decide⟩, ⟨rfl, by decide, by decide, by decide⟩⟩ <;> simp [ranluxInt, ranlux01]

/-- **C126**, text: writing any `ranlux` engine and reading the text into any other one of the same type restores it and its future. -/
theorem c126_text (E : Swc) (p r : Nat) (hE : (E, p, r) ∈ ranluxInt) :
    TextOK (DiscardBlock.engine p r E.engine) fun st => SwcOK E st.rng ∧ st.n < 2 ^ 64 := by
  have hv : SwcValid E := by
    simp only [ranluxInt, List.mem_cons, Prod.mk.injEq, List.not_mem_nil, or_false] at hE
    rcases hE with ⟨rfl, -⟩ | ⟨rfl, -⟩ | ⟨rfl, -⟩ | ⟨rfl, -⟩ | ⟨rfl, -⟩ | ⟨rfl, -⟩ <;>
      first | exact ranluxBase_valid | exact ranlux64Base_valid | exact ranlux48Base_valid
  exact c56_block_text p r E.engine (SwcOK E) (Swc.textOK E hv)

theorem c126_text_real {fl : ℚ → ℚ} (E : Swc01) (p r : Nat) (hE : (E, p, r) ∈ ranlux01) (R : Rounding E.digits fl) :
    TextOK (DiscardBlock.engine p r (E.engine fl)) fun st => (∃ s, SwcOK (swcOf E) s ∧ st.rng = asFractions E.w s) ∧ st.n < 2 ^ 64 := by
  have hv : Swc01Valid E := by
    simp only [ranlux01, List.mem_cons, Prod.mk.injEq, List.not_mem_nil, or_false] at hE
    rcases hE with ⟨rfl, -⟩ | ⟨rfl, -⟩ | ⟨rfl, -⟩ | ⟨rfl, -⟩ <;> first | exact ranluxBase01_valid | exact ranlux64Base01_valid
  exact c56_block_text p r (E.engine fl) _ (Swc01.textOK E R hv)

/-- **C126**, `discard(z)` of the adaptor makes `z` calls, so that it is right even where that of the base is not (C16, C123). -/
theorem c126_discard {σ β : Type} (p r : Nat) (B : Engine σ β) (z : Nat) (st : BlockState σ) :
    DiscardBlock.discard p r B z st = stateAfter (DiscardBlock.next p r B) z st := by
  induction z generalizing st with
  | zero => rfl
  | succ z ih =>
    rw [DiscardBlock.discard, Nat.add_comm, stateAfter_add, stateAfter_one]
    cases DiscardBlock.next p r B st with
    | none => rfl
    | some q => simp [ih]

example : DiscardBlock.discard 3 2 swcTiny.engine 3 ⟨⟨[3, 9, 5], 1, 0⟩, 0⟩ =
    stateAfter (DiscardBlock.next 3 2 swcTiny.engine) 3 ⟨⟨[3, 9, 5], 1, 0⟩, 0⟩ := by decide

/-- **C126 (comparison is wrong).** Two `ranlux3` engines that compare equal, and whose next values differ: the borrow of the base is not
compared. -/
theorem c126_equal_false :
    ∃ a b, SwcOK ranluxBase a.rng ∧ SwcOK ranluxBase b.rng ∧ (DiscardBlock.engine 223 24 ranluxBase.engine).eq a b = true ∧
      (run (DiscardBlock.next 223 24 ranluxBase.engine) 1 a).map Prod.fst ≠ (run (DiscardBlock.next 223 24 ranluxBase.engine) 1 b).map Prod.fst :=
  ⟨⟨⟨List.replicate 24 5, 0, 0⟩, 0⟩, ⟨⟨List.replicate 24 5, 1, 0⟩, 0⟩, ⟨rfl, by decide, by decide, by decide⟩,
    ⟨rfl, by decide, by decide, by decide⟩, by decide, by decide⟩

end Boost.Random
