import Verif.Proofs.MtNarrow
import Verif.Props.MersenneTwister

/-!
# C156: Mersenne Twister on a type narrower than `int`
-/

namespace Boost.Random
open Spec

variable {P : Mt.Params}

/-- **C156 (false before C++20).** The masks are made by shifting the `int` -1 to the left: with the rules before C++20 every
seeding and every call that twists is undefined, whatever the parameters and the state. -/
theorem c156_cpp17_false (P : Mt.Params) :
    (∀ value, MtNarrow.seed P false value = none) ∧ (∀ ws, MtNarrow.seedWords P false ws = none) ∧
      ∀ x, MtNarrow.next P false ⟨x, P.n⟩ = none := by
  refine ⟨fun value => ?_, fun ws => ?_, fun x => ?_⟩
  · unfold MtNarrow.seed MtNarrow.normalize
    rw [MtNarrow.masks_false]
    simp only
    cases MtNarrow.seedLoop P (P.n - 1) 1 (value &&& Mt.maxv P) <;> rfl
  · unfold MtNarrow.seedWords MtNarrow.normalize
    rw [MtNarrow.masks_false]; rfl
  · unfold MtNarrow.next MtNarrow.twist
    rw [MtNarrow.masks_false, if_pos rfl]; rfl

theorem mtTiny_narrow : Spec.MtNarrow mtTiny := { mtTiny_valid with narrow := by decide, f_lt := by decide }

/-- A twister of 16-bit words, with a multiplier below 32769. -/
def mtShort : Mt.Params := ⟨16, 16, 5, 3, 3, 0xb7c5, 3, 0xffff, 2, 0x9cd0, 7, 0xe080, 9, 28629⟩
theorem mtShort_narrow : Spec.MtNarrow mtShort := by constructor <;> first | decide | (constructor <;> decide)

/-- **C156 (operation).** With the rules of C++20 all promotions are harmless: every call on every state returns what
arithmetic in the type itself would give (`Mt.next`, of which C20-C23 speak), and no operation is undefined. -/
theorem c156_next (h : Spec.MtNarrow P) (st : BlockEng Nat) (hs : MtShape P st) :
    MtNarrow.next P true st = Mt.next P st ∧
      ∃ v st', MtNarrow.next P true st = some (v, st') ∧ v ≤ Mt.maxv P ∧ MtShape P st' := by
  have e : MtNarrow.next P true st = Mt.next P st := by
    unfold MtNarrow.next Mt.next
    by_cases hi : st.i = P.n
    · rw [if_pos hi, if_pos hi, MtNarrow.twist_eq h]
      obtain ⟨v, st', e', -, -, hs'⟩ := c21_range h.toMtValid st hs
      unfold Mt.next at e'
      rw [if_pos hi] at e'
      cases ht : Mt.twist P st.x with
      | none => rfl
      | some x =>
        rw [ht] at e'
        simp only [Option.map_some, Option.bind_some] at e' ⊢
        cases hz : x[0]? with
        | none => rfl
        | some z =>
          rw [hz, Option.map_some, Option.some.injEq, Prod.mk.injEq] at e'
          rw [Option.bind_some, MtNarrow.temper_eq h true (hs'.lt z (by rw [← e'.2]; exact List.mem_of_getElem? hz))]
          rfl
    · rw [if_neg hi, if_neg hi]
      simp only [Option.bind_some]
      cases hz : st.x[st.i]? with
      | none => rfl
      | some z =>
        rw [Option.bind_some, MtNarrow.temper_eq h true (hs.lt z (List.mem_of_getElem? hz))]
        rfl
  obtain ⟨v, st', e', -, b, hs'⟩ := c21_range h.toMtValid st hs
  exact ⟨e, v, st', e.trans e', b, hs'⟩

example : (run (MtNarrow.next mtTiny true) 3 ⟨[1, 2, 3, 4, 250], 5⟩).map Prod.fst = some [17, 83, 190] := by decide
example : (run (MtNarrow.next mtShort true) 3 ⟨[1, 2, 3, 4, 65530], 5⟩).map Prod.fst =
    (run (Mt.next mtShort) 3 ⟨[1, 2, 3, 4, 65530], 5⟩).map Prod.fst := by decide

/-- C156 (seeding from a range or a sequence), with the rules of C++20: as in the type itself, never undefined. -/
theorem c156_seed_words (h : Spec.MtNarrow P) (ws : List Nat) (hl : ws.length = P.n) (hw : ∀ v ∈ ws, v < 2 ^ P.w) :
    MtNarrow.seedWords P true ws = Mt.seedWords P ws ∧
      ∃ st, MtNarrow.seedWords P true ws = some st ∧ MtShape P st ∧ MtReachable P st := by
  have e : MtNarrow.seedWords P true ws = Mt.seedWords P ws := by
    unfold MtNarrow.seedWords Mt.seedWords
    rw [MtNarrow.normalize_eq h hw]
  obtain ⟨st, e', s, r, -⟩ := c21_seed_words_never_stuck h.toMtValid ws hl hw
  exact ⟨e, st, e.trans e', s, r⟩

example : (MtNarrow.seedWords mtTiny true [7, 0, 0, 0, 0]).map (·.x) = some [128, 0, 0, 0, 0] := by decide

/-- **C156 (seeding with a value).** With the rules of C++20 and a multiplier `f` with `f * (2^w - 1) < 2^31` every value
gives the documented state. Missing: larger multipliers, for which the claim is false (`c156_seed_false`). -/
theorem c156_seed_partial (h : Spec.MtNarrow P) (hf : P.f * (2 ^ P.w - 1) < 2 ^ 31) (value : Nat) :
    MtNarrow.seed P true value = Mt.seed P value ∧
      ∃ st, MtNarrow.seed P true value = some st ∧ MtShape P st ∧ MtReachable P st ∧
        ∀ Z, IsMtSeed P value Z → Mt.seedWords P ((List.range P.n).map Z) = some st := by
  have hb := MtNarrow.and_maxv_lt (P := P) value
  have e : MtNarrow.seed P true value = Mt.seed P value := by
    unfold MtNarrow.seed Mt.seed
    simp only
    rw [MtNarrow.seedLoop_eq h hf _ _ _ hb, Option.bind_some, MtNarrow.normalize_eq h]
    intro v hv
    rcases List.mem_cons.1 hv with rfl | hm
    · exact hb
    · exact (Mt.seedLoop_spec (P := P) (P.n - 1) 1 (value &&& Mt.maxv P)).2 v hm
  obtain ⟨st, e', s, r, -⟩ := c21_seed_value_never_stuck h.toMtValid value
  exact ⟨e, st, e.trans e', s, r, fun Z hZ => by rw [← c21_seed_value h.toMtValid value Z hZ]; exact e'⟩

example : mtShort.f * (2 ^ mtShort.w - 1) < 2 ^ 31 ∧ (MtNarrow.seed mtShort true 7).isSome = true := by decide

/-- C156: all engines on 8-bit types are covered, and those with `f` at most 32768 on 16-bit types. -/
theorem c156_seed_guard (h : Spec.MtNarrow P) (hg : P.w ≤ 15 ∨ P.f ≤ 32768) : P.f * (2 ^ P.w - 1) < 2 ^ 31 := by
  have hn := h.narrow
  have hf := h.f_lt
  have hw := h.w_le
  have hfb : P.f < 2 ^ 16 := lt_of_lt_of_le hf (Nat.pow_le_pow_right (by norm_num) hn)
  rcases hg with hg | hg
  · have h1 : 2 ^ P.w ≤ 2 ^ 15 := Nat.pow_le_pow_right (by norm_num) hg
    calc P.f * (2 ^ P.w - 1) ≤ 65535 * 32767 := Nat.mul_le_mul (by omega) (by omega)
      _ < 2 ^ 31 := by norm_num
  · have h1 : 2 ^ P.w ≤ 2 ^ 16 := Nat.pow_le_pow_right (by norm_num) (by omega)
    calc P.f * (2 ^ P.w - 1) ≤ 32768 * 65535 := Nat.mul_le_mul hg (by omega)
      _ < 2 ^ 31 := by norm_num

example : mtShort.w ≤ 15 ∨ mtShort.f ≤ 32768 := by decide

/-- **C156 (the guard is exact).** For every other engine there is a seed, 65532, with which the product of the seeding
recurrence overflows `int`, under every version of the language. -/
theorem c156_seed_false (h : Spec.MtNarrow P) (hg : ¬ P.f * (2 ^ P.w - 1) < 2 ^ 31) (cpp20 : Bool) :
    P.w = 16 ∧ 32769 ≤ P.f ∧ MtNarrow.seed P cpp20 65532 = none := by
  have hw : P.w = 16 := by
    by_contra hc
    have := h.narrow; have := h.w_le
    exact hg (c156_seed_guard h (Or.inl (by omega)))
  have hf : 32769 ≤ P.f := by
    by_contra hc
    exact hg (c156_seed_guard h (Or.inr (by omega)))
  refine ⟨hw, hf, ?_⟩
  have hm := h.m_lt
  have hm2 := h.m_two
  obtain ⟨k, hk⟩ : ∃ k, P.n - 1 = k + 1 := ⟨P.n - 2, by omega⟩
  have hx : 65532 &&& Mt.maxv P = 65532 := by unfold Mt.maxv; rw [hw]; decide
  unfold MtNarrow.seed
  simp only
  rw [hx, hk, MtNarrow.seedLoop, hw]
  simp only
  rw [show (65532 ^^^ 65532 >>> (16 - 2)) = 65535 by decide, if_pos (by omega)]
  rfl

example : MtNarrow.seed { mtShort with f := 36069 } true 65532 = none := by decide

end Boost.Random
