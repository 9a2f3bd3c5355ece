import Verif.Proofs.LaggedFibonacci

/-!
# C19, C63: lagged Fibonacci engines
-/

namespace Boost.Random
open Spec

variable {L : Lagged.Params}

/-- `lagged_fibonacci_engine<uint32_t, 24, 55, 24>`-like small engine used for concrete cases. -/
def lagTiny : Lagged.Params := ⟨32, 8, 2, 1⟩
theorem lagTiny_valid : LaggedValid lagTiny := ⟨by decide, by decide, by decide, by decide, by decide⟩
theorem lagTiny_ok : LaggedOK lagTiny ⟨[255, 1], 2⟩ := ⟨rfl, by decide, by decide⟩

/-- **C19.** From every state, the values returned are those of the recurrence
`X(n+p) = X(n) + X(n+p-q) mod 2^w` continued from the table, for ever, although they are produced a block at
a time in place: `n` calls return `X(i), ..., X(i+n-1)`. All are below `2^w`; no access is out of bounds. -/
theorem c19_recurrence (hv : LaggedValid L) (st : BlockEng Nat) (h : LaggedOK L st) :
    ∃ X, IsLagged L.w L.p L.q X ∧ (∀ j < L.p, st.x[j]? = some (X j)) ∧
      (∀ n, LaggedInt.minv ≤ X n ∧ X n ≤ LaggedInt.maxv L) ∧
      ∀ n, ∃ st', run (LaggedInt.next L) n st = some ((List.range n).map fun k => X (st.i + k), st') ∧ LaggedOK L st' := by
  obtain ⟨X, hX, h0, hb⟩ := LaggedInt.exists_seq hv st h
  have hX' : ∀ n, X (n + L.p) = LaggedInt.add L (X n) (X (n + L.p - L.q)) := fun n => by
    rw [LaggedInt.add_eq hv.w_le, hX n]
  refine ⟨X, hX, h0, fun n => ⟨Nat.zero_le _, by have := hb n; unfold LaggedInt.maxv; omega⟩, fun n => ?_⟩
  obtain ⟨st', e, w⟩ := run_block (next := LaggedInt.next L)
    (fun t s hs => Lagged.next_spec hv.q_pos hv.q_lt hX' t s hs) n st.i st (BlockAt.init h.len h.i h0)
  refine ⟨st', e, ?_⟩
  obtain ⟨hi, B, _, hw⟩ := w
  refine ⟨hw.len, fun v hv => ?_, hi⟩
  obtain ⟨j, hj, rfl⟩ := List.mem_iff_getElem.1 hv
  have := hw.get j (by rw [← hw.len]; exact hj)
  rw [if_neg (by omega), List.getElem?_eq_getElem hj] at this
  rw [Option.some.inj this]
  exact hb _

example : (run (LaggedInt.next lagTiny) 5 ⟨[255, 1], 2⟩).map Prod.fst = some [0, 1, 1, 2, 3] := by decide

/-- C19: both bounds are attained. -/
theorem c19_range_tight (hv : LaggedValid L) : ∃ st : BlockEng Nat, LaggedOK L st ∧
    ∃ st', run (LaggedInt.next L) 2 st = some ([LaggedInt.maxv L, LaggedInt.minv], st') := by
  have h1 := hv.q_pos
  have h2 := hv.q_lt
  obtain ⟨n, hn⟩ : ∃ n, L.p = n + 2 := ⟨L.p - 2, by omega⟩
  have hok : LaggedOK L ⟨LaggedInt.maxv L :: LaggedInt.minv :: List.replicate n 0, 0⟩ := by
    refine ⟨by simp [hn], ?_, Nat.zero_le _⟩
    intro v hv
    have := Nat.two_pow_pos L.w
    simp only [List.mem_cons, List.mem_replicate] at hv
    unfold LaggedInt.maxv LaggedInt.minv at hv
    omega
  refine ⟨_, hok, ?_⟩
  obtain ⟨X, _, h0, _, hr⟩ := c19_recurrence hv _ hok
  obtain ⟨st', e, _⟩ := hr 2
  have e0 := h0 0 (by omega)
  have e1 := h0 1 (by omega)
  simp only [List.getElem?_cons_zero, List.getElem?_cons_succ, Option.some.injEq] at e0 e1
  refine ⟨st', ?_⟩
  rw [e, show List.range 2 = [0, 1] from rfl, e0, e1]
  rfl

/-- C19: `discard(z)` is `z` calls. -/
theorem c19_discard {α : Type} (add : α → α → α) (p q z : Nat) (st : BlockEng α) :
    Lagged.discard add p q z st = stateAfter (Lagged.next add p q) z st := by
  induction z generalizing st with
  | zero => rfl
  | succ z ih =>
    rw [Nat.add_comm z 1, stateAfter_add, stateAfter_one, Nat.add_comm, Lagged.discard]
    cases Lagged.next add p q st with
    | none => rfl
    | some p => rw [Option.bind_some, Option.map_some, Option.bind_some, ih]

/-- C19: engines that compare equal return the same values for ever. -/
theorem c19_eq_sound (a b : BlockEng Nat) (h : Lagged.eq a b = true) : SameFuture (LaggedInt.next L) a b := by
  obtain ⟨ax, ai⟩ := a
  obtain ⟨bx, bi⟩ := b
  simp only [Lagged.eq, Bool.and_eq_true, beq_iff_eq] at h
  obtain ⟨rfl, rfl⟩ := h
  exact SameFuture.refl _

/-- C19 (partial): for engines at the same position, `==` is true exactly if the futures agree. Missing:
engines at different positions, for which the converse is false (`c19_eq_complete_false`). -/
theorem c19_eq_partial (hv : LaggedValid L) (a b : BlockEng Nat) (ha : LaggedOK L a) (hb : LaggedOK L b) (hi : a.i = b.i) :
    Lagged.eq a b = true ↔ SameFuture (LaggedInt.next L) a b := by
  refine ⟨c19_eq_sound a b, fun h => ?_⟩
  obtain ⟨X, hX, x0, bX, rX⟩ := c19_recurrence hv a ha
  obtain ⟨Y, hY, y0, bY, rY⟩ := c19_recurrence hv b hb
  have hXY : ∀ k, X (a.i + k) = Y (a.i + k) := by
    intro k
    obtain ⟨s1, e1, _⟩ := rX (k + 1)
    obtain ⟨s2, e2, _⟩ := rY (k + 1)
    have := h (k + 1)
    rw [e1, e2, Option.map_some, Option.map_some, Option.some.injEq] at this
    have := congrArg (fun l => l[k]?) this
    simpa [hi] using this
  have all := LaggedInt.backward hv.q_pos hv.q_lt hX hY
    (fun n => by have := (bX n).2; have := Nat.two_pow_pos L.w; unfold LaggedInt.maxv at *; omega)
    (fun n => by have := (bY n).2; have := Nat.two_pow_pos L.w; unfold LaggedInt.maxv at *; omega) a.i hXY
  have hx : a.x = b.x := by
    apply List.ext_getElem? fun j => ?_
    by_cases hj : j < L.p
    · rw [x0 j hj, y0 j hj, all j]
    · rw [List.getElem?_eq_none (by rw [ha.len]; omega), List.getElem?_eq_none (by rw [hb.len]; omega)]
  simp [Lagged.eq, hi, hx]

example : ∃ a b : BlockEng Nat, LaggedOK lagTiny a ∧ LaggedOK lagTiny b ∧ a.i = b.i ∧ a ≠ b :=
  ⟨⟨[1, 1], 1⟩, ⟨[2, 1], 1⟩, ⟨rfl, by decide, by decide⟩, ⟨rfl, by decide, by decide⟩, rfl, by decide⟩

/-- C19: the documented "returns true if the two generators will produce identical sequences" is false: an
engine seeded with `[1, 1]` and called once, and one seeded with `[1, 2]`, have the same future but compare
different. -/
theorem c19_eq_complete_false : ∃ a b : BlockEng Nat, LaggedOK lagTiny a ∧ LaggedOK lagTiny b ∧
    LaggedInt.next lagTiny ⟨[1, 1], 2⟩ = some (2, a) ∧ b = ⟨[1, 2], 2⟩ ∧
    SameFuture (LaggedInt.next lagTiny) a b ∧ Lagged.eq a b = false := by
  refine ⟨⟨[2, 3], 1⟩, ⟨[1, 2], 2⟩, ⟨rfl, by decide, by decide⟩, ⟨rfl, by decide, by decide⟩, by decide, rfl, ?_, by decide⟩
  intro n
  cases n with
  | zero => rfl
  | succ n =>
    -- both return 3, and a second call refills the first engine
    cases n with
    | zero => rfl
    | succ n =>
      have e1 : LaggedInt.next lagTiny ⟨[2, 3], 1⟩ = some (3, ⟨[2, 3], 2⟩) := by decide
      have e2 : LaggedInt.next lagTiny ⟨[1, 2], 2⟩ = some (3, ⟨[3, 5], 1⟩) := by decide
      obtain ⟨X, hX, x0, -, rX⟩ := c19_recurrence lagTiny_valid ⟨[2, 3], 2⟩ ⟨rfl, by decide, by decide⟩
      obtain ⟨Y, hY, y0, -, rY⟩ := c19_recurrence lagTiny_valid ⟨[3, 5], 1⟩ ⟨rfl, by decide, by decide⟩
      rw [run_succ_of e1, run_succ_of e2]
      obtain ⟨s1, f1, _⟩ := rX (n + 1)
      obtain ⟨s2, f2, _⟩ := rY (n + 1)
      rw [f1, f2]
      simp only [Option.map_some, Option.some.injEq, List.cons.injEq, true_and]
      apply List.map_congr_left
      intro k _
      have X0 : X 0 = 2 := by have := x0 0 (by decide); simpa using this.symm
      have X1 : X 1 = 3 := by have := x0 1 (by decide); simpa using this.symm
      have Y0 : Y 0 = 3 := by have := y0 0 (by decide); simpa using this.symm
      have Y1 : Y 1 = 5 := by have := y0 1 (by decide); simpa using this.symm
      have all : ∀ k, X (k + 1) = Y k ∧ X (k + 2) = Y (k + 1) := by
        intro k
        induction k with
        | zero =>
          have := hX 0
          simp only [lagTiny, Nat.zero_add, X0, X1] at this
          exact ⟨by rw [X1, Y0], by rw [Y1]; simpa using this⟩
        | succ k ih =>
          refine ⟨ih.2, ?_⟩
          have h1 := hX (k + 1)
          have h2 := hY k
          simp only [lagTiny] at h1 h2
          rw [show k + 1 + 2 - 1 = k + 2 by omega] at h1
          rw [show k + 2 - 1 = k + 1 by omega] at h2
          rw [show k + 1 + 1 = k + 2 by omega, h1, h2, ih.1, ih.2]
      show X (2 + k) = Y (1 + k)
      have := (all k).2
      rwa [show k + 2 = 2 + k by omega, show k + 1 = 1 + k by omega] at this

/-- C19: writing an engine and reading the text into any other engine restores it exactly, and consumes
exactly the text written. -/
theorem c19_text (hv : LaggedValid L) (st other : BlockEng Nat) (h : LaggedOK L st) (ho : other.x.length = L.p)
    (rest : List Tok) :
    LaggedInt.read L ⟨LaggedInt.write st ++ rest, true⟩ other = (⟨rest, true⟩, st) := by
  have hi : InTy ⟨32, false⟩ (st.i : Int) := by
    have := h.i; have := hv.p_lt
    simp only [InTy]
    exact ⟨by omega, by push_cast; omega⟩
  have hx : ∀ v ∈ st.x.map (fun v : Nat => (v : Int)), InTy ⟨L.bits, false⟩ v := by
    intro v hv'
    obtain ⟨u, hu, rfl⟩ := List.mem_map.1 hv'
    have h1 := h.lt u hu
    have h2 : 2 ^ L.w ≤ 2 ^ L.bits := Nat.pow_le_pow_right (by omega) hv.w_le
    simp only [InTy]
    exact ⟨by omega, by exact_mod_cast lt_of_lt_of_le h1 h2⟩
  have hm : st.x.map (fun v : Nat => Tok.num v) = (st.x.map (fun v : Nat => (v : Int))).map Tok.num := by
    rw [List.map_map]; rfl
  simp only [LaggedInt.read, LaggedInt.write, List.cons_append]
  rw [readInto_spec (by decide) hi, hm, readList_spec hv.bits_pos _ _ (by simp [ho, h.len]) hx]
  simp [List.map_map, Function.comp_def]

example : LaggedInt.read lagTiny ⟨LaggedInt.write ⟨[255, 1], 2⟩ ++ [Tok.num 7], true⟩ ⟨[0, 0], 0⟩ =
    (⟨[Tok.num 7], true⟩, ⟨[255, 1], 2⟩) := by decide

/-! ## C63 -/

/-- A state of `lagged_fibonacci_01_engine`: the fractions `v / 2^w` for a table of integers. -/
def scale (w : Nat) (st : BlockEng Nat) : BlockEng ℚ := ⟨st.x.map fun v : Nat => (v : ℚ) / 2 ^ w, st.i⟩

/-- **C63.** `lagged_fibonacci_01_engine` over a table of multiples of `2^-w` returns exactly `X(n) / 2^w` for
the integer sequence of C19: every value is in `[0, 1)`, and the recurrence modulo 1 is exact. -/
theorem c63_recurrence (hv : LaggedValid L) (st : BlockEng Nat) (h : LaggedOK L st) :
    ∃ X, IsLagged L.w L.p L.q X ∧ (∀ j < L.p, st.x[j]? = some (X j)) ∧
      (∀ n, Lagged01.minv ≤ (X n : ℚ) / 2 ^ L.w ∧ (X n : ℚ) / 2 ^ L.w < Lagged01.maxv) ∧
      ∀ n, ∃ st', run (Lagged01.next L.p L.q) n (scale L.w st) =
        some ((List.range n).map fun k => (X (st.i + k) : ℚ) / 2 ^ L.w, st') := by
  obtain ⟨X, hX, h0, hb⟩ := LaggedInt.exists_seq hv st h
  have hp : (0 : ℚ) < 2 ^ L.w := by positivity
  refine ⟨X, hX, h0, fun n => ⟨?_, ?_⟩, fun n => ?_⟩
  · exact div_nonneg (Nat.cast_nonneg _) hp.le
  · rw [Lagged01.maxv, div_lt_one hp]
    exact_mod_cast hb n
  · have hX' : ∀ n, (X (n + L.p) : ℚ) / 2 ^ L.w =
        Lagged01.add ((X n : ℚ) / 2 ^ L.w) ((X (n + L.p - L.q) : ℚ) / 2 ^ L.w) := fun n => by
      rw [Lagged01.add_eq _ _ _ (hb _) (hb _), hX n]
    obtain ⟨st', e, _⟩ := run_block (next := Lagged01.next L.p L.q) (P := BlockAt (fun n => (X n : ℚ) / 2 ^ L.w) L.p)
      (fun t s hs => Lagged.next_spec (X := fun n => (X n : ℚ) / 2 ^ L.w) hv.q_pos hv.q_lt hX' t s hs) n st.i (scale L.w st)
      (BlockAt.init (st := scale L.w st) (by simp [scale, h.len]) h.i (fun j hj => by
        simp only [scale, List.getElem?_map, h0 j hj, Option.map_some]))
    exact ⟨st', e⟩

/-- The first typedef, `lagged_fibonacci607`, with a table that is not constant. -/
example : ∃ (L : Lagged.Params) (x : List Nat), L = ⟨64, 48, 607, 273⟩ ∧ LaggedOK L ⟨x, L.p⟩ ∧ x[3]? = some 3 := by
  obtain ⟨x, h0, h1, h2⟩ : ∃ x : List Nat, x.length = 607 ∧ (∀ v ∈ x, v < 607) ∧ x[3]? = some 3 :=
    ⟨List.range 607, by simp, by simp, by simp⟩
  refine ⟨_, x, rfl, ⟨h0, fun v hv => ?_, Nat.le_refl _⟩, h2⟩
  have h1 : v < 607 := h1 v hv
  have h2 : 607 < 2 ^ 48 := by decide
  exact lt_trans h1 h2

/-- The arguments of all nine typedefs are valid. -/
theorem c63_typedefs : ∀ l ∈ lagged01Lags, LaggedValid ⟨64, 48, l.1, l.2⟩ := by
  intro l hl
  simp only [lagged01Lags, List.mem_cons, List.not_mem_nil, or_false] at hl
  rcases hl with rfl | rfl | rfl | rfl | rfl | rfl | rfl | rfl | rfl <;>
    exact ⟨by decide, by decide, by decide, by decide, by decide⟩

theorem readLoop01 (w : Nat) (xs : List Nat) : ∀ (ys : List ℚ) (rest : List Tok), ys.length = xs.length →
    Lagged01.readLoop w ⟨(xs.map fun v : Nat => Tok.num (((v : ℚ) / 2 ^ w) * 2 ^ w).floor) ++ rest, true⟩ ys =
      (⟨rest, true⟩, xs.map fun v : Nat => (v : ℚ) / 2 ^ w) := by
  induction xs with
  | nil =>
    intro ys rest h
    obtain rfl : ys = [] := by cases ys <;> simp_all
    rfl
  | cons x xs ih =>
    intro ys rest h
    cases ys with
    | nil => simp at h
    | cons y ys =>
      have e : (((x : ℚ) / 2 ^ w) * 2 ^ w).floor = (x : Int) := by
        rw [div_mul_cancel₀ _ (by positivity)]
        exact_mod_cast Rat.floor_intCast (x : Int)
      simp only [List.map_cons, List.cons_append, Lagged01.readLoop, e]
      rw [ih ys rest (by simpa using h)]
      push_cast
      rfl

/-- C63: the text of a `lagged_fibonacci_01_engine` (the table times `2^w`) restores it exactly. -/
theorem c63_text (hv : LaggedValid L) (st : BlockEng Nat) (other : BlockEng ℚ) (h : LaggedOK L st)
    (ho : other.x.length = L.p) (rest : List Tok) :
    Lagged01.read L.w ⟨Lagged01.write L.w (scale L.w st) ++ rest, true⟩ other = (⟨rest, true⟩, scale L.w st) := by
  have hi : InTy ⟨32, false⟩ (st.i : Int) := by
    have := h.i; have := hv.p_lt
    simp only [InTy]
    exact ⟨by omega, by push_cast; omega⟩
  simp only [Lagged01.read, Lagged01.write, scale, List.cons_append, List.map_map]
  rw [readInto_spec (by decide) hi]
  have := readLoop01 L.w st.x other.x rest (by rw [ho, h.len])
  simp only [Function.comp_def]
  rw [this]
  simp

example : Lagged01.write 8 (scale 8 ⟨[255, 1], 2⟩) = [Tok.num 2, Tok.num 255, Tok.num 1] := by decide +kernel

end Boost.Random
