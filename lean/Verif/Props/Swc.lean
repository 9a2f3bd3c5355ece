import Verif.Proofs.Swc

/-!
# C15–C18, C54: subtract-with-carry engine
-/

namespace Boost.Random
open Spec
open Swc

variable {E : Swc}

/-- A small engine used for concrete cases: `w = 4, s = 1, r = 3` over `uint8_t`. -/
def swcTiny : Swc := ⟨8, 4, 1, 3⟩
theorem swcTiny_valid : SwcValid swcTiny := ⟨by decide, by decide, by decide⟩
theorem ranluxBase_valid : SwcValid ranluxBase := ⟨by decide, by decide, by decide⟩
theorem ranlux48Base_valid : SwcValid ranlux48Base := ⟨by decide, by decide, by decide⟩

/-- **C15.** For every state, the values returned are those of the recurrence
`X(n+r) = X(n+r-s) - X(n) - C(n) mod 2^w` continued from the table (oldest value first), for ever:
`n` calls return `X(r), ..., X(r+n-1)`, and leave the table equal to the last `r` values and the
borrow to `C n`. All values are below `2^w` and all borrows are 0 or 1. No access is out of bounds. -/
theorem c15_recurrence (hv : SwcValid E) (st : SwcState) (h : SwcOK E st) :
    ∃ X C : Nat → Nat, IsSwc E.w E.s E.r X C ∧ (∀ j < E.r, X j = swcWindow st j) ∧ C 0 = st.carry ∧
      (∀ n, X n < 2 ^ E.w) ∧ (∀ n, C n ≤ 1) ∧
      ∀ n, ∃ st', run E.next n st = some ((List.range n).map fun i => X (i + E.r), st') ∧
        SwcOK E st' ∧ st'.carry = C n ∧ ∀ j < E.r, swcWindow st' j = X (n + j) := by
  have := hv.s_pos
  have := hv.s_lt
  obtain ⟨S, V, hS0, hI, hn, hr⟩ := run_total (I := SwcOK E)
    (fun s hs => by obtain ⟨v, s', e, o, -⟩ := next_spec hv hs; exact ⟨v, s', e, o⟩) st h
  have step : ∀ n, V n = delta E (swcWindow (S n) 0) (swcWindow (S n) (E.r - E.s)) (S n).carry ∧
      (S (n + 1)).carry = borrow (swcWindow (S n) 0) (swcWindow (S n) (E.r - E.s)) (S n).carry ∧
      (∀ j, j + 1 < E.r → swcWindow (S (n + 1)) j = swcWindow (S n) (j + 1)) ∧
      swcWindow (S (n + 1)) (E.r - 1) = V n := by
    intro n
    obtain ⟨v, s', e, -, h1, h2, -, h3, h4⟩ := next_spec hv (hI n)
    rw [hn n] at e
    obtain ⟨rfl, rfl⟩ := Prod.mk.inj (Option.some.inj e)
    exact ⟨h1, h2, h3, h4⟩
  have win : ∀ j, j < E.r → ∀ n, swcWindow (S n) j = swcWindow (S (n + j)) 0 := by
    intro j
    induction j with
    | zero => intro _ n; rfl
    | succ j ih =>
      intro hj n
      rw [← (step n).2.2.1 j hj, ih (by omega) (n + 1), show n + 1 + j = n + (j + 1) by omega]
  have out : ∀ n, V n = swcWindow (S (n + E.r)) 0 := by
    intro n
    rw [← (step n).2.2.2, win _ (by omega) (n + 1), show n + 1 + (E.r - 1) = n + E.r by omega]
  refine ⟨fun n => swcWindow (S n) 0, fun n => (S n).carry, ⟨?_, ?_⟩, ?_, ?_, ?_, ?_, ?_⟩
  · intro n
    show ((swcWindow (S (n + E.r)) 0 : Nat) : Int) = _
    rw [← out n, (step n).1, delta_spec _ _ _ (window_lt (hI n) _) (window_lt (hI n) _) (hI n).carry,
      win _ (by omega) n, show n + (E.r - E.s) = n + E.r - E.s by omega]
  · intro n
    show (S (n + 1)).carry = _
    rw [(step n).2.1, borrow_spec, win _ (by omega : E.r - E.s < E.r) n,
      show n + (E.r - E.s) = n + E.r - E.s by omega]
  · intro j hj
    show swcWindow (S j) 0 = _
    rw [← hS0, win j hj 0, Nat.zero_add]
  · show (S 0).carry = _
    rw [hS0]
  · exact fun n => window_lt (hI n) _
  · exact fun n => (hI n).carry
  · intro n
    refine ⟨S n, ?_, hI n, rfl, fun j hj => win j hj n⟩
    rw [hr n]
    congr 2
    exact List.map_congr_left fun i _ => out i

/-- The recurrence determines the whole sequence, so the statement above pins down every value. -/
theorem c15_unique {w s r : Nat} (hs : 0 < s) (hsr : s < r) {X C X' C' : Nat → Nat}
    (h : IsSwc w s r X C) (h' : IsSwc w s r X' C') (h0 : ∀ j < r, X j = X' j) (hc : C 0 = C' 0) :
    X = X' ∧ C = C' := by
  have key : ∀ n, (∀ j < n + r, X j = X' j) ∧ C n = C' n := by
    intro n
    induction n with
    | zero => exact ⟨fun j hj => h0 j (by omega), hc⟩
    | succ n ih =>
      obtain ⟨i1, i2⟩ := ih
      refine ⟨fun j hj => ?_, ?_⟩
      · by_cases hj' : j < n + r
        · exact i1 j hj'
        · obtain rfl : j = n + r := by omega
          have e1 := h.value n
          have e2 := h'.value n
          rw [i1 (n + r - s) (by omega), i1 n (by omega), i2] at e1
          exact Int.ofNat.inj (e1.trans e2.symm)
      · rw [h.borrow n, h'.borrow n, i1 (n + r - s) (by omega), i1 n (by omega), i2]
  exact ⟨funext fun n => (key n).1 n (by omega), funext fun n => (key n).2⟩

/-- **C15**, range: every value returned lies in `[min(), max()]`. -/
theorem c15_range (hv : SwcValid E) (st : SwcState) (h : SwcOK E st) (n : Nat) :
    ∃ vs st', run E.next n st = some (vs, st') ∧ vs.length = n ∧ ∀ v ∈ vs, minv ≤ v ∧ v ≤ E.maxv := by
  obtain ⟨X, C, -, -, -, hX, -, hrun⟩ := c15_recurrence hv st h
  obtain ⟨st', e, -⟩ := hrun n
  refine ⟨_, st', e, by simp, fun v hv' => ?_⟩
  obtain ⟨i, -, rfl⟩ := List.mem_map.1 hv'
  have := hX (i + E.r)
  exact ⟨Nat.zero_le _, by unfold maxv; omega⟩

/-- **C15**, range: `min()` and `max()` are attained (so the range is exactly `[0, 2^w - 1]`). -/
theorem c15_range_tight (hv : SwcValid E) :
    (∃ st st', SwcOK E st ∧ E.next st = some (minv, st')) ∧
    (∃ st st', SwcOK E st ∧ E.next st = some (E.maxv, st')) := by
  have h1 := hv.s_pos
  have h2 := hv.s_lt
  have hp : 0 < 2 ^ E.w := Nat.two_pow_pos _
  have hok : ∀ c ≤ 1, SwcOK E ⟨List.replicate E.r 0, c, 0⟩ := fun c hc =>
    ⟨by simp, by simp, hc, by dsimp; omega⟩
  have hw : ∀ c j, swcWindow ⟨List.replicate E.r 0, c, 0⟩ j = 0 := by
    intro c j
    simp only [swcWindow, List.drop_zero, List.take_zero, List.append_nil, List.getD_eq_getElem?_getD,
      List.getElem?_replicate]
    split <;> rfl
  obtain ⟨v, st', e, -, hv', -⟩ := next_spec hv (hok 0 (by omega))
  obtain ⟨u, st'', e', -, hu', -⟩ := next_spec hv (hok 1 (by omega))
  simp only [hw, delta] at hv' hu'
  refine ⟨⟨_, st', hok 0 (by omega), ?_⟩, ⟨_, st'', hok 1 (by omega), ?_⟩⟩
  · rw [e, hv']; rfl
  · rw [e', hu']; rfl

example : SwcValid swcTiny ∧ SwcOK swcTiny ⟨[3, 9, 5], 1, 2⟩ ∧
    run swcTiny.next 4 ⟨[3, 9, 5], 1, 2⟩ = some ([3, 0, 7, 3], ⟨[0, 7, 3], 0, 0⟩) :=
  ⟨swcTiny_valid, ⟨rfl, by decide, by decide, by decide⟩, by decide⟩

/-- **C16 (the property is false).** A freshly seeded engine ignores `discard(1)` except for moving
its position: `ranlux24_base` seeded with the table `24, 23, ..., 1`. -/
theorem c16_discard_false :
    ∃ st, ranluxBase.ofTable ((List.range 24).map (24 - ·)) = some st ∧
      ranluxBase.discard 1 st ≠ stateAfter ranluxBase.next 1 st ∧
      ((ranluxBase.discard 1 st).bind ranluxBase.next).map Prod.fst ≠
        ((stateAfter ranluxBase.next 1 st).bind ranluxBase.next).map Prod.fst :=
  ⟨_, rfl, by decide, by decide⟩

/-- **C16, what happens instead**: at position 0 with `0 < z < r` nothing is updated, for every
engine and state. -/
theorem c16_discard_skips (st : SwcState) (z : Nat) (hk : st.k = 0) (hz : z < E.r) :
    E.discard z st = some ⟨st.x, st.carry, z⟩ := by
  unfold Swc.discard
  simp [hk, Nat.mod_eq_of_lt hz]

/-- **C16 (guarded).** In all other cases `discard(z)` gives exactly the state after `z` calls.
Missing: position 0 with `0 < z < r`, where it is wrong. -/
theorem c16_discard_partial (hv : SwcValid E) (z : Nat) (st : SwcState) (h : SwcOK E st)
    (hz : ¬(st.k = 0 ∧ 0 < z ∧ z < E.r)) :
    E.discard z st = stateAfter E.next z st ∧ (E.discard z st).isSome := by
  refine ⟨discard_spec hv z st h hz, ?_⟩
  rw [discard_spec hv z st h hz]
  obtain ⟨_, _, e, -⟩ := c15_range hv st h z
  simp [stateAfter, e]

example : ¬((⟨[3, 9, 5], 1, 2⟩ : SwcState).k = 0 ∧ 0 < 9 ∧ 9 < swcTiny.r) ∧
    swcTiny.discard 9 ⟨[3, 9, 5], 1, 2⟩ = stateAfter swcTiny.next 9 ⟨[3, 9, 5], 1, 2⟩ := by decide

example : ¬((⟨[3, 9, 5], 1, 0⟩ : SwcState).k = 0 ∧ 0 < 3 ∧ 3 < swcTiny.r) ∧
    swcTiny.discard 3 ⟨[3, 9, 5], 1, 0⟩ = stateAfter swcTiny.next 3 ⟨[3, 9, 5], 1, 0⟩ := by decide

/-- **C16, exactly when it fails**: at position 0 with `0 < z < r`, `discard(z)` is right only if
the skipped calls would have left both table and borrow unchanged. -/
theorem c16_discard_iff (hv : SwcValid E) (z : Nat) (st : SwcState) (h : SwcOK E st) :
    E.discard z st = stateAfter E.next z st ↔
      ¬(st.k = 0 ∧ 0 < z ∧ z < E.r) ∨ stateAfter E.next z st = some ⟨st.x, st.carry, z⟩ := by
  by_cases hz : st.k = 0 ∧ 0 < z ∧ z < E.r
  · rw [c16_discard_skips st z hz.1 hz.2.2]
    simp only [hz, not_true, false_or, and_self]
    exact eq_comm
  · simp [discard_spec hv z st h hz, hz]

theorem Swc.eq_iff {a b : SwcState} (ha : SwcOK E a) (hb : SwcOK E b) :
    E.eq a b = true ↔ ∀ j < E.r, swcWindow a j = swcWindow b j := by
  unfold Swc.eq
  rw [List.all_eq_true]
  simp only [List.mem_range, beq_iff_eq, compute]
  refine forall₂_congr fun j hj => ?_
  have hr : 0 < E.r := by omega
  rw [Swc.getElem?_getD (by rw [ha.len]; exact Nat.mod_lt _ hr), Swc.getElem?_getD (by rw [hb.len]; exact Nat.mod_lt _ hr),
    window_eq ha hj, window_eq hb hj, Option.some_inj]

/-- **C17 (the property is false).** `operator==` ignores the borrow. Two `ranlux24_base` engines,
one freshly seeded from a range, the other seeded from another range and called once, compare equal,
yet their next values differ. -/
theorem c17_equal_futures_false :
    ∃ a b b', ranluxBase.ofTable (List.replicate 13 1 ++ [5] ++ List.replicate 8 7 ++ [0, 5]) = some a ∧
      ranluxBase.ofTable ([2 ^ 24 - 1] ++ List.replicate 13 1 ++ [5] ++ List.replicate 8 7 ++ [0]) = some b ∧
      stateAfter ranluxBase.next 1 b = some b' ∧ ranluxBase.eq a b' = true ∧
      (run ranluxBase.next 1 a).map Prod.fst ≠ (run ranluxBase.next 1 b').map Prod.fst :=
  ⟨_, _, _, rfl, rfl, rfl, by decide, by decide⟩

/-- **C17 (guarded).** Equal engines with equal borrows have identical futures; missing: the borrow
is not compared by the code. -/
theorem c17_equal_futures_partial (hv : SwcValid E) (a b : SwcState) (ha : SwcOK E a) (hb : SwcOK E b)
    (he : E.eq a b = true) (hc : a.carry = b.carry) : SameFuture E.next a b :=
  same_future hv ha hb ((eq_iff ha hb).1 he) hc

example : SwcOK swcTiny ⟨[3, 9, 5], 1, 2⟩ ∧ SwcOK swcTiny ⟨[5, 3, 9], 1, 0⟩ ∧
    swcTiny.eq ⟨[3, 9, 5], 1, 2⟩ ⟨[5, 3, 9], 1, 0⟩ = true :=
  ⟨⟨rfl, by decide, by decide, by decide⟩, ⟨rfl, by decide, by decide, by decide⟩, by decide⟩

/-- **C17**, seeding: two freshly seeded engines that compare equal have identical futures. -/
theorem c17_seeded_equal_partial (hv : SwcValid E) (x y : List Nat) (hx : x.length = E.r) (hy : y.length = E.r)
    (hx' : ∀ v ∈ x, v < 2 ^ E.w) (hy' : ∀ v ∈ y, v < 2 ^ E.w) :
    ∃ a b, E.ofTable x = some a ∧ E.ofTable y = some b ∧ SwcOK E a ∧ SwcOK E b ∧
      (E.eq a b = true → SameFuture E.next a b) := by
  have := hv.s_lt
  have e1 := Swc.getElem?_getD (x := x) (j := E.r - 1) (by omega)
  have e2 := Swc.getElem?_getD (x := y) (j := E.r - 1) (by omega)
  refine ⟨⟨x, _, 0⟩, ⟨y, _, 0⟩, by simp only [ofTable, e1]; rfl, by simp only [ofTable, e2]; rfl,
    ⟨hx, hx', by dsimp; split <;> omega, by dsimp; omega⟩, ⟨hy, hy', by dsimp; split <;> omega, by dsimp; omega⟩, ?_⟩
  intro he
  have ha : SwcOK E ⟨x, if x.getD (E.r - 1) 0 = 0 then 1 else 0, 0⟩ :=
    ⟨hx, hx', by dsimp; split <;> omega, by dsimp; omega⟩
  have hb : SwcOK E ⟨y, if y.getD (E.r - 1) 0 = 0 then 1 else 0, 0⟩ :=
    ⟨hy, hy', by dsimp; split <;> omega, by dsimp; omega⟩
  have hw := (eq_iff ha hb).1 he
  refine same_future hv ha hb hw ?_
  have := hw (E.r - 1) (by omega)
  rw [window_eq ha (by omega), window_eq hb (by omega)] at this
  simp only [Nat.zero_add, Nat.mod_eq_of_lt (show E.r - 1 < E.r by omega)] at this
  dsimp only
  rw [this]

example : (List.range 3).length = swcTiny.r ∧ ∀ v ∈ List.range 3, v < 2 ^ swcTiny.w := by decide

/-- **C17**, running engines: two engines that have each made at least one call and compare equal have
identical futures, provided the last value returned differs from the one `s` calls before it (both are in
the table). -/
theorem c17_running_equal_partial (hv : SwcValid E) (a b a' b' : SwcState) (va vb : Nat)
    (ha : SwcOK E a) (hb : SwcOK E b) (ea : E.next a = some (va, a')) (eb : E.next b = some (vb, b'))
    (he : E.eq a' b' = true) (hne : swcWindow a' (E.r - 1) ≠ swcWindow a' (E.r - 1 - E.s)) :
    SameFuture E.next a' b' := by
  have := hv.s_pos
  have := hv.s_lt
  obtain ⟨v, s, e, oa, v1, c1, -, w1, l1⟩ := next_spec hv ha
  rw [ea] at e; obtain ⟨rfl, rfl⟩ := Prod.mk.inj (Option.some.inj e)
  obtain ⟨v, s, e, ob, v2, c2, -, w2, l2⟩ := next_spec hv hb
  rw [eb] at e; obtain ⟨rfl, rfl⟩ := Prod.mk.inj (Option.some.inj e)
  have hw := (eq_iff oa ob).1 he
  refine same_future hv oa ob hw ?_
  have d1 := w1 (E.r - 1 - E.s) (by omega)
  have d2 := w2 (E.r - 1 - E.s) (by omega)
  rw [show E.r - 1 - E.s + 1 = E.r - E.s by omega] at d1 d2
  have g1 := window_lt ha 0
  have g2 := window_lt hb 0
  have hca := ha.carry
  have hcb := hb.carry
  have hl := hw (E.r - 1) (by omega)
  have hm := hw (E.r - 1 - E.s) (by omega)
  rw [l1, d1] at hne
  rw [l1, l2] at hl
  rw [d1, d2] at hm
  rw [c1, c2]
  have p1 := window_lt ha (E.r - E.s)
  have p2 := window_lt hb (E.r - E.s)
  unfold delta at v1 v2
  unfold borrow
  generalize swcWindow a 0 = A at *
  generalize swcWindow b 0 = B at *
  generalize swcWindow a (E.r - E.s) = A' at *
  generalize swcWindow b (E.r - E.s) = B' at *
  generalize 2 ^ E.w = M at *
  clear w1 w2 hw
  split at v1 <;> split at v2 <;> split <;> omega

example : swcWindow ⟨[3, 9, 5], 1, 2⟩ (swcTiny.r - 1) ≠ swcWindow ⟨[3, 9, 5], 1, 2⟩ (swcTiny.r - 1 - swcTiny.s) := by
  decide

theorem readInt_nat {T : IntTy} (hT : T.signed = false) {v : Nat} (hv : v ≤ T.maxv) (rest : List Tok) :
    IStream.readInt T ⟨Tok.num v :: rest, true⟩ = (some (v : Int), ⟨rest, true⟩) := by
  unfold IStream.readInt
  simp [hT, hv]

theorem Swc.readLoop_spec (E : Swc) (vs : List Nat) (hvs : ∀ v ∈ vs, v ≤ 2 ^ E.bits - 1) (rest : List Tok)
    (pre x : List Nat) (hx : x.length = vs.length) :
    E.readLoop vs.length pre.length ⟨vs.map (fun v : Nat => Tok.num v) ++ rest, true⟩ (pre ++ x) =
      (⟨rest, true⟩, pre ++ vs) := by
  induction vs generalizing pre x with
  | nil => simp_all [readLoop]
  | cons v vs ih =>
    obtain ⟨y, x, rfl⟩ : ∃ y x', x = y :: x' := by cases x <;> simp_all
    simp only [List.length_cons, readLoop, List.map_cons, List.cons_append]
    rw [readInt_nat (T := ⟨E.bits, false⟩) rfl (hvs v (by simp))]
    have := ih (fun u hu => hvs u (by simp [hu])) (pre ++ [v]) x (by simpa using hx)
    simp only [List.length_append, List.length_cons, List.length_nil, Nat.zero_add, List.append_assoc,
      List.cons_append, List.nil_append] at this
    simpa using this

/-- **C18.** Writing a state and reading it back into any engine object (whatever it holds) gives an
engine that compares equal, has the same borrow, hence the same future; the stream is left good and
positioned right behind the text. -/
theorem c18_round_trip (hv : SwcValid E) (st : SwcState) (h : SwcOK E st) (other : SwcState)
    (ho : other.x.length = E.r) (rest : List Tok) :
    ∃ st', E.read ⟨E.write st ++ rest, true⟩ other = (⟨rest, true⟩, st') ∧ SwcOK E st' ∧
      E.eq st' st = true ∧ st'.carry = st.carry ∧ st'.k = 0 ∧ SameFuture E.next st' st := by
  have := hv.s_lt
  have hr : 0 < E.r := by omega
  have hMB : 2 ^ E.w ≤ 2 ^ E.bits := Nat.pow_le_pow_right (by omega) (by have := hv.w_lt; omega)
  have hM : 2 ≤ 2 ^ E.bits := by
    calc 2 = 2 ^ 1 := rfl
      _ ≤ _ := Nat.pow_le_pow_right (by omega) (by have := hv.w_lt; omega)
  obtain ⟨vs, hvs⟩ : ∃ vs, vs = (List.range E.r).map (swcWindow st) := ⟨_, rfl⟩
  have hlen : vs.length = E.r := by simp [hvs]
  have hlt : ∀ v ∈ vs, v < 2 ^ E.w := by
    intro v hv'
    rw [hvs] at hv'
    obtain ⟨j, -, rfl⟩ := List.mem_map.1 hv'
    exact window_lt h j
  have hwr : E.write st = vs.map (fun v : Nat => Tok.num v) ++ [Tok.num st.carry] := by
    unfold write
    rw [hvs, List.map_map]
    congr 1
    refine List.map_congr_left fun j hj => ?_
    rw [List.mem_range] at hj
    simp only [compute, Function.comp]
    rw [Swc.getElem?_getD (by rw [h.len]; exact Nat.mod_lt _ hr), window_eq h hj, Option.getD_some]
  have hrd := Swc.readLoop_spec E vs (fun v hv' => by have := hlt v hv'; omega)
    ([Tok.num st.carry] ++ rest) [] other.x (by rw [ho, hlen])
  simp only [List.length_nil, List.nil_append, hlen] at hrd
  have hok : SwcOK E ⟨vs, st.carry, 0⟩ := ⟨hlen, hlt, h.carry, hr⟩
  have hw : ∀ j < E.r, swcWindow ⟨vs, st.carry, 0⟩ j = swcWindow st j := by
    intro j hj
    simp only [swcWindow, List.drop_zero, List.take_zero, List.append_nil, hvs, List.getD_eq_getElem?_getD]
    rw [List.getElem?_map, List.getElem?_range hj]
    simp only [swcWindow, List.getD_eq_getElem?_getD, Option.map_some, Option.getD_some]
  refine ⟨⟨vs, st.carry, 0⟩, ?_, hok, (eq_iff hok h).2 hw, rfl, rfl, same_future hv hok h hw rfl⟩
  unfold Swc.read
  rw [hwr, List.append_assoc, hrd]
  simp only [List.singleton_append]
  rw [readInt_nat (T := ⟨E.bits, false⟩) rfl (show st.carry ≤ 2 ^ E.bits - 1 by have := h.carry; omega)]
  simp

example : swcTiny.read ⟨swcTiny.write ⟨[3, 9, 5], 1, 2⟩ ++ [Tok.junk], true⟩ ⟨[0, 0, 0], 0, 1⟩ =
    (⟨[Tok.junk], true⟩, ⟨[5, 3, 9], 1, 0⟩) := by decide

/-- A degenerate state: the engine would return the same value for ever. -/
def Swc.stuck (E : Swc) (st : SwcState) : Prop :=
  (st.carry = 0 ∧ ∀ j < E.r, swcWindow st j = 0) ∨ (st.carry = 1 ∧ ∀ j < E.r, swcWindow st j = 2 ^ E.w - 1)

theorem Swc.stuck_back (hv : SwcValid E) {a b : SwcState} {v : Nat} (ha : SwcOK E a)
    (e : E.next a = some (v, b)) (hb : E.stuck b) : E.stuck a := by
  have := hv.s_pos
  have := hv.s_lt
  obtain ⟨v', s, e', ob, v1, c1, -, w1, l1⟩ := next_spec hv ha
  rw [e] at e'; obtain ⟨rfl, rfl⟩ := Prod.mk.inj (Option.some.inj e')
  have hwin : ∀ j, 0 < j → j < E.r → swcWindow a j = swcWindow b (j - 1) := fun j h0 hj => by
    rw [w1 (j - 1) (by omega), show j - 1 + 1 = j by omega]
  have hs := hwin (E.r - E.s) (by omega) (by omega)
  have ha0 := window_lt ha 0
  have hac := ha.carry
  unfold delta at v1
  unfold borrow at c1
  rcases hb with ⟨hc, hz⟩ | ⟨hc, hz⟩
  · rw [hz _ (by omega)] at hs
    rw [hs] at c1 v1
    rw [hc] at c1
    have h0 : swcWindow a 0 + a.carry ≤ 0 := by
      by_contra hcon
      rw [if_neg hcon] at c1; omega
    refine Or.inl ⟨by omega, fun j hj => ?_⟩
    rcases Nat.eq_zero_or_pos j with rfl | h0'
    · omega
    · rw [hwin j h0' hj, hz _ (by omega)]
  · rw [hz _ (by omega)] at hs
    rw [hs] at c1 v1
    rw [hc] at c1
    have h0 : ¬ swcWindow a 0 + a.carry ≤ 2 ^ E.w - 1 := by
      intro hcon
      rw [if_pos hcon] at c1; omega
    refine Or.inr ⟨by omega, fun j hj => ?_⟩
    rcases Nat.eq_zero_or_pos j with rfl | h0'
    · omega
    · rw [hwin j h0' hj, hz _ (by omega)]

/-- **C54.** An engine seeded from any table never returns the same value `r + 1` times in a row, no
matter how many calls precede. -/
theorem c54_not_stuck (hv : SwcValid E) (hw : 0 < E.w) (x : List Nat) (hx : x.length = E.r)
    (hx' : ∀ v ∈ x, v < 2 ^ E.w) (n : Nat) :
    ∃ st st' vs ws st'', E.ofTable x = some st ∧ run E.next n st = some (vs, st') ∧
      run E.next (E.r + 1) st' = some (ws, st'') ∧ ¬ ∃ v, ∀ u ∈ ws, u = v := by
  have := hv.s_pos
  have := hv.s_lt
  have hM : 2 ≤ 2 ^ E.w := by
    calc 2 = 2 ^ 1 := rfl
      _ ≤ _ := Nat.pow_le_pow_right (by omega) hw
  have e1 := Swc.getElem?_getD (x := x) (j := E.r - 1) (by omega)
  obtain ⟨st, hst⟩ : ∃ st : SwcState, st = ⟨x, if x.getD (E.r - 1) 0 = 0 then 1 else 0, 0⟩ := ⟨_, rfl⟩
  have ha : SwcOK E st := hst ▸ ⟨hx, hx', by dsimp; split <;> omega, by dsimp; omega⟩
  have hof : E.ofTable x = some st := by simp only [ofTable, e1, hst]; rfl
  have hns : ¬ E.stuck st := by
    have hwin := window_eq ha (show E.r - 1 < E.r by omega)
    simp only [hst, Nat.zero_add, Nat.mod_eq_of_lt (show E.r - 1 < E.r by omega)] at hwin
    rintro (⟨h1, h2⟩ | ⟨h1, h2⟩)
    · have := h2 (E.r - 1) (by omega)
      rw [hst] at this h1
      rw [hwin] at this
      simp only [this] at h1
      simp at h1
    · have := h2 (E.r - 1) (by omega)
      rw [hst] at this h1
      rw [hwin] at this
      rw [if_neg (by omega)] at h1
      simp at h1
  obtain ⟨S, V, hS0, hI, hn, hr⟩ := run_total (I := SwcOK E)
    (fun s hs => by obtain ⟨v, s', e, o, -⟩ := next_spec hv hs; exact ⟨v, s', e, o⟩) st ha
  have hnst : ∀ m, ¬ E.stuck (S m) := by
    intro m
    induction m with
    | zero => rw [hS0]; exact hns
    | succ m ih => exact fun hc => ih (stuck_back hv (hI m) (hn m) hc)
  obtain ⟨X, C, hrec, h0, hC0, hX, hC, hrun⟩ := c15_recurrence hv (S n) (hI n)
  obtain ⟨st'', e2, -⟩ := hrun (E.r + 1)
  obtain ⟨st3, e3, -, hcr, hwr⟩ := hrun E.r
  refine ⟨st, S n, _, _, st'', hof, hr n, e2, ?_⟩
  rintro ⟨v, hall⟩
  have hXv : ∀ i, i ≤ E.r → X (i + E.r) = v := fun i hi =>
    hall _ (List.mem_map.2 ⟨i, List.mem_range.2 (by omega), rfl⟩)
  have hval := hrec.value E.r
  rw [hXv E.r le_rfl, show E.r + E.r - E.s = (E.r - E.s) + E.r by omega, hXv _ (by omega)] at hval
  have hX0 : X E.r = v := by have := hXv 0 (by omega); simpa using this
  rw [hX0] at hval
  have hvlt : v < 2 ^ E.w := hX0 ▸ hX E.r
  have hcle := hC E.r
  -- the state after `r` of these calls would be stuck
  have hs3 : S (n + E.r) = st3 := by
    have h1 := hr (n + E.r)
    rw [run_add, hr n, Option.bind_some, e3] at h1
    simp only [Option.map_some, Option.some.injEq, Prod.mk.injEq] at h1
    exact h1.2.symm
  apply hnst (n + E.r)
  rw [hs3]
  have hp : ((2 ^ E.w : Nat) : Int) = 2 ^ E.w := by push_cast; rfl
  rw [← hp] at hval
  have hwv : ∀ j < E.r, swcWindow st3 j = v := fun j hj => by
    rw [hwr j hj, Nat.add_comm, hXv j (by omega)]
  rcases Nat.eq_zero_or_pos (C E.r) with hc | hc
  · rw [hc] at hval
    simp only [sub_self, Nat.cast_zero, Int.zero_emod] at hval
    exact Or.inl ⟨by rw [hcr, hc], fun j hj => by rw [hwv j hj]; omega⟩
  · have hc1 : C E.r = 1 := by omega
    rw [hc1] at hval
    refine Or.inr ⟨by rw [hcr, hc1], fun j hj => ?_⟩
    rw [hwv j hj]
    rw [← Int.add_emod_right, Int.emod_eq_of_lt (by omega) (by omega)] at hval
    omega

example : ((swcTiny.ofTable [0, 0, 0]).bind (run swcTiny.next 12)).map Prod.fst =
    some [15, 14, 14, 15, 0, 2, 2, 1, 15, 12, 11, 12] := by decide

end Boost.Random
