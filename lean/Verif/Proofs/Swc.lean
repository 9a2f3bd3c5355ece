import Verif.Spec.Swc
import Verif.Proofs.Run
import Mathlib.Tactic.Ring
import Mathlib.Data.List.GetD

namespace Boost.Random
open Spec
namespace Swc
variable {E : Swc}

/-- The new value and borrow. -/
def delta (E : Swc) (a b c : Nat) : Nat := if a + c ≤ b then b - (a + c) else 2 ^ E.w - (a + c) + b
def borrow (a b c : Nat) : Nat := if a + c ≤ b then 0 else 1

theorem delta_lt (a b c : Nat) (hb : b < 2 ^ E.w) : delta E a b c < 2 ^ E.w := by
  unfold delta; split <;> omega

theorem delta_spec (a b c : Nat) (ha : a < 2 ^ E.w) (hb : b < 2 ^ E.w) (hc : c ≤ 1) :
    (delta E a b c : Int) = ((b : Int) - a - c) % 2 ^ E.w := by
  have hp : ((2 ^ E.w : Nat) : Int) = 2 ^ E.w := by push_cast; rfl
  rw [← hp]
  unfold delta
  generalize 2 ^ E.w = M at *
  split
  · rw [Int.emod_eq_of_lt] <;> omega
  · rw [← Int.add_emod_right, Int.emod_eq_of_lt] <;> omega

theorem borrow_spec (a b c : Nat) :
    borrow a b c = if (b : Int) - a - c < 0 then 1 else 0 := by
  unfold borrow; split <;> split <;> omega

theorem doUpdate_spec (hv : SwcValid E) {x : List Nat} (hx : ∀ v ∈ x, v < 2 ^ E.w) {cur sh c a b : Nat}
    (hc : c ≤ 1) (ha : x[cur]? = some a) (hb : x[sh]? = some b) :
    E.doUpdate x cur sh c = some (x.set cur (delta E a b c), borrow a b c) := by
  have h1 : a < 2 ^ E.w := hx a (List.mem_of_getElem? ha)
  have h2 : b < 2 ^ E.w := hx b (List.mem_of_getElem? hb)
  have h3 : 2 * 2 ^ E.w ≤ 2 ^ E.bits := by
    rw [← Nat.pow_succ']; exact Nat.pow_le_pow_right (by omega) hv.w_lt
  have hp : 0 < 2 ^ E.w := Nat.two_pow_pos _
  simp only [doUpdate, ha, hb, Option.bind_eq_bind, Option.bind_some]
  unfold delta borrow
  generalize 2 ^ E.w = M at *
  generalize 2 ^ E.bits = B at *
  rw [Nat.mod_eq_of_lt (a := a + c) (by omega)]
  split
  · rfl
  · rw [show M + B - (a + c) + b = (M - (a + c) + b) + B by omega, Nat.add_mod_right,
      Nat.mod_eq_of_lt (by omega)]

/-- The index of `x(n - s)` when `x(n - r)` is at `j`. -/
def sh (E : Swc) (j : Nat) : Nat := if j < E.s then j + E.r - E.s else j - E.s

theorem sh_lt (hv : SwcValid E) {j : Nat} (hj : j < E.r) : sh E j < E.r := by
  have := hv.s_pos; have := hv.s_lt
  unfold sh; split <;> omega

/-- One update of position `j`. -/
def upd (E : Swc) (j : Nat) (p : List Nat × Nat) : List Nat × Nat :=
  (p.1.set j (delta E (p.1.getD j 0) (p.1.getD (sh E j) 0) p.2),
   borrow (p.1.getD j 0) (p.1.getD (sh E j) 0) p.2)

/-- Table and borrow are in range. -/
structure Good (E : Swc) (p : List Nat × Nat) : Prop where
  len : p.1.length = E.r
  lt : ∀ v ∈ p.1, v < 2 ^ E.w
  carry : p.2 ≤ 1

theorem getD_lt {p : List Nat × Nat} (h : Good E p) (j : Nat) : p.1.getD j 0 < 2 ^ E.w := by
  by_cases hj : j < p.1.length
  · rw [List.getD_eq_getElem _ _ hj]; exact h.lt _ (List.getElem_mem hj)
  · rw [List.getD_eq_default _ _ (by omega)]; exact Nat.two_pow_pos _

theorem getElem?_getD {x : List Nat} {j : Nat} (h : j < x.length) : x[j]? = some (x.getD j 0) := by
  rw [List.getD_eq_getElem _ _ h, List.getElem?_eq_getElem h]

theorem upd_good {p : List Nat × Nat} (h : Good E p) (j : Nat) : Good E (upd E j p) where
  len := by simp [upd, h.len]
  lt := by
    intro v hv
    rcases List.mem_or_eq_of_mem_set hv with h1 | h1
    · exact h.lt v h1
    · rw [h1]; exact delta_lt _ _ _ (getD_lt h _)
  carry := by simp only [upd, borrow]; split <;> omega

theorem doUpdate_upd (hv : SwcValid E) {p : List Nat × Nat} (h : Good E p) {j s' : Nat} (hj : j < E.r)
    (hs : s' = sh E j) : E.doUpdate p.1 j s' p.2 = some (upd E j p) := by
  subst hs
  exact doUpdate_spec hv h.lt h.carry (getElem?_getD (by rw [h.len]; exact hj))
    (getElem?_getD (by rw [h.len]; exact sh_lt hv hj))

/-- Updates of positions `a, ..., a + n - 1`. -/
def upds (E : Swc) : (n a : Nat) → List Nat × Nat → List Nat × Nat
  | 0, _, p => p
  | n + 1, a, p => upds E n (a + 1) (upd E a p)

theorem upds_good {n a : Nat} {p : List Nat × Nat} (h : Good E p) : Good E (upds E n a p) := by
  induction n generalizing a p with
  | zero => exact h
  | succ n ih => exact ih (upd_good h a)

theorem upds_add (m n a : Nat) (p : List Nat × Nat) :
    upds E (m + n) a p = upds E n (a + m) (upds E m a p) := by
  induction m generalizing a p with
  | zero => simp [upds]
  | succ m ih =>
    rw [show m + 1 + n = m + n + 1 by omega, upds, upds, ih, show a + 1 + m = a + (m + 1) by omega]

theorem updLoop_spec (hv : SwcValid E) (f : Nat → Nat) (n a : Nat) (p : List Nat × Nat) (h : Good E p)
    (hn : a + n ≤ E.r) (hf : ∀ j, a ≤ j → j < a + n → f j = sh E j) :
    E.updLoop f n a p.1 p.2 = some (upds E n a p) := by
  induction n generalizing a p with
  | zero => rfl
  | succ n ih =>
    rw [updLoop, doUpdate_upd hv h (by omega) (hf a (le_refl a) (by omega))]
    exact ih (a + 1) _ (upd_good h a) (by omega) fun j h1 h2 => hf j (by omega) (by omega)

theorem loopLow (hv : SwcValid E) (n a : Nat) (p : List Nat × Nat) (h : Good E p) (hn : a + n ≤ E.s) :
    E.updLoop (fun j => j + E.r - E.s) n a p.1 p.2 = some (upds E n a p) :=
  updLoop_spec hv _ n a p h (by have := hv.s_lt; omega) fun j _ h2 => by
    unfold sh; rw [if_pos (by omega)]

theorem loopHigh (hv : SwcValid E) (n a : Nat) (p : List Nat × Nat) (h : Good E p) (hn : a + n ≤ E.r)
    (ha : E.s ≤ a) : E.updLoop (fun j => j - E.s) n a p.1 p.2 = some (upds E n a p) :=
  updLoop_spec hv _ n a p h hn fun j h1 _ => by
    unfold sh; rw [if_neg (by omega)]

/-- A whole round through the table. -/
def rounds (E : Swc) : (n : Nat) → List Nat × Nat → List Nat × Nat
  | 0, p => p
  | n + 1, p => rounds E n (upds E E.r 0 p)

theorem rounds_good {n : Nat} {p : List Nat × Nat} (h : Good E p) : Good E (rounds E n p) := by
  induction n generalizing p with
  | zero => exact h
  | succ n ih => exact ih (upds_good h)

theorem blockLoop_spec (hv : SwcValid E) (n : Nat) (p : List Nat × Nat) (h : Good E p) :
    E.blockLoop n p.1 p.2 = some (rounds E n p) := by
  have := hv.s_lt
  induction n generalizing p with
  | zero => rfl
  | succ n ih =>
    have e1 := loopLow hv E.s 0 p h (by omega)
    have e2 := loopHigh hv (E.r - E.s) E.s _ (upds_good h (n := E.s) (a := 0)) (by omega) le_rfl
    have e3 : upds E E.r 0 p = upds E (E.r - E.s) E.s (upds E E.s 0 p) := by
      have := upds_add (E := E) E.s (E.r - E.s) 0 p
      rw [Nat.zero_add] at this
      rw [← this]; congr 1; omega
    simp only [blockLoop, e1, e2, Option.bind_eq_bind, Option.bind_some]
    rw [rounds, e3]
    exact ih _ (upds_good (upds_good h))

theorem good_of (st : SwcState) (h : SwcOK E st) : Good E (st.x, st.carry) := ⟨h.len, h.lt, h.carry⟩

theorem next_upd (hv : SwcValid E) {st : SwcState} (h : SwcOK E st) :
    E.next st = some ((upd E st.k (st.x, st.carry)).1.getD st.k 0,
      ⟨(upd E st.k (st.x, st.carry)).1, (upd E st.k (st.x, st.carry)).2, (st.k + 1) % E.r⟩) := by
  have hg := good_of st h
  have e := doUpdate_upd hv hg h.k rfl
  have hk := h.k
  simp only [sh] at e
  simp only [next, e, Option.bind_eq_bind, Option.bind_some,
    getElem?_getD (show st.k < (upd E st.k (st.x, st.carry)).1.length by rw [(upd_good hg _).len]; exact hk)]
  congr 3
  split
  · rw [show st.k + 1 = E.r by omega, Nat.mod_self]
  · rw [Nat.mod_eq_of_lt (by omega)]

/-- One call, seen through the window. -/
theorem window_eq {st : SwcState} (h : SwcOK E st) {j : Nat} (hj : j < E.r) :
    swcWindow st j = st.x.getD ((st.k + j) % E.r) 0 := by
  have hk := h.k
  have hl := h.len
  unfold swcWindow
  simp only [List.getD_eq_getElem?_getD]
  congr 1
  rw [List.getElem?_append, List.length_drop]
  split
  · rw [List.getElem?_drop, Nat.mod_eq_of_lt (by omega)]
  · rw [List.getElem?_take, if_pos (by omega), Nat.mod_eq_sub_mod (by omega), Nat.mod_eq_of_lt (by omega)]
    congr 1; omega

theorem next_spec (hv : SwcValid E) {st : SwcState} (h : SwcOK E st) :
    ∃ v st', E.next st = some (v, st') ∧ SwcOK E st' ∧
      v = delta E (swcWindow st 0) (swcWindow st (E.r - E.s)) st.carry ∧
      st'.carry = borrow (swcWindow st 0) (swcWindow st (E.r - E.s)) st.carry ∧
      st'.k = (st.k + 1) % E.r ∧
      (∀ j, j + 1 < E.r → swcWindow st' j = swcWindow st (j + 1)) ∧ swcWindow st' (E.r - 1) = v := by
  have hk := h.k
  have hl := h.len
  have := hv.s_pos
  have := hv.s_lt
  have hg := upd_good (good_of st h) st.k
  have hok : SwcOK E ⟨(upd E st.k (st.x, st.carry)).1, (upd E st.k (st.x, st.carry)).2,
      (st.k + 1) % E.r⟩ := ⟨hg.len, hg.lt, hg.carry, Nat.mod_lt _ (by omega)⟩
  have w0 : swcWindow st 0 = st.x.getD st.k 0 := by
    rw [window_eq h (by omega), Nat.add_zero, Nat.mod_eq_of_lt hk]
  have w1 : swcWindow st (E.r - E.s) = st.x.getD (sh E st.k) 0 := by
    rw [window_eq h (by omega)]
    congr 1
    unfold sh
    split
    · rw [Nat.mod_eq_of_lt (by omega)]; omega
    · rw [Nat.mod_eq_sub_mod (by omega), Nat.mod_eq_of_lt (by omega)]; omega
  refine ⟨_, _, next_upd hv h, hok, ?_, ?_, rfl, ?_, ?_⟩
  · rw [w0, w1]
    simp only [upd, List.getD_eq_getElem?_getD]
    rw [List.getElem?_set_self (by omega)]
    rfl
  · rw [w0, w1]; rfl
  · intro j hj
    rw [window_eq hok (by omega), window_eq h hj, Nat.mod_add_mod, show st.k + 1 + j = st.k + (j + 1) by omega]
    simp only [upd, List.getD_eq_getElem?_getD]
    rw [List.getElem?_set_ne]
    by_cases hc : st.k + (j + 1) < E.r
    · rw [Nat.mod_eq_of_lt hc]; omega
    · rw [Nat.mod_eq_sub_mod (by omega), Nat.mod_eq_of_lt (by omega)]; omega
  · rw [window_eq hok (by omega), Nat.mod_add_mod, show st.k + 1 + (E.r - 1) = st.k + E.r by omega,
      Nat.add_mod_right, Nat.mod_eq_of_lt hk]

theorem window_lt {st : SwcState} (h : SwcOK E st) (j : Nat) : swcWindow st j < 2 ^ E.w := by
  by_cases hj : j < (st.x.drop st.k ++ st.x.take st.k).length
  · unfold swcWindow
    rw [List.getD_eq_getElem _ _ hj]
    have := List.getElem_mem hj
    rcases List.mem_append.1 this with h1 | h1
    · exact h.lt _ (List.mem_of_mem_drop h1)
    · exact h.lt _ (List.mem_of_mem_take h1)
  · unfold swcWindow
    rw [List.getD_eq_default _ _ (by omega)]; exact Nat.two_pow_pos _

/-- Same window and borrow: same future. -/
theorem same_future (hv : SwcValid E) {a b : SwcState} (ha : SwcOK E a) (hb : SwcOK E b)
    (hw : ∀ j < E.r, swcWindow a j = swcWindow b j) (hc : a.carry = b.carry) :
    SameFuture E.next a b := by
  have := hv.s_pos
  have := hv.s_lt
  refine sameFuture_of (R := fun a b => SwcOK E a ∧ SwcOK E b ∧
    (∀ j < E.r, swcWindow a j = swcWindow b j) ∧ a.carry = b.carry) ?_ ⟨ha, hb, hw, hc⟩
  rintro a b ⟨ha, hb, hw, hc⟩
  obtain ⟨v, a', e1, o1, v1, c1, -, w1, l1⟩ := next_spec hv ha
  obtain ⟨v', b', e2, o2, v2, c2, -, w2, l2⟩ := next_spec hv hb
  have hvv : v = v' := by rw [v1, v2, hw 0 (by omega), hw (E.r - E.s) (by omega), hc]
  subst hvv
  refine ⟨v, a', b', e1, e2, o1, o2, fun j hj => ?_, ?_⟩
  · by_cases hj' : j + 1 < E.r
    · rw [w1 j hj', w2 j hj', hw _ hj']
    · rw [show j = E.r - 1 by omega, l1, l2]
  · rw [c1, c2, hw 0 (by omega), hw (E.r - E.s) (by omega), hc]

/-- `n` calls that stay within the table. -/
theorem stateAfter_upds (hv : SwcValid E) (n : Nat) (st : SwcState) (h : SwcOK E st) (hn : st.k + n ≤ E.r) :
    stateAfter E.next n st = some ⟨(upds E n st.k (st.x, st.carry)).1, (upds E n st.k (st.x, st.carry)).2,
      (st.k + n) % E.r⟩ := by
  induction n generalizing st with
  | zero => simp [stateAfter_zero, upds, Nat.mod_eq_of_lt h.k]
  | succ n ih =>
    rw [show n + 1 = 1 + n by omega, stateAfter_add, stateAfter_one, next_upd hv h]
    simp only [Option.map_some, Option.bind_some]
    have hg := upd_good (good_of st h) st.k
    rcases Nat.eq_zero_or_pos n with h0 | h0
    · subst h0
      simp [stateAfter_zero, upds]
    · have hk : (st.k + 1) % E.r = st.k + 1 := Nat.mod_eq_of_lt (by omega)
      rw [ih _ ⟨hg.len, hg.lt, hg.carry, Nat.mod_lt _ (by have := hv.s_lt; omega)⟩ (by simp only [hk]; omega)]
      simp only [hk]
      rw [show 1 + n = n + 1 by omega, upds, show st.k + 1 + n = st.k + (n + 1) by omega]

theorem stateAfter_rounds (hv : SwcValid E) (n : Nat) (p : List Nat × Nat) (h : Good E p) :
    stateAfter E.next (E.r * n) ⟨p.1, p.2, 0⟩ = some ⟨(rounds E n p).1, (rounds E n p).2, 0⟩ := by
  have hr : 0 < E.r := by have := hv.s_lt; omega
  induction n generalizing p with
  | zero => simp [stateAfter_zero, rounds]
  | succ n ih =>
    rw [Nat.mul_succ, Nat.add_comm, stateAfter_add,
      stateAfter_upds hv E.r _ ⟨h.len, h.lt, h.carry, hr⟩ (by simp)]
    simp only [Option.bind_some, Nat.zero_add, Nat.mod_self]
    exact ih _ (upds_good h)

/-- The part of `discard` after the first `if`, when it is right: `q` rounds and `k` more. -/
theorem tail_spec (hv : SwcValid E) (q k : Nat) (hk : k < E.r) (p : List Nat × Nat) (h : Good E p) :
    E.mainLoop q k p.1 p.2 = some (upds E k 0 (rounds E q p)) := by
  have := hv.s_lt
  have hg := rounds_good h (n := q)
  have e1 := loopLow hv (if E.s < k then E.s else k) 0 _ hg (by split <;> omega)
  simp only [mainLoop, blockLoop_spec hv q p h, Option.bind_some, e1]
  by_cases hks : E.s < k
  · have e2 := loopHigh hv (k - E.s) E.s _ (upds_good hg (n := if E.s < k then E.s else k) (a := 0)) (by omega) le_rfl
    rw [e2, if_pos hks]
    have := upds_add (E := E) E.s (k - E.s) 0 (rounds E q p)
    rw [Nat.zero_add] at this
    rw [← this]; congr 2; omega
  · rw [show k - E.s = 0 by omega, if_neg hks]; rfl

theorem stateAfter_tail (hv : SwcValid E) (q k : Nat) (hk : k < E.r) (p : List Nat × Nat) (h : Good E p) :
    stateAfter E.next (E.r * q + k) ⟨p.1, p.2, 0⟩ =
      some ⟨(upds E k 0 (rounds E q p)).1, (upds E k 0 (rounds E q p)).2, k⟩ := by
  have hr : 0 < E.r := by have := hv.s_lt; omega
  have hg := rounds_good h (n := q)
  rw [stateAfter_add, stateAfter_rounds hv q p h, Option.bind_some,
    stateAfter_upds hv k _ ⟨hg.len, hg.lt, hg.carry, hr⟩ (by simp; omega)]
  simp [Nat.mod_eq_of_lt hk]

/-- The first `if` of `discard`: finish the current round, or all of `z` calls if fewer. -/
theorem head_spec (hv : SwcValid E) (z : Nat) (st : SwcState) (h : SwcOK E st) :
    E.finishRound z st =
      some (upds E (min z (E.r - st.k)) st.k (st.x, st.carry)) := by
  have := hv.s_lt
  have hk := h.k
  have hg := good_of st h
  by_cases hks : st.k < E.s
  · have e1 := loopLow hv ((if E.s - st.k < z then E.s else st.k + z) - st.k) st.k _ hg (by split <;> omega)
    simp only [finishRound, hks, if_true, e1, Option.bind_some]
    have hl : (if E.r - st.k < z then E.r else st.k + z) = st.k + min z (E.r - st.k) := by split <;> omega
    rw [hl]
    by_cases hz : E.s - st.k < z
    · rw [if_pos hz, loopHigh hv _ E.s _ (upds_good hg) (by omega) le_rfl]
      have := upds_add (E := E) (E.s - st.k) (st.k + min z (E.r - st.k) - E.s) st.k (st.x, st.carry)
      rw [show st.k + (E.s - st.k) = E.s by omega] at this
      rw [← this]; congr 2; omega
    · rw [if_neg hz, show st.k + min z (E.r - st.k) - E.s = 0 by omega]
      simp only [updLoop]
      rw [show st.k + z - st.k = min z (E.r - st.k) by omega]
  · simp only [finishRound, hks, if_false, Option.bind_some]
    rw [loopHigh hv _ st.k _ hg (by split <;> omega) (by omega)]
    congr 2
    split <;> omega

theorem mod_unique {a q r k : Nat} (hk : k < r) (h : a = r * q + k) : a % r = k := by
  rw [h, Nat.mul_add_mod, Nat.mod_eq_of_lt hk]

theorem discard_spec (hv : SwcValid E) (z : Nat) (st : SwcState) (h : SwcOK E st)
    (hz : ¬(st.k = 0 ∧ 0 < z ∧ z < E.r)) : E.discard z st = stateAfter E.next z st := by
  have := hv.s_lt
  have hk := h.k
  have hg := good_of st h
  have hr : 0 < E.r := by omega
  unfold discard
  by_cases h0 : st.k = 0
  · simp only [h0, ne_eq, not_true, if_false, Option.bind_some, Nat.add_zero, Nat.mod_mod]
    have hst : st = ⟨st.x, st.carry, 0⟩ := by rw [← h0]
    rcases Nat.eq_zero_or_pos z with hz0 | hz0
    · subst hz0
      rw [stateAfter_zero, if_neg (by omega)]
      rw [Nat.zero_mod, Option.bind_some, ← hst]
    · have hzr : E.r ≤ z := by by_contra hc; exact hz ⟨h0, hz0, by omega⟩
      have hd := Nat.div_add_mod z E.r
      have hm := Nat.mod_lt z hr
      have hq : (z - z % E.r) / E.r = z / E.r := by
        rw [show z - z % E.r = E.r * (z / E.r) by omega, Nat.mul_div_cancel_left _ hr]
      have := tail_spec hv (z / E.r) (z % E.r) hm _ hg
      rw [if_pos (by omega), hq, this, hst]
      conv_rhs => rw [← hd]
      exact (stateAfter_tail hv _ _ hm _ hg).symm
  · have hh := head_spec hv z st h
    simp only [h0, ne_eq, not_false_iff, if_true, hh, Option.bind_some]
    by_cases hz1 : st.k + z ≤ E.r
    · -- all calls are within the current round
      rw [stateAfter_upds hv z st h hz1, show min z (E.r - st.k) = z by omega]
      have hm : (z % E.r + st.k) % E.r = (st.k + z) % E.r := by rw [Nat.mod_add_mod, Nat.add_comm]
      rw [hm]
      split
      · rename_i hlt
        have hkr : st.k + z = E.r := by
          by_contra hc
          rw [Nat.mod_eq_of_lt (by omega)] at hlt; omega
        rw [hkr, Nat.mod_self, Nat.sub_zero, Nat.div_eq_of_lt (by omega)]
        have := tail_spec hv 0 0 hr _ (upds_good hg (n := z) (a := st.k))
        rw [this]
        rfl
      · rfl
    · obtain ⟨q, k', hk', e⟩ : ∃ q k', k' < E.r ∧ st.k + z = E.r + (E.r * q + k') :=
        ⟨(st.k + z - E.r) / E.r, (st.k + z - E.r) % E.r, Nat.mod_lt _ hr, by
          rw [Nat.div_add_mod]; omega⟩
      have hm : (z % E.r + st.k) % E.r = k' := by
        rw [Nat.mod_add_mod]
        exact mod_unique (q := q + 1) hk' (by rw [Nat.mul_succ]; omega)
      have hq : (z - k') / E.r = q := by
        rw [show z - k' = E.r * q + (E.r - st.k) by omega, Nat.mul_add_div hr,
          Nat.div_eq_of_lt (by omega), Nat.add_zero]
      have hmin : min z (E.r - st.k) = E.r - st.k := by omega
      have hg' := upds_good hg (n := E.r - st.k) (a := st.k)
      have ht := tail_spec hv q k' hk' _ hg'
      rw [hm, hq, hmin, if_pos (by omega), ht, show z = (E.r - st.k) + (E.r * q + k') by omega, stateAfter_add,
        stateAfter_upds hv _ st h (by omega), show st.k + (E.r - st.k) = E.r by omega, Nat.mod_self]
      exact (stateAfter_tail hv q k' hk' _ hg').symm

end Swc
end Boost.Random
