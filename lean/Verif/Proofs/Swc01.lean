import Verif.Spec.Swc01
import Verif.Proofs.Swc
import Verif.Proofs.Rounding
import Mathlib.Tactic.Positivity
import Mathlib.Tactic.FieldSimp
import Mathlib.Tactic.Linarith

namespace Boost.Random
open Spec

namespace Swc01
variable {E : Swc01} {fl : ℚ → ℚ}

theorem valid_int (hv : Swc01Valid E) : SwcValid (swcOf E) := ⟨hv.s_pos, hv.s_lt, Nat.lt_succ_self _⟩

/-- Table and borrow, scaled. -/
def pair (w : Nat) (p : List Nat × Nat) : List ℚ × ℚ := (fractions w p.1, (p.2 : ℚ) / 2 ^ w)

theorem exact_int (R : Rounding E.digits fl) (hv : Swc01Valid E) {y : ℚ} (m : Int) (hm : |m| ≤ 2 ^ E.w)
    (hy : y = (m : ℚ) / 2 ^ E.w) : fl y = (m : ℚ) / 2 ^ E.w := by
  subst hy
  have hpow : (2 : Int) ^ E.w ≤ 2 ^ E.digits := pow_le_pow_right₀ (by norm_num) hv.w_le
  rcases lt_or_eq_of_le hm with h | h
  · exact R.exact _ ⟨m, -(E.w : ℤ), lt_of_lt_of_le h hpow, by rw [zpow_neg, zpow_natCast, div_eq_mul_inv]⟩
  · have h1 : (1 : Int) < 2 ^ E.digits := by
      calc (1 : Int) < 2 ^ 1 := by norm_num
        _ ≤ _ := pow_le_pow_right₀ (by norm_num) hv.digits_pos
    have hq : (2 : ℚ) ^ E.w ≠ 0 := by positivity
    rcases abs_eq (a := m) (by positivity : (0 : Int) ≤ 2 ^ E.w) |>.1 h with e | e
    · refine R.exact _ ⟨1, 0, by simpa using h1, ?_⟩
      rw [e]; push_cast; rw [div_self hq]; norm_num
    · refine R.exact _ ⟨-1, 0, by simpa using h1, ?_⟩
      rw [e]; push_cast; rw [neg_div, div_self hq]; norm_num

/-- Multiples of `2^-w` up to 1, and integers up to `2^w`, are exact. -/
theorem exact_le (R : Rounding E.digits fl) (hv : Swc01Valid E) {v : Nat} (h : v ≤ 2 ^ E.w) :
    fl ((v : ℚ) / 2 ^ E.w) = (v : ℚ) / 2 ^ E.w := by
  have hi : (v : Int) ≤ 2 ^ E.w := by exact_mod_cast h
  simpa using exact_int R hv (v : Int) (abs_le.2 ⟨by have : (0 : Int) ≤ 2 ^ E.w := by positivity
                                                     omega, hi⟩) rfl

theorem exact_nat (R : Rounding E.digits fl) (hv : Swc01Valid E) {v : Nat} (h : v ≤ 2 ^ E.w) : fl (v : ℚ) = v := by
  rcases lt_or_eq_of_le h with h | h
  · exact R.exact _ (Representable.natCast (lt_of_lt_of_le h (Nat.pow_le_pow_right (by norm_num) hv.w_le)))
  · rw [h]; push_cast; exact R.exact _ (Representable.two_pow hv.digits_pos _)

theorem write_exact_le (R : Rounding E.digits fl) (hv : Swc01Valid E) {v : Nat} (h : v ≤ 2 ^ E.w) :
    (fl ((v : ℚ) / 2 ^ E.w * 2 ^ E.w)).floor = (v : Int) := by
  rw [div_mul_cancel₀ _ (by positivity), exact_nat R hv h]
  exact_mod_cast Rat.floor_intCast (v : Int)

theorem write_exact (R : Rounding E.digits fl) (hv : Swc01Valid E) {v : Nat} (h : v < 2 ^ E.w) :
    (fl ((v : ℚ) / 2 ^ E.w * 2 ^ E.w)).floor = (v : Int) := write_exact_le R hv h.le

theorem read_exact_le (R : Rounding E.digits fl) (hv : Swc01Valid E) {v : Nat} (h : v ≤ 2 ^ E.w) :
    fl (fl (v : ℚ) / 2 ^ E.w) = (v : ℚ) / 2 ^ E.w := by
  rw [exact_nat R hv h, exact_le R hv h]

theorem read_exact (R : Rounding E.digits fl) (hv : Swc01Valid E) {v : Nat} (h : v < 2 ^ E.w) :
    fl (fl (v : ℚ) / 2 ^ E.w) = (v : ℚ) / 2 ^ E.w := read_exact_le R hv h.le

theorem carry_eq (R : Rounding E.digits fl) (hv : Swc01Valid E) (v : Nat) :
    (if (v : ℚ) / 2 ^ E.w ≠ 0 then (0 : ℚ) else fl (1 / 2 ^ E.w)) = ((if v = 0 then 1 else 0 : Nat) : ℚ) / 2 ^ E.w := by
  have e3 : fl (1 / 2 ^ E.w) = ((1 : Int) : ℚ) / 2 ^ E.w :=
    exact_int R hv 1 (by simpa using one_le_pow₀ (M₀ := Int) (by norm_num : (1 : Int) ≤ 2)) (by simp)
  have hq : (2 : ℚ) ^ E.w ≠ 0 := by positivity
  rcases Nat.eq_zero_or_pos v with h0 | h0
  · simp only [h0, if_true, e3]; simp
  · rw [if_pos (div_ne_zero (by exact_mod_cast h0.ne') hq), if_neg (by omega)]; simp

theorem doUpdate_sim (R : Rounding E.digits fl) (hv : Swc01Valid E) {p : List Nat × Nat}
    (h1 : ∀ v ∈ p.1, v < 2 ^ E.w) (h2 : p.2 ≤ 1) (cur sh : Nat) :
    E.doUpdate fl (pair E.w p).1 cur sh (pair E.w p).2 = ((swcOf E).doUpdate p.1 cur sh p.2).map (pair E.w) := by
  obtain ⟨x, c⟩ := p
  simp only [pair, fractions, doUpdate, List.getElem?_map] at *
  cases ha : x[cur]? with
  | none => simp [Swc.doUpdate, ha]
  | some a =>
    cases hb : x[sh]? with
    | none => simp [Swc.doUpdate, ha, hb]
    | some b =>
      rw [Swc.doUpdate_spec (valid_int hv) (E := swcOf E) h1 h2 ha hb]
      have hA : a < 2 ^ E.w := h1 a (List.mem_of_getElem? ha)
      have hB : b < 2 ^ E.w := h1 b (List.mem_of_getElem? hb)
      have hAi : (a : Int) < 2 ^ E.w := by exact_mod_cast hA
      have hBi : (b : Int) < 2 ^ E.w := by exact_mod_cast hB
      have hq : (0 : ℚ) < 2 ^ E.w := by positivity
      have e1 : fl ((b : ℚ) / 2 ^ E.w - (a : ℚ) / 2 ^ E.w) = (((b : Int) - a : Int) : ℚ) / 2 ^ E.w :=
        exact_int R hv _ (abs_le.2 ⟨by omega, by omega⟩) (by push_cast; ring)
      have e2 : fl ((((b : Int) - a : Int) : ℚ) / 2 ^ E.w - (c : ℚ) / 2 ^ E.w) = (((b : Int) - a - c : Int) : ℚ) / 2 ^ E.w :=
        exact_int R hv _ (abs_le.2 ⟨by omega, by omega⟩) (by push_cast; ring)
      have e3 : fl (1 / 2 ^ E.w) = ((1 : Int) : ℚ) / 2 ^ E.w :=
        exact_int R hv 1 (by simpa using one_le_pow₀ (M₀ := Int) (by norm_num : (1 : Int) ≤ 2)) (by simp)
      simp only [Option.map_some, Option.bind_eq_bind, Option.bind_some, e1, e2, e3]
      have hcond : ((((b : Int) - a - c : Int) : ℚ) / 2 ^ E.w < 0) ↔ ¬ a + c ≤ b := by
        rw [div_lt_iff₀ hq, zero_mul]
        constructor
        · intro h; have : ((b : Int) - a - c) < 0 := by exact_mod_cast h
          omega
        · intro h; have : ((b : Int) - a - c) < 0 := by omega
          exact_mod_cast this
      unfold Swc.delta Swc.borrow
      by_cases hle : a + c ≤ b
      · rw [if_neg (by rw [hcond]; simpa using hle), if_pos hle, if_pos hle]
        have e5 : (((b : Int) - a - c : Int) : ℚ) = ((b - (a + c) : Nat) : ℚ) := by rw [Nat.cast_sub hle]; push_cast; ring
        simp only [pair, fractions, List.map_set, Nat.cast_zero, zero_div, e5]
      · have e4 : fl ((((b : Int) - a - c : Int) : ℚ) / 2 ^ E.w + 1) = (((b : Int) - a - c + 2 ^ E.w : Int) : ℚ) / 2 ^ E.w :=
          exact_int R hv _ (abs_le.2 ⟨by omega, by omega⟩) (by push_cast; field_simp)
        rw [if_pos (by rw [hcond]; exact hle), if_neg hle, if_neg hle, e4]
        have e5 : (((b : Int) - a - c + 2 ^ E.w : Int) : ℚ) = ((2 ^ (swcOf E).w - (a + c) + b : Nat) : ℚ) := by
          have : ((2 ^ (swcOf E).w - (a + c) + b : Nat) : Int) = (b : Int) - a - c + 2 ^ E.w := by
            have hp : ((2 ^ (swcOf E).w : Nat) : Int) = 2 ^ E.w := by push_cast; rfl
            have hA' : a < 2 ^ (swcOf E).w := hA
            omega
          rw [← this]; exact Int.cast_natCast _
        simp only [pair, fractions, List.map_set, Nat.cast_one, Int.cast_one, e5]

/-- Table and borrow are in range. -/
def Ok (E : Swc01) (p : List Nat × Nat) : Prop := (∀ v ∈ p.1, v < 2 ^ E.w) ∧ p.2 ≤ 1

theorem doUpdate_ok (hv : Swc01Valid E) {p q : List Nat × Nat} (h : Ok E p) {cur sh : Nat}
    (e : (swcOf E).doUpdate p.1 cur sh p.2 = some q) : Ok E q := by
  cases ha : p.1[cur]? with
  | none => simp [Swc.doUpdate, ha] at e
  | some a =>
    cases hb : p.1[sh]? with
    | none => simp [Swc.doUpdate, ha, hb] at e
    | some b =>
      rw [Swc.doUpdate_spec (valid_int hv) (E := swcOf E) h.1 h.2 ha hb] at e
      obtain rfl := Option.some.inj e
      refine ⟨fun v hvm => ?_, by unfold Swc.borrow; dsimp only; split <;> omega⟩
      rcases List.mem_or_eq_of_mem_set hvm with h1 | h1
      · exact h.1 v h1
      · rw [h1]; exact Swc.delta_lt (E := swcOf E) _ _ _ (h.1 b (List.mem_of_getElem? hb))

theorem updLoop_sim (R : Rounding E.digits fl) (hv : Swc01Valid E) (f : Nat → Nat) (n a : Nat) (p : List Nat × Nat) (h : Ok E p) :
    E.updLoop fl f n a (pair E.w p).1 (pair E.w p).2 = ((swcOf E).updLoop f n a p.1 p.2).map (pair E.w) ∧
      ∀ q, (swcOf E).updLoop f n a p.1 p.2 = some q → Ok E q := by
  induction n generalizing a p with
  | zero => exact ⟨rfl, fun q e => by obtain rfl := Option.some.inj e; exact h⟩
  | succ n ih =>
    simp only [updLoop, Swc.updLoop, doUpdate_sim R hv h.1 h.2, Option.bind_eq_bind]
    cases hd : (swcOf E).doUpdate p.1 a (f a) p.2 with
    | none => exact ⟨rfl, fun q e => by simp at e⟩
    | some q => exact ih (a + 1) q (doUpdate_ok hv h hd)

theorem blockLoop_sim (R : Rounding E.digits fl) (hv : Swc01Valid E) (n : Nat) (p : List Nat × Nat) (h : Ok E p) :
    E.blockLoop fl n (pair E.w p).1 (pair E.w p).2 = ((swcOf E).blockLoop n p.1 p.2).map (pair E.w) ∧
      ∀ q, (swcOf E).blockLoop n p.1 p.2 = some q → Ok E q := by
  induction n generalizing p with
  | zero => exact ⟨rfl, fun q e => by obtain rfl := Option.some.inj e; exact h⟩
  | succ n ih =>
    have h1 := updLoop_sim R hv (fun j => j + E.r - E.s) E.s 0 p h
    simp only [blockLoop, Swc.blockLoop, Option.bind_eq_bind, h1.1]
    show _ = Option.map _ (((swcOf E).updLoop (fun j => j + E.r - E.s) E.s 0 p.1 p.2).bind _) ∧ _
    cases hd : (swcOf E).updLoop (fun j => j + E.r - E.s) E.s 0 p.1 p.2 with
    | none =>
      refine ⟨rfl, fun q e => ?_⟩
      rw [show (swcOf E).updLoop (fun j => j + (swcOf E).r - (swcOf E).s) (swcOf E).s 0 p.1 p.2 = none from hd] at e
      simp at e
    | some q =>
      have h2 := updLoop_sim R hv (fun j => j - E.s) (E.r - E.s) E.s q (h1.2 q hd)
      rw [show (swcOf E).updLoop (fun j => j + (swcOf E).r - (swcOf E).s) (swcOf E).s 0 p.1 p.2 = some q from hd]
      simp only [Option.map_some, Option.bind_some, h2.1]
      cases hd' : (swcOf E).updLoop (fun j => j - E.s) (E.r - E.s) E.s q.1 q.2 with
      | none =>
        rw [show (swcOf E).updLoop (fun j => j - (swcOf E).s) ((swcOf E).r - (swcOf E).s) (swcOf E).s q.1 q.2 = none from hd']
        exact ⟨rfl, fun q e => by simp at e⟩
      | some q' =>
        rw [show (swcOf E).updLoop (fun j => j - (swcOf E).s) ((swcOf E).r - (swcOf E).s) (swcOf E).s q.1 q.2 = some q' from hd']
        exact ih q' (h2.2 q' hd')

theorem finishRound_sim (R : Rounding E.digits fl) (hv : Swc01Valid E) (z : Nat) (st : SwcState) (h : Ok E (st.x, st.carry)) :
    E.finishRound fl z (asFractions E.w st) = ((swcOf E).finishRound z st).map (pair E.w) ∧
      ∀ q, (swcOf E).finishRound z st = some q → Ok E q := by
  have h1 := updLoop_sim R hv (fun j => j + E.r - E.s) ((if E.s - st.k < z then E.s else st.k + z) - st.k) st.k _ h
  unfold finishRound Swc.finishRound
  have hs : (swcOf E).s = E.s := rfl
  have hr : (swcOf E).r = E.r := rfl
  by_cases hk : st.k < E.s
  · have hk1 : (asFractions E.w st).k < E.s := hk
    have hk2 : st.k < (swcOf E).s := hk
    simp only [if_pos hk1, if_pos hk2]
    rw [show E.updLoop fl (fun j => j + E.r - E.s) ((if E.s - (asFractions E.w st).k < z then E.s else (asFractions E.w st).k + z) -
      (asFractions E.w st).k) (asFractions E.w st).k (asFractions E.w st).x (asFractions E.w st).carry = _ from h1.1]
    simp only [hs, hr] at h1 ⊢
    cases hd : (swcOf E).updLoop (fun j => j + E.r - E.s) ((if E.s - st.k < z then E.s else st.k + z) - st.k) st.k st.x st.carry with
    | none => exact ⟨rfl, fun q e => by simp at e⟩
    | some q => exact updLoop_sim R hv _ _ _ q (h1.2 q hd)
  · have hk1 : ¬ (asFractions E.w st).k < E.s := hk
    have hk2 : ¬ st.k < (swcOf E).s := hk
    simp only [if_neg hk1, if_neg hk2]
    exact updLoop_sim R hv _ _ _ _ h

theorem mainLoop_sim (R : Rounding E.digits fl) (hv : Swc01Valid E) (q k : Nat) (p : List Nat × Nat) (h : Ok E p) :
    E.mainLoop fl q k (pair E.w p).1 (pair E.w p).2 = ((swcOf E).mainLoop q k p.1 p.2).map (pair E.w) ∧
      ∀ t, (swcOf E).mainLoop q k p.1 p.2 = some t → Ok E t := by
  unfold mainLoop Swc.mainLoop
  have h1 := blockLoop_sim R hv q p h
  simp only [show (swcOf E).s = E.s from rfl, show (swcOf E).r = E.r from rfl, h1.1]
  cases hd : (swcOf E).blockLoop q p.1 p.2 with
  | none => exact ⟨rfl, fun q e => by simp at e⟩
  | some p1 =>
    have h2 := updLoop_sim R hv (fun j => j + E.r - E.s) (if E.s < k then E.s else k) 0 p1 (h1.2 _ hd)
    simp only [Option.map_some, Option.bind_some, h2.1]
    cases hd' : (swcOf E).updLoop (fun j => j + E.r - E.s) (if E.s < k then E.s else k) 0 p1.1 p1.2 with
    | none => exact ⟨rfl, fun q e => by simp at e⟩
    | some p2 => exact updLoop_sim R hv _ _ _ p2 (h2.2 _ hd')

theorem discard_sim (R : Rounding E.digits fl) (hv : Swc01Valid E) (z : Nat) (st : SwcState) (h : Ok E (st.x, st.carry)) :
    E.discard fl z (asFractions E.w st) = ((swcOf E).discard z st).map (asFractions E.w) := by
  unfold discard Swc.discard
  have h1 := finishRound_sim R hv z st h
  simp only [show (swcOf E).r = E.r from rfl, h1.1, show (asFractions E.w st).k = st.k from rfl]
  have key : ∀ p, Ok E p → ((if (z % E.r + st.k) % E.r < z then E.mainLoop fl ((z - (z % E.r + st.k) % E.r) / E.r) ((z % E.r + st.k) % E.r)
        (pair E.w p).1 (pair E.w p).2 else some (pair E.w p)).bind fun p => some (⟨p.1, p.2, (z % E.r + st.k) % E.r⟩ : Swc01State)) =
      Option.map (asFractions E.w) ((if (z % E.r + st.k) % E.r < z then (swcOf E).mainLoop ((z - (z % E.r + st.k) % E.r) / E.r)
        ((z % E.r + st.k) % E.r) p.1 p.2 else some p).bind fun p => some ⟨p.1, p.2, (z % E.r + st.k) % E.r⟩) := by
    intro p hp
    by_cases hz : (z % E.r + st.k) % E.r < z
    · simp only [if_pos hz, (mainLoop_sim R hv _ _ p hp).1]
      cases (swcOf E).mainLoop ((z - (z % E.r + st.k) % E.r) / E.r) ((z % E.r + st.k) % E.r) p.1 p.2 <;> rfl
    · simp only [if_neg hz]; rfl
  by_cases hk : st.k ≠ 0
  · simp only [if_pos hk]
    cases hd : (swcOf E).finishRound z st with
    | none => rfl
    | some p => exact key p (h1.2 p hd)
  · simp only [if_neg hk]
    exact key (st.x, st.carry) h

theorem next_sim (R : Rounding E.digits fl) (hv : Swc01Valid E) (st : SwcState) (h : Ok E (st.x, st.carry)) :
    E.next fl (asFractions E.w st) = ((swcOf E).next st).map fun p => ((p.1 : ℚ) / 2 ^ E.w, asFractions E.w p.2) := by
  unfold next Swc.next
  have h1 := doUpdate_sim R hv h.1 h.2 st.k (if st.k < E.s then st.k + E.r - E.s else st.k - E.s)
  simp only [Option.bind_eq_bind]
  rw [show E.doUpdate fl (asFractions E.w st).x (asFractions E.w st).k (if (asFractions E.w st).k < E.s then
      (asFractions E.w st).k + E.r - E.s else (asFractions E.w st).k - E.s) (asFractions E.w st).carry = _ from h1,
    show (swcOf E).doUpdate st.x st.k (if st.k < (swcOf E).s then st.k + (swcOf E).r - (swcOf E).s else st.k - (swcOf E).s) st.carry =
      (swcOf E).doUpdate st.x st.k (if st.k < E.s then st.k + E.r - E.s else st.k - E.s) st.carry from rfl]
  cases (swcOf E).doUpdate st.x st.k (if st.k < E.s then st.k + E.r - E.s else st.k - E.s) st.carry with
  | none => rfl
  | some p =>
    simp only [Option.map_some, Option.bind_some, pair, fractions, List.getElem?_map, show (asFractions E.w st).k = st.k from rfl]
    cases p.1[st.k]? <;> rfl

theorem ok_of {st : SwcState} (h : SwcOK (swcOf E) st) : Ok E (st.x, st.carry) := ⟨h.lt, h.carry⟩

theorem run_sim (R : Rounding E.digits fl) (hv : Swc01Valid E) (n : Nat) (st : SwcState) (h : SwcOK (swcOf E) st) :
    run (E.next fl) n (asFractions E.w st) =
      (run (swcOf E).next n st).map fun p => (fractions E.w p.1, asFractions E.w p.2) := by
  induction n generalizing st with
  | zero => rfl
  | succ n ih =>
    obtain ⟨v, st', e, ok, -⟩ := Swc.next_spec (valid_int hv) h
    simp only [run, next_sim R hv st (ok_of h), e, Option.map_some, Option.bind_eq_bind, Option.bind_some, ih st' ok]
    cases run (swcOf E).next n st' <;> rfl

theorem stateAfter_sim (R : Rounding E.digits fl) (hv : Swc01Valid E) (n : Nat) (st : SwcState) (h : SwcOK (swcOf E) st) :
    stateAfter (E.next fl) n (asFractions E.w st) = (stateAfter (swcOf E).next n st).map (asFractions E.w) := by
  unfold stateAfter
  rw [run_sim R hv n st h, Option.map_map, Option.map_map]; rfl

theorem frac_inj {w a b : Nat} : ((a : ℚ) / 2 ^ w = (b : ℚ) / 2 ^ w) ↔ a = b := by
  have hq : (2 : ℚ) ^ w ≠ 0 := by positivity
  rw [div_left_inj' hq]
  exact Nat.cast_inj

theorem eq_sim (a b : SwcState) : E.eq (asFractions E.w a) (asFractions E.w b) = (swcOf E).eq a b := by
  unfold eq Swc.eq
  simp only [show (swcOf E).r = E.r from rfl]
  congr 1
  funext j
  simp only [compute, Swc.compute, asFractions, fractions, List.getElem?_map, show (swcOf E).r = E.r from rfl]
  cases a.x[(a.k + j) % E.r]? <;> cases b.x[(b.k + j) % E.r]? <;> try rfl
  next u v =>
    rw [Bool.eq_iff_iff]
    simp only [Option.map_some, beq_iff_eq, Option.some.injEq, frac_inj]

theorem fractions_inj {w : Nat} {x y : List Nat} (h : fractions w x = fractions w y) : x = y := by
  refine List.map_injective_iff.2 ?_ h
  intro a b hab
  exact frac_inj.1 hab

theorem asFractions_inj {w : Nat} {a b : SwcState} (h : asFractions w a = asFractions w b) : a = b := by
  obtain ⟨x, c, k⟩ := a
  obtain ⟨y, d, l⟩ := b
  simp only [asFractions, Swc01State.mk.injEq] at h
  obtain ⟨h1, h2, h3⟩ := h
  rw [fractions_inj h1, frac_inj.1 h2, h3]

end Swc01
end Boost.Random
