import Verif.Proofs.Block
import Verif.Proofs.Adaptors
import Verif.Spec.LaggedFibonacci
import Mathlib.Data.List.GetD
import Mathlib.Data.Nat.ModEq
import Mathlib.Tactic.FieldSimp
import Mathlib.Tactic.Linarith
import Mathlib.Algebra.Order.Field.Rat
import Mathlib.Tactic.Positivity
import Mathlib.Tactic.NormNum

namespace Boost.Random
open Spec
variable {α : Type}

namespace Lagged

theorem fill_spec {add : α → α → α} {p q : Nat} (hq : 0 < q) (hqp : q < p) {X : Nat → α}
    (hX : ∀ n, X (n + p) = add (X n) (X (n + p - q))) (B : Nat) (x : List α) (h : Win X p B 0 x) :
    ∃ x', fill add p q x = some x' ∧ Win X p (B + 1) 0 x' := by
  obtain ⟨x1, e1, w1⟩ := sweep_win (fun j x => x[j]?.bind fun a => x[j + (p - q)]?.map fun b => add a b) q 0 x (by omega) h (by
    intro j x _ hj w
    rw [w.get j (by omega), w.get (j + (p - q)) (by omega), if_neg (by omega), if_neg (by omega), Option.bind_some, Option.map_some,
      Nat.add_mul, Nat.one_mul, show B * p + p + j = B * p + j + p by omega, hX,
      show B * p + (j + (p - q)) = B * p + j + p - q by omega])
  rw [Nat.zero_add] at w1
  obtain ⟨x2, e2, w2⟩ := sweep_win (fun j x => x[j]?.bind fun a => x[j - q]?.map fun b => add a b) (p - q) q x1 (by omega) w1 (by
    intro j x h1 hj w
    rw [w.get j (by omega), w.get (j - q) (by omega), if_neg (by omega), if_pos (by omega), Option.bind_some, Option.map_some,
      Nat.add_mul, Nat.one_mul, show B * p + p + j = B * p + j + p by omega, hX,
      show B * p + p + (j - q) = B * p + j + p - q by omega])
  rw [show q + (p - q) = p by omega] at w2
  exact ⟨x2, by rw [fill, e1, Option.bind_some, e2], w2.next⟩

theorem next_spec {add : α → α → α} {p q : Nat} (hq : 0 < q) (hqp : q < p) {X : Nat → α}
    (hX : ∀ n, X (n + p) = add (X n) (X (n + p - q))) (t : Nat) (st : BlockEng α) (h : BlockAt X p t st) :
    ∃ st', next add p q st = some (X t, st') ∧ BlockAt X p (t + 1) st' := by
  obtain ⟨y, e, g, w⟩ := block_next (by omega) (fun B x => fill_spec hq hqp hX B x) h
  exact ⟨_, by rw [next, e, Option.bind_some, g, Option.map_some], w⟩

end Lagged

namespace LaggedInt

theorem add_eq {L : Lagged.Params} (hw : L.w ≤ L.bits) (a b : Nat) : add L a b = (a + b) % 2 ^ L.w := by
  rw [add, Nat.and_two_pow_sub_one_eq_mod, Nat.mod_mod_of_dvd _ (Nat.pow_dvd_pow 2 hw)]

/-- The sequence that continues a table. -/
theorem exists_seq {L : Lagged.Params} (hv : LaggedValid L) (st : BlockEng Nat) (h : LaggedOK L st) :
    ∃ X, IsLagged L.w L.p L.q X ∧ (∀ j < L.p, st.x[j]? = some (X j)) ∧ ∀ n, X n < 2 ^ L.w := by
  have h1 := hv.q_pos
  have h2 := hv.q_lt
  have hadd := blockSeq_add 0 L.p (by omega) (fun f => (f 0 + f (L.p - L.q)) % 2 ^ L.w)
    (by intro f g hfg; simp only [hfg 0 (by omega), hfg (L.p - L.q) (by omega)]) st.x
  refine ⟨blockSeq 0 L.p (fun f => (f 0 + f (L.p - L.q)) % 2 ^ L.w) st.x, ?_, ?_, ?_⟩
  · intro n
    rw [hadd n]
    dsimp only
    rw [Nat.add_zero, show n + (L.p - L.q) = n + L.p - L.q by omega]
  · intro j hj
    rw [blockSeq_lt _ _ _ _ hj, List.getD_eq_getElem _ _ (by rw [h.len]; exact hj), List.getElem?_eq_getElem]
  · intro n
    by_cases hn : n < L.p
    · rw [blockSeq_lt _ _ _ _ hn, List.getD_eq_getElem _ _ (by rw [h.len]; exact hn)]
      exact h.lt _ (List.getElem_mem _)
    · obtain ⟨k, rfl⟩ : ∃ k, n = k + L.p := ⟨n - L.p, by omega⟩
      rw [hadd k]
      exact Nat.mod_lt _ (Nat.two_pow_pos _)

/-- A sequence is determined by any of its tails. -/
theorem backward {w p q : Nat} (hq : 0 < q) (hqp : q < p) {X Y : Nat → Nat} (hX : IsLagged w p q X) (hY : IsLagged w p q Y)
    (bX : ∀ n, X n < 2 ^ w) (bY : ∀ n, Y n < 2 ^ w) (i : Nat) (h : ∀ k, X (i + k) = Y (i + k)) : ∀ k, X k = Y k := by
  induction i with
  | zero => intro k; simpa using h k
  | succ i ih =>
    apply ih
    intro k
    cases k with
    | succ k => have := h k; rwa [show i + 1 + k = i + (k + 1) by omega] at this
    | zero =>
      rw [Nat.add_zero]
      have e1 : X (i + p) = Y (i + p) := by have := h (p - 1); rwa [show i + 1 + (p - 1) = i + p by omega] at this
      have e2 : X (i + p - q) = Y (i + p - q) := by
        have := h (p - q - 1); rwa [show i + 1 + (p - q - 1) = i + p - q by omega] at this
      rw [hX i, hY i, e2] at e1
      have := Nat.ModEq.add_right_cancel' (n := 2 ^ w) _ e1
      rwa [Nat.ModEq, Nat.mod_eq_of_lt (bX i), Nat.mod_eq_of_lt (bY i)] at this

end LaggedInt

namespace Lagged01

theorem add_eq (w a b : Nat) (ha : a < 2 ^ w) (hb : b < 2 ^ w) :
    add ((a : ℚ) / 2 ^ w) ((b : ℚ) / 2 ^ w) = (((a + b) % 2 ^ w : Nat) : ℚ) / 2 ^ w := by
  have hp : (0 : ℚ) < 2 ^ w := by positivity
  unfold add
  dsimp only
  by_cases h : a + b < 2 ^ w
  · rw [if_neg, Nat.mod_eq_of_lt h]
    · push_cast; ring
    · rw [← add_div, le_div_iff₀ hp, one_mul, not_le]
      exact_mod_cast h
  · have e : (a + b) % 2 ^ w = a + b - 2 ^ w := by
      rw [Nat.mod_eq_sub_mod (by omega), Nat.mod_eq_of_lt (by omega)]
    rw [if_pos, e, Nat.cast_sub (by omega)]
    · push_cast
      field_simp
    · rw [← add_div, le_div_iff₀ hp, one_mul]
      exact_mod_cast (not_lt.1 h)

end Lagged01

end Boost.Random
