import Verif.Proofs.Expected
import Verif.Model.Programs
import Mathlib.Data.List.Permutation
import Mathlib.Data.Nat.Factorial.Basic

/-! Laws of programs that draw several times: bounds from below multiply, and are exact if they add up to one. -/

namespace Boost.Random
open Spec Finset

section
variable {α β : Type} [DecidableEq α] [DecidableEq β] {E : EngInfo}

theorem rho_ge_zero (hE : E.min ≤ E.max) (q : List Int → Draw α) (n : Nat) (v : α) : 0 ≤ rho E q n v := by
  rw [← avg_const E 0 n]
  apply avg_mono E hE
  intro xs _ _
  split <;> norm_num

theorem rho_mono (hE : E.min ≤ E.max) {q : List Int → Draw α} (hq : LocalOn E q) (v : α) {n m : Nat} (h : n ≤ m) :
    rho E q n v ≤ rho E q m v := by
  rw [rho_eq_sum E hE n q hq, rho_eq_sum E hE m q hq]
  apply sum_le_sum_of_subset_of_nonneg
  · intro j hj
    rw [mem_range] at *
    omega
  · intro j _ _
    have := b_pos E
    positivity

/-- Two calls in turn return at least what the one and then the other return. -/
theorem rho_bind_ge (hE : E.min ≤ E.max) (f : α → List Int → Draw β) (u : α) (hf : LocalOn E (f u)) (v : β) (m : Nat) :
    ∀ (n : Nat) (q : List Int → Draw α), LocalOn E q →
      rho E q n u * rho E (f u) m v ≤ rho E (fun xs => (q xs).bind f) (n + m) v := by
  intro n
  induction n with
  | zero =>
    intro q hq
    rw [Nat.zero_add]
    rcases hq.cases with ⟨u', h⟩ | h
    · by_cases hu : u' = u
      · subst hu
        have h1 : rho E (fun xs => (q xs).bind f) m v = rho E (f u') m v := by
          apply avg_congr E hE
          intro xs hxs _
          simp only [h xs hxs, Draw.bind]
        rw [h1]
        have h2 : rho E q 0 u' ≤ 1 := by
          simp only [rho, avg]
          split <;> norm_num
        have := mul_le_mul_of_nonneg_right h2 (rho_ge_zero hE (f u') m v)
        linarith
      · have h2 : rho E q 0 u = 0 := by
          simp only [rho, avg]
          rw [h [] Outputs.nil]
          simp [returns, hu]
        rw [h2, zero_mul]
        exact rho_ge_zero hE _ _ _
    · have h2 : rho E q 0 u = 0 := by
        simp only [rho, avg]
        cases hq0 : q [] with
        | more => simp [returns]
        | ub => simp [returns]
        | done a rest => exact absurd hq0 (h a rest)
      rw [h2, zero_mul]
      exact rho_ge_zero hE _ _ _
  | succ n ih =>
    intro q hq
    rcases hq.cases with ⟨u', h⟩ | h
    · by_cases hu : u' = u
      · subst hu
        have h1 : rho E (fun xs => (q xs).bind f) (n + 1 + m) v = rho E (f u') (n + 1 + m) v := by
          apply avg_congr E hE
          intro xs hxs _
          simp only [h xs hxs, Draw.bind]
        have h2 : rho E q (n + 1) u' ≤ 1 := by
          rw [← avg_const E 1 (n + 1)]
          apply avg_mono E hE
          intro xs _ _
          split <;> norm_num
        rw [h1]
        have h3 := mul_le_mul_of_nonneg_right h2 (rho_ge_zero hE (f u') m v)
        have h4 := rho_mono hE hf v (show m ≤ n + 1 + m by omega)
        linarith
      · have h2 : rho E q (n + 1) u = 0 := by
          rw [← avg_const E 0 (n + 1)]
          apply avg_congr E hE
          intro xs hxs _
          rw [h xs hxs]
          simp [returns, hu]
        rw [h2, zero_mul]
        exact rho_ge_zero hE _ _ _
    · have e1 : rho E q (n + 1) u = (∑ d ∈ range E.b, rho E (fun xs => q ((E.min + (d : Int)) :: xs)) n u) / E.b := rfl
      have e2 : rho E (fun xs => (q xs).bind f) (n + 1 + m) v =
          (∑ d ∈ range E.b, rho E (fun xs => (q ((E.min + (d : Int)) :: xs)).bind f) (n + m) v) / E.b := by
        rw [show n + 1 + m = (n + m) + 1 by omega]
        rfl
      rw [e1, e2, div_mul_eq_mul_div, sum_mul]
      apply div_le_div_of_nonneg_right _ (b_pos E).le
      apply sum_le_sum
      intro d hd
      exact ih _ (hq.deriv h hE (mem_range.1 hd))

/-- The probability of `v` comes up to `p`. -/
def AtLeast (E : EngInfo) (q : List Int → Draw α) (v : α) (p : ℚ) : Prop := ∀ ε : ℚ, 0 < ε → ∃ m, p - ε < rho E q m v

theorem AtLeast.of_tends {q : List Int → Draw α} {v : α} {p : ℚ} (h : Tends (fun n => returned E q n v) p) : AtLeast E q v p := by
  intro ε hε
  obtain ⟨m, hm⟩ := h ε hε
  have := abs_lt.1 (hm m le_rfl)
  simp only [returned_eq] at this
  exact ⟨m, by linarith⟩

theorem AtLeast.done {v : α} : AtLeast E (fun xs => Draw.done v xs) v 1 := by
  intro ε hε
  refine ⟨0, ?_⟩
  simp only [rho, avg, returns]
  simp [hε]

theorem AtLeast.bind (hE : E.min ≤ E.max) {q : List Int → Draw α} {f : α → List Int → Draw β} {u : α} {v : β} {p r : ℚ}
    (hq : LocalOn E q) (hf : LocalOn E (f u)) (h1 : AtLeast E q u p) (h2 : AtLeast E (f u) v r) (hp : 0 ≤ p) (hr : 0 ≤ r) :
    AtLeast E (fun xs => (q xs).bind f) v (p * r) := by
  intro ε hε
  have hd : 0 < ε / (p + r + 1) := by positivity
  obtain ⟨n, hn⟩ := h1 _ hd
  obtain ⟨m, hm⟩ := h2 _ hd
  refine ⟨n + m, lt_of_lt_of_le ?_ (rho_bind_ge hE f u hf v m n q hq)⟩
  have a0 := rho_ge_zero hE q n u
  have b0 := rho_ge_zero hE (f u) m v
  set δ := ε / (p + r + 1) with hδ
  have e : δ * (p + r + 1) = ε := by rw [hδ]; field_simp
  set A := rho E q n u
  set B := rho E (f u) m v
  rcases le_or_gt p δ with h | h
  · have : p * r ≤ δ * r := mul_le_mul_of_nonneg_right h hr
    have : 0 ≤ δ * p := by positivity
    have : 0 ≤ A * B := by positivity
    nlinarith
  · rcases le_or_gt r δ with h' | h'
    · have : p * r ≤ p * δ := mul_le_mul_of_nonneg_left h' hp
      have : 0 ≤ δ * r := by positivity
      have : 0 ≤ A * B := by positivity
      nlinarith
    · have : (p - δ) * (r - δ) ≤ A * B := mul_le_mul hn.le hm.le (by linarith) a0
      have : 0 < δ * δ := by positivity
      nlinarith

theorem AtLeast.congr (hE : E.min ≤ E.max) {q q' : List Int → Draw α} {v : α} {p : ℚ} (h : ∀ xs, Outputs E xs → q xs = q' xs)
    (h1 : AtLeast E q v p) : AtLeast E q' v p := by
  intro ε hε
  obtain ⟨m, hm⟩ := h1 ε hε
  refine ⟨m, lt_of_lt_of_le hm (le_of_eq ?_)⟩
  apply avg_congr E hE
  intro xs hxs _
  rw [h xs hxs]

theorem rho_sum_le (hE : E.min ≤ E.max) (q : List Int → Draw α) (s : Finset α) (n : Nat) : ∑ v ∈ s, rho E q n v ≤ 1 := by
  unfold rho
  rw [← avg_sum]
  refine le_trans ?_ (avg_const E 1 n).le
  apply avg_mono E hE
  intro xs _ _
  cases hq : q xs with
  | more => simp [returns]
  | ub => simp [returns]
  | done a rest =>
    simp only [returns, decide_eq_true_eq]
    rw [sum_ite_eq]
    split <;> norm_num

/-- Bounds from below that add up to one are the law. -/
theorem AtLeast.tends (hE : E.min ≤ E.max) {q : List Int → Draw α} (hq : LocalOn E q) (s : Finset α) (p : α → ℚ)
    (hs : ∑ v ∈ s, p v = 1) (h : ∀ v ∈ s, AtLeast E q v (p v)) (v : α) (hv : v ∈ s) :
    Tends (fun n => returned E q n v) (p v) := by
  intro ε hε
  have hc : (0 : ℚ) < s.card := by exact_mod_cast Finset.card_pos.2 ⟨v, hv⟩
  have hd : 0 < ε / s.card := by positivity
  have : ∃ m, ∀ w ∈ s, p w - ε / s.card < rho E q m w := by
    choose! g hg using fun w hw => h w hw _ hd
    exact ⟨s.sup g, fun w hw => lt_of_lt_of_le (hg w hw) (rho_mono hE hq w (le_sup (f := g) hw))⟩
  obtain ⟨m, hm⟩ := this
  refine ⟨m, fun n hn => ?_⟩
  have hn' : ∀ w ∈ s, p w - ε / s.card < rho E q n w := fun w hw => lt_of_lt_of_le (hm w hw) (rho_mono hE hq w hn)
  simp only [returned_eq]
  have h1 := hn' v hv
  have hle : ε / s.card ≤ ε := by
    rw [div_le_iff₀ hc]
    have : (1 : ℚ) ≤ s.card := by exact_mod_cast Finset.card_pos.2 ⟨v, hv⟩
    nlinarith
  have h2 : rho E q n v - p v < ε := by
    have h3 := rho_sum_le hE q s n
    rw [← hs] at h3
    have h4 : ∑ w ∈ s, (rho E q n w - p w) ≤ 0 := by rw [sum_sub_distrib]; linarith
    rw [← add_sum_erase s _ hv] at h4
    have h5 : -((s.erase v).card : ℚ) * (ε / s.card) ≤ ∑ w ∈ s.erase v, (rho E q n w - p w) := by
      rw [neg_mul, ← mul_neg, ← nsmul_eq_mul]
      apply card_nsmul_le_sum
      intro w hw
      have := hn' w (mem_of_mem_erase hw)
      linarith
    rw [card_erase_of_mem hv, Nat.cast_sub (Finset.card_pos.2 ⟨v, hv⟩)] at h5
    push_cast at h5
    have h6 : (s.card : ℚ) * (ε / s.card) = ε := by field_simp
    nlinarith
  rw [abs_lt]
  constructor <;> linarith

/-- the results are in `s`, and nothing is undefined: the program ends -/
theorem ends_of_law (hE : E.min ≤ E.max) {q : List Int → Draw α} (hq : LocalOn E q) (s : Finset α) (p : α → ℚ)
    (hs : ∑ v ∈ s, p v = 1) (h : ∀ v ∈ s, AtLeast E q v (p v)) : Tends (stillRunning E q) 0 := by
  intro ε hε
  have hne : s.Nonempty := by
    rw [nonempty_iff_ne_empty]
    rintro rfl
    simp at hs
  have hc : (0 : ℚ) < s.card := by exact_mod_cast Finset.card_pos.2 hne
  have hd : 0 < ε / s.card := by positivity
  choose! g hg using fun w hw => h w hw _ hd
  refine ⟨s.sup g, fun n hn => ?_⟩
  rw [sub_zero, stillRunning_eq, abs_of_nonneg (sigma_nonneg E hE q n)]
  have h1 : ∑ v ∈ s, rho E q n v + sigma E q n ≤ 1 := by
    unfold rho sigma
    rw [← avg_sum, ← avg_add]
    refine le_trans ?_ (avg_const E 1 n).le
    apply avg_mono E hE
    intro xs _ _
    cases hq : q xs with
    | more => simp [returns]
    | ub => simp [returns]
    | done a rest =>
      simp only [returns, decide_eq_true_eq]
      rw [sum_ite_eq]
      split <;> simp
  have h2 : ∑ w ∈ s, (p w - ε / s.card) < ∑ w ∈ s, rho E q n w := by
    apply sum_lt_sum_of_nonempty hne
    intro w hw
    exact lt_of_lt_of_le (hg w hw) (rho_mono hE hq w (le_trans (le_sup (f := g) hw) hn))
  rw [sum_sub_distrib, hs, sum_const, nsmul_eq_mul] at h2
  have h6 : (s.card : ℚ) * (ε / s.card) = ε := by field_simp
  linarith

end

namespace Program
variable {α : Type} [DecidableEq α] {E : EngInfo}

theorem inTurn_local (qs : List (List Int → Draw α)) (h : ∀ q ∈ qs, LocalOn E q) : LocalOn E (inTurn qs) := by
  induction qs with
  | nil => exact LocalOn.done _
  | cons q qs ih =>
    exact LocalOn.bind (h q (by simp)) fun v => LocalOn.bind (ih fun q hq => h q (by simp [hq])) fun vs => LocalOn.done _

/-- The bounds of calls in turn multiply. -/
theorem inTurn_atLeast (hE : E.min ≤ E.max) (l : List ((List Int → Draw α) × α × ℚ))
    (h : ∀ x ∈ l, LocalOn E x.1 ∧ AtLeast E x.1 x.2.1 x.2.2 ∧ 0 ≤ x.2.2) :
    AtLeast E (inTurn (l.map fun x => x.1)) (l.map fun x => x.2.1) (l.map fun x => x.2.2).prod ∧ 0 ≤ (l.map fun x => x.2.2).prod := by
  induction l with
  | nil => exact ⟨AtLeast.done, by simp⟩
  | cons x l ih =>
    obtain ⟨a, b, c⟩ := h x (by simp)
    obtain ⟨i1, i2⟩ := ih fun y hy => h y (by simp [hy])
    have hl : LocalOn E (inTurn (l.map fun x => x.1)) := inTurn_local _ fun q hq => by
      obtain ⟨y, hy, rfl⟩ := List.mem_map.1 hq
      exact (h y (by simp [hy])).1
    refine ⟨?_, by simp only [List.map_cons, List.prod_cons]; exact mul_nonneg c i2⟩
    simp only [List.map_cons, List.prod_cons, inTurn]
    generalize inTurn (l.map fun x => x.1) = t at *
    generalize (l.map fun x => x.2.1) = us at *
    generalize (l.map fun x => x.2.2).prod = P at *
    have h2 : AtLeast E (fun xs => (t xs).bind fun vs rest => Draw.done (x.2.1 :: vs) rest) (x.2.1 :: us) (P * 1) :=
      AtLeast.bind (f := fun vs rest => Draw.done (x.2.1 :: vs) rest) (u := us) hE hl (LocalOn.done _) i1 AtLeast.done i2 zero_le_one
    rw [mul_one] at h2
    have h3 : LocalOn E (fun rest => (t rest).bind fun vs rest => Draw.done (x.2.1 :: vs) rest) :=
      LocalOn.bind hl fun vs => LocalOn.done _
    exact AtLeast.bind (f := fun v rest => (t rest).bind fun vs rest => Draw.done (v :: vs) rest)
      (u := x.2.1) hE a h3 b h2 c i2

/-- All lists with elements from the given sets. -/
def lists : List (Finset α) → Finset (List α)
  | [] => {[]}
  | s :: ss => (s ×ˢ lists ss).image fun x => x.1 :: x.2

theorem mem_lists (ss : List (Finset α)) (vs : List α) : vs ∈ lists ss ↔ List.Forall₂ (fun v s => v ∈ s) vs ss := by
  induction ss generalizing vs with
  | nil => cases vs <;> simp [lists]
  | cons s ss ih =>
    simp only [lists, mem_image, mem_product, Prod.exists]
    constructor
    · rintro ⟨a, b, ⟨h1, h2⟩, rfl⟩
      exact List.Forall₂.cons h1 ((ih b).1 h2)
    · intro h
      cases h with
      | cons h1 h2 => exact ⟨_, _, ⟨h1, (ih _).2 h2⟩, rfl⟩

theorem sum_lists (l : List (Finset α × (α → ℚ))) (h : ∀ x ∈ l, ∑ v ∈ x.1, x.2 v = 1) :
    ∑ vs ∈ lists (l.map fun x => x.1), (List.zipWith (fun (p : α → ℚ) v => p v) (l.map fun x => x.2) vs).prod = 1 := by
  induction l with
  | nil => simp [lists]
  | cons x l ih =>
    simp only [List.map_cons, lists]
    rw [sum_image (by rintro ⟨a, b⟩ _ ⟨c, d⟩ _ h; simp only [List.cons.injEq] at h; exact Prod.ext h.1 h.2), sum_product]
    simp only [List.zipWith_cons_cons, List.prod_cons]
    have := ih fun y hy => h y (by simp [hy])
    simp only [← mul_sum, this, mul_one]
    exact h x (by simp)

/-- The law of calls in turn. -/
theorem inTurn_law (hE : E.min ≤ E.max) (l : List ((List Int → Draw α) × Finset α × (α → ℚ)))
    (h : ∀ x ∈ l, LocalOn E x.1 ∧ (∀ v ∈ x.2.1, AtLeast E x.1 v (x.2.2 v) ∧ 0 ≤ x.2.2 v) ∧ ∑ v ∈ x.2.1, x.2.2 v = 1) :
    (∀ vs, List.Forall₂ (fun v s => v ∈ s) vs (l.map fun x => x.2.1) →
      Tends (fun n => returned E (inTurn (l.map fun x => x.1)) n vs) (List.zipWith (fun (p : α → ℚ) v => p v) (l.map fun x => x.2.2) vs).prod) ∧
    Tends (stillRunning E (inTurn (l.map fun x => x.1))) 0 := by
  have hl : LocalOn E (inTurn (l.map fun x => x.1)) := inTurn_local _ fun q hq => by
    obtain ⟨y, hy, rfl⟩ := List.mem_map.1 hq
    exact (h y hy).1
  have h1 := sum_lists (l.map fun x => x.2) (fun y hy => by
    obtain ⟨x, hx, rfl⟩ := List.mem_map.1 hy
    exact (h x hx).2.2)
  simp only [List.map_map, Function.comp_def] at h1
  have h2 : ∀ vs ∈ lists (l.map fun x => x.2.1), AtLeast E (inTurn (l.map fun x => x.1)) vs
      (List.zipWith (fun (p : α → ℚ) v => p v) (l.map fun x => x.2.2) vs).prod := by
    intro vs hvs
    rw [mem_lists] at hvs
    have key : ∀ (l : List ((List Int → Draw α) × Finset α × (α → ℚ))) (vs : List α),
        List.Forall₂ (fun v s => v ∈ s) vs (l.map fun x => x.2.1) →
        (∀ x ∈ l, LocalOn E x.1 ∧ (∀ v ∈ x.2.1, AtLeast E x.1 v (x.2.2 v) ∧ 0 ≤ x.2.2 v) ∧ ∑ v ∈ x.2.1, x.2.2 v = 1) →
        ∃ l' : List ((List Int → Draw α) × α × ℚ), (l'.map fun x => x.1) = (l.map fun x => x.1) ∧ (l'.map fun x => x.2.1) = vs ∧
          (l'.map fun x => x.2.2) = List.zipWith (fun (p : α → ℚ) v => p v) (l.map fun x => x.2.2) vs ∧
          ∀ x ∈ l', LocalOn E x.1 ∧ AtLeast E x.1 x.2.1 x.2.2 ∧ 0 ≤ x.2.2 := by
      intro l
      induction l with
      | nil => intro vs hvs _; cases hvs; exact ⟨[], rfl, rfl, rfl, by simp⟩
      | cons x l ih =>
        intro vs hvs hh
        cases hvs with
        | @cons v _ vs _ g1 g2 =>
          obtain ⟨l', a, b, c, d⟩ := ih vs g2 fun y hy => hh y (by simp [hy])
          obtain ⟨k1, k2, _⟩ := hh x (by simp)
          refine ⟨(x.1, v, x.2.2 v) :: l', by simp [a], by simp [b], by simp [c], ?_⟩
          intro y hy
          rcases List.mem_cons.1 hy with rfl | hy
          · exact ⟨k1, (k2 v g1).1, (k2 v g1).2⟩
          · exact d y hy
    obtain ⟨l', a, b, c, d⟩ := key l vs hvs h
    have := (inTurn_atLeast hE l' d).1
    rwa [a, b, c] at this
  exact ⟨fun vs hvs => AtLeast.tends hE hl _ _ h1 h2 vs ((mem_lists _ _).2 hvs), ends_of_law hE hl _ _ h1 h2⟩

end Program
end Boost.Random
