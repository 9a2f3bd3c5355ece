import Verif.Proofs.Joint
import Mathlib.Data.List.Perm.Basic

/-! `std::random_shuffle` with a uniform source makes all orders equally likely. -/

namespace Boost.Random
namespace Program
open Spec Finset
variable {α : Type}

theorem swapAt_self (a : List α) (i : Nat) (h : i < a.length) : swapAt a i i = some a := by
  unfold swapAt
  rw [List.getElem?_eq_getElem h]
  simp

theorem swapAt_split (l1 l2 l3 : List α) (x y : α) :
    swapAt (l1 ++ x :: (l2 ++ y :: l3)) (l1.length + 1 + l2.length) l1.length = some (l1 ++ y :: (l2 ++ x :: l3)) := by
  unfold swapAt
  have h1 : (l1 ++ x :: (l2 ++ y :: l3))[l1.length + 1 + l2.length]? = some y := by
    rw [List.getElem?_append_right (by omega)]
    rw [show l1.length + 1 + l2.length - l1.length = l2.length + 1 by omega, List.getElem?_cons_succ]
    simp
  have h2 : (l1 ++ x :: (l2 ++ y :: l3))[l1.length]? = some x := by simp
  rw [h1, h2]
  simp only [Option.some.injEq]
  rw [List.set_append_right _ _ (by omega), show l1.length + 1 + l2.length - l1.length = l2.length + 1 by omega, List.set_cons_succ,
    List.set_append_right _ _ (by omega), List.set_append_right _ _ (by omega)]
  simp

/-- Every order of the first `i + 1` elements comes from one of the first `i` by one of the swaps. -/
theorem exists_swap (a b : List α) (i : Nat) (hi : i < a.length) (h1 : (b.take (i + 1)).Perm (a.take (i + 1)))
    (h2 : b.drop (i + 1) = a.drop (i + 1)) :
    ∃ c j, j ≤ i ∧ swapAt c i j = some b ∧ (c.take i).Perm (a.take i) ∧ c.drop i = a.drop i := by
  have hlen : b.length = a.length := by
    have e1 := h1.length_eq
    have e2 := congrArg List.length h2
    simp only [List.length_take, List.length_drop] at e1 e2
    omega
  obtain ⟨x, hx⟩ : ∃ x, a[i]? = some x := ⟨a[i], List.getElem?_eq_getElem hi⟩
  have ht : a.take (i + 1) = a.take i ++ [x] := by
    rw [List.take_add_one, hx]; rfl
  have hd : a.drop i = x :: a.drop (i + 1) := by
    rw [List.drop_eq_getElem_cons hi]
    rw [List.getElem?_eq_getElem hi, Option.some.injEq] at hx
    rw [hx]
  have hmem : x ∈ b.take (i + 1) := h1.mem_iff.2 (by rw [ht]; simp)
  obtain ⟨l1, r, hr⟩ := List.append_of_mem hmem
  have hrl : l1.length + 1 + r.length = i + 1 := by
    have := congrArg List.length hr
    simp only [List.length_take, List.length_append, List.length_cons] at this
    omega
  have hb : b = l1 ++ x :: (r ++ a.drop (i + 1)) := by
    rw [← h2]
    conv_lhs => rw [← List.take_append_drop (i + 1) b, hr]
    simp
  rcases List.eq_nil_or_concat r with rfl | ⟨l2, y, rfl⟩
  · -- the last one stays
    simp only [List.length_nil] at hrl
    refine ⟨b, i, le_rfl, swapAt_self b i (by omega), ?_, ?_⟩
    · have e : b.take i = l1 := by
        rw [hb, show i = l1.length by omega]; simp
      rw [e]
      rw [ht, hr] at h1
      exact (List.perm_append_right_iff [x]).1 h1
    · rw [hb, show i = l1.length by omega]
      simp
      rw [show l1.length = i by omega, hd]
  · simp only [List.length_append, List.length_singleton, List.concat_eq_append] at hrl hb hr
    have hi' : l1.length + 1 + l2.length = i := by omega
    refine ⟨l1 ++ y :: (l2 ++ x :: a.drop (i + 1)), l1.length, by omega, ?_, ?_, ?_⟩
    · rw [← hi', swapAt_split, hi', hb]
      simp
    · have e : (l1 ++ y :: (l2 ++ x :: a.drop (i + 1))).take i = l1 ++ y :: l2 := by
        rw [show l1 ++ y :: (l2 ++ x :: a.drop (i + 1)) = (l1 ++ y :: l2) ++ x :: a.drop (i + 1) by simp]
        apply List.take_left'
        simp; omega
      rw [e]
      rw [ht, hr] at h1
      refine (List.perm_append_right_iff [x]).1 (List.Perm.trans ?_ h1)
      rw [List.append_assoc]
      apply List.Perm.append_left
      have p1 : ((y :: l2) ++ [x]).Perm (x :: (y :: l2)) := List.perm_append_comm
      refine p1.trans ?_
      apply List.Perm.cons
      exact (List.perm_append_comm : ([y] ++ l2).Perm (l2 ++ [y]))
    · rw [show l1 ++ y :: (l2 ++ x :: a.drop (i + 1)) = (l1 ++ y :: l2) ++ x :: a.drop (i + 1) by simp, hd]
      apply List.drop_left'
      simp; omega

/-- What is after the draw of an index. -/
def step (b : List α) (k : Nat) (j : Int) (rest : List Int) : Draw (List α) :=
  if j < 0 then Draw.ub
  else
    match swapAt b (k + 1) j.toNat with
    | none => Draw.ub
    | some c => Draw.done c rest

theorem shuffleTo_succ (rand : Int → List Int → Draw Int) (a : List α) (k : Nat) :
    shuffleTo rand a (k + 1) = fun xs => (shuffleTo rand a k xs).bind fun b rest => (rand ((k : Int) + 2) rest).bind (step b k) := rfl

variable [DecidableEq α] {E : EngInfo}

theorem step_local (b : List α) (k : Nat) (j : Int) : LocalOn E (step b k j) := by
  unfold step
  by_cases h : j < 0
  · intro xs u rest _ h1
    simp only [if_pos h] at h1
    cases h1
  · simp only [if_neg h]
    cases swapAt b (k + 1) j.toNat with
    | none => intro xs u rest _ h1; cases h1
    | some c => exact LocalOn.done _

theorem shuffleTo_local (rand : Int → List Int → Draw Int) (a : List α) (k : Nat)
    (hr : ∀ i, i < k → LocalOn E (rand ((i : Int) + 2))) : LocalOn E (shuffleTo rand a k) := by
  induction k with
  | zero => exact LocalOn.done _
  | succ k ih =>
    exact LocalOn.bind (ih fun i hi => hr i (by omega)) fun b => LocalOn.bind (hr k (by omega)) fun j => step_local b k j

theorem shuffleTo_atLeast (hE : E.min ≤ E.max) (rand : Int → List Int → Draw Int) (a : List α) (k : Nat) (hk : k < a.length ∨ k = 0)
    (hr : ∀ i, i < k → LocalOn E (rand ((i : Int) + 2)) ∧
      ∀ j : Nat, j < i + 2 → AtLeast E (rand ((i : Int) + 2)) (j : Int) (1 / ((i + 2 : Nat) : ℚ)))
    (b : List α) (h1 : (b.take (k + 1)).Perm (a.take (k + 1))) (h2 : b.drop (k + 1) = a.drop (k + 1)) :
    AtLeast E (shuffleTo rand a k) b (1 / ((k + 1).factorial : ℚ)) := by
  induction k generalizing b with
  | zero =>
    have : b = a := by
      rw [← List.take_append_drop 1 b, ← List.take_append_drop 1 a]
      rw [h2]
      congr 1
      cases a with
      | nil => simpa using h1
      | cons x a =>
        simp only [Nat.zero_add, List.take_succ_cons, List.take_zero] at h1
        exact List.perm_singleton.1 h1
    subst this
    have e : (1 : ℚ) / ((0 + 1).factorial : ℚ) = 1 := by norm_num
    rw [e]
    exact AtLeast.done
  | succ k ih =>
    have hk' : k + 1 < a.length := by omega
    obtain ⟨c, j, hj, hs, c1, c2⟩ := exists_swap a b (k + 1) hk' h1 h2
    have hc := ih (by omega) (fun i hi => hr i (by omega)) c c1 c2
    obtain ⟨r1, r2⟩ := hr k (by omega)
    have hr2 := r2 j (by omega)
    have h2' : AtLeast E (step c k (j : Int)) b 1 := by
      rw [show step c k (j : Int) = fun rest => Draw.done b rest by
        funext rest
        unfold step
        rw [if_neg (by omega), Int.toNat_natCast, hs]]
      exact AtLeast.done
    have h0 : (0 : ℚ) ≤ 1 / ((k + 2 : Nat) : ℚ) := by positivity
    have h3 : AtLeast E (fun rest => (rand ((k : Int) + 2) rest).bind (step c k)) b (1 / ((k + 2 : Nat) : ℚ) * 1) :=
      AtLeast.bind (f := step c k) (u := (j : Int)) hE r1 (step_local c k j) hr2 h2' h0 zero_le_one
    have h4 := AtLeast.bind (q := shuffleTo rand a k) (f := fun b rest => (rand ((k : Int) + 2) rest).bind (step b k)) (u := c) hE
      (shuffleTo_local rand a k fun i hi => (hr i (by omega)).1) (LocalOn.bind r1 fun j => step_local c k j) hc h3
      (by positivity) (mul_nonneg h0 zero_le_one)
    have e : 1 / ((k + 1 + 1).factorial : ℚ) = 1 / ((k + 1).factorial : ℚ) * (1 / ((k + 2 : Nat) : ℚ) * 1) := by
      rw [Nat.factorial_succ (k + 1), mul_one, div_mul_div_comm, one_mul]
      push_cast
      ring
    rw [e, shuffleTo_succ]
    exact h4

/-- The law of the shuffle. -/
theorem shuffle_law (hE : E.min ≤ E.max) (rand : Int → List Int → Draw Int) (a : List α) (ha : a.Nodup)
    (hr : ∀ i, i + 1 < a.length → LocalOn E (rand ((i : Int) + 2)) ∧
      ∀ j : Nat, j < i + 2 → AtLeast E (rand ((i : Int) + 2)) (j : Int) (1 / ((i + 2 : Nat) : ℚ))) :
    (∀ b : List α, b.Perm a → Tends (fun n => returned E (shuffle rand a) n b) (1 / (a.length.factorial : ℚ))) ∧
    Tends (stillRunning E (shuffle rand a)) 0 := by
  have hl : LocalOn E (shuffle rand a) := shuffleTo_local rand a _ fun i hi => (hr i (by omega)).1
  have hf : (0 : ℚ) < a.length.factorial := by exact_mod_cast Nat.factorial_pos _
  have hs : ∑ _b ∈ a.permutations.toFinset, 1 / (a.length.factorial : ℚ) = 1 := by
    rw [sum_const, List.toFinset_card_of_nodup (List.nodup_permutations a ha), List.length_permutations, nsmul_eq_mul]
    field_simp
  have h : ∀ b ∈ a.permutations.toFinset, AtLeast E (shuffle rand a) b (1 / (a.length.factorial : ℚ)) := by
    intro b hb
    rw [List.mem_toFinset, List.mem_permutations] at hb
    cases a with
    | nil =>
      have : b = [] := List.perm_nil.1 hb
      subst this
      simpa [shuffle, shuffleTo] using (AtLeast.done : AtLeast E (fun xs => Draw.done ([] : List α) xs) [] 1)
    | cons x a =>
      have hbl := hb.length_eq
      have := shuffleTo_atLeast hE rand (x :: a) a.length (by simp) (fun i hi => hr i (by simp; omega)) b
        (by rw [List.take_of_length_le (by rw [hbl]; simp), List.take_of_length_le (by simp)]; exact hb)
        (by rw [List.drop_of_length_le (by rw [hbl]; simp), List.drop_of_length_le (by simp)])
      exact this
  exact ⟨fun b hb => AtLeast.tends hE hl _ _ hs h b (by rw [List.mem_toFinset, List.mem_permutations]; exact hb),
    ends_of_law hE hl _ _ hs h⟩

end Program
end Boost.Random
