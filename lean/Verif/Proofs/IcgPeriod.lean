import Verif.Spec.IcgPeriod
import Mathlib.Algebra.Field.ZMod
import Mathlib.Data.Fintype.Card
import Mathlib.Data.Fintype.EquivFin
import Mathlib.Dynamics.PeriodicPts.Defs
import Mathlib.Tactic.Ring
import Mathlib.Tactic.FieldSimp
import Mathlib.Tactic.LinearCombination

/-!
# Lucas sequences and inversive congruential sequences
-/

namespace Boost.Random.Icg
open Spec

variable {F : Type} [Field F] (a b : F)

theorem docagne (k i : Nat) : lucas a b (i + k + 1) * lucas a b i - lucas a b (i + k) * lucas a b (i + 1) = -(-a) ^ i * lucas a b k := by
  induction i with
  | zero => simp [lucas]
  | succ i ih =>
    rw [show i + 1 + k + 1 = (i + k) + 2 by ring, show i + 1 + k = i + k + 1 by ring, show i + 1 + 1 = i + 2 from rfl]
    simp only [lucas]
    linear_combination (-a) * ih

variable {a b}

theorem lucas_succ_ne (ha : a ≠ 0) {n : Nat} (h : lucas a b n = 0) : lucas a b (n + 1) ≠ 0 := by
  have := docagne a b 1 n
  rw [h] at this
  intro h1
  rw [h1] at this
  simp only [lucas, mul_zero, sub_zero, mul_one] at this
  exact pow_ne_zero n (neg_ne_zero.2 ha) (neg_eq_zero.1 this.symm)

/-- The zeros are the multiples of the first one. -/
theorem lucas_add_iff (ha : a ≠ 0) {n : Nat} (h : lucas a b n = 0) (k : Nat) : lucas a b (n + k) = 0 ↔ lucas a b k = 0 := by
  have e := docagne a b k n
  have h1 := lucas_succ_ne ha h
  have h2 := pow_ne_zero n (neg_ne_zero.2 ha)
  rw [h, mul_zero, zero_sub] at e
  constructor
  · intro hk
    rw [hk, zero_mul, neg_zero] at e
    exact (mul_eq_zero.1 e.symm).resolve_left (neg_ne_zero.2 h2)
  · intro hk
    rw [hk, mul_zero] at e
    exact (mul_eq_zero.1 (neg_eq_zero.1 e)).resolve_right h1

theorem lucas_mul (ha : a ≠ 0) {n : Nat} (h : lucas a b n = 0) (k : Nat) : lucas a b (n * k) = 0 := by
  induction k with
  | zero => simp [lucas]
  | succ k ih => rw [Nat.mul_succ, Nat.add_comm]; exact (lucas_add_iff ha h _).2 ih

theorem lucas_mod (ha : a ≠ 0) {n m : Nat} (h : lucas a b n = 0) (hm : lucas a b m = 0) : lucas a b (m % n) = 0 := by
  have e := Nat.div_add_mod m n
  rw [← e] at hm
  exact (lucas_add_iff ha (lucas_mul ha h _) _).1 hm

theorem lucas_gcd (ha : a ≠ 0) {n m : Nat} (h : lucas a b n = 0) (hm : lucas a b m = 0) : lucas a b (Nat.gcd n m) = 0 := by
  induction n, m using Nat.gcd.induction with
  | H0 n => rw [Nat.gcd_zero_left]; exact hm
  | H1 n m hn ih =>
    rw [Nat.gcd_rec]
    exact ih (lucas_mod ha h hm) h

theorem lucas_two_mul (n : Nat) : lucas a b (2 * n) = lucas a b n * (2 * lucas a b (n + 1) - b * lucas a b n) ∧
    lucas a b (2 * n + 1) = lucas a b (n + 1) ^ 2 + a * lucas a b n ^ 2 := by
  induction n with
  | zero => simp [lucas]
  | succ n ih =>
    have e : lucas a b (2 * (n + 1)) = lucas a b (n + 1) * (2 * lucas a b (n + 1 + 1) - b * lucas a b (n + 1)) := by
      rw [show 2 * (n + 1) = 2 * n + 2 by ring]
      simp only [lucas]
      rw [ih.1, ih.2]
      ring
    refine ⟨e, ?_⟩
    rw [show 2 * (n + 1) + 1 = (2 * n + 1) + 2 by ring]
    simp only [lucas]
    rw [ih.1, ih.2]
    ring

/-- One step of the recurrence. -/
def inv (a b x : F) : F := a * x⁻¹ + b

theorem inv_quot {n : Nat} (h : lucas a b n ≠ 0) (h1 : lucas a b (n + 1) ≠ 0) :
    inv a b (lucas a b (n + 1) / lucas a b n) = lucas a b (n + 2) / lucas a b (n + 1) := by
  unfold inv
  simp only [lucas]
  field_simp
  ring

theorem inv_zero_eq : inv a b 0 = b := by simp [inv]

/-- The orbit of `b` up to the first zero. -/
theorem orbit {N : Nat} (h : ∀ n, 0 < n → n ≤ N → lucas a b n ≠ 0) (k : Nat) (hk : k < N) :
    (inv a b)^[k] b = lucas a b (k + 2) / lucas a b (k + 1) := by
  induction k with
  | zero => simp [lucas]
  | succ k ih =>
    rw [Function.iterate_succ_apply', ih (by omega)]
    exact inv_quot (h _ (by omega) (by omega)) (h _ (by omega) (by omega))

theorem quot_inj (ha : a ≠ 0) {N : Nat} (h : ∀ n, 0 < n → n ≤ N → lucas a b n ≠ 0) {i j : Nat} (hij : i < j) (hj : j < N) :
    (inv a b)^[i] b ≠ (inv a b)^[j] b := by
  rw [orbit h i (by omega), orbit h j hj]
  intro e
  rw [div_eq_div_iff (h _ (by omega) (by omega)) (h _ (by omega) (by omega))] at e
  have := docagne a b (j - i) (i + 1)
  rw [show i + 1 + (j - i) + 1 = j + 2 by omega, show i + 1 + (j - i) = j + 1 by omega, show i + 1 + 1 = i + 2 from rfl,
    ← e, mul_comm, sub_self] at this
  exact mul_ne_zero (neg_ne_zero.2 (pow_ne_zero _ (neg_ne_zero.2 ha))) (h _ (by omega) (by omega)) this.symm

variable [Fintype F]

theorem orbit_bij (ha : a ≠ 0) (h : ∀ n, 0 < n → n ≤ Fintype.card F → lucas a b n ≠ 0) :
    Function.Bijective fun k : Fin (Fintype.card F) => (inv a b)^[k] b := by
  refine (Fintype.bijective_iff_injective_and_card _).2 ⟨fun i j e => ?_, by simp⟩
  by_contra hne
  rcases lt_or_gt_of_ne hne with hl | hl
  · exact quot_inj ha h hl j.2 e
  · exact quot_inj ha h hl i.2 e.symm

theorem orbit_last (ha : a ≠ 0) (h : ∀ n, 0 < n → n ≤ Fintype.card F → lucas a b n ≠ 0) : (inv a b)^[Fintype.card F] b = b := by
  obtain ⟨k, hk⟩ := (orbit_bij ha h).2 0
  have hk' : (inv a b)^[k.1] b = 0 := hk
  have e := hk'
  rw [orbit h k k.2, div_eq_zero_iff] at e
  have hlt := k.2
  rcases e with e | e
  · have : k.1 + 1 = Fintype.card F := by
      by_contra hne
      exact h (k + 2) (by omega) (by omega) e
    rw [← this, Function.iterate_succ_apply', hk', inv_zero_eq]
  · exact absurd e (h _ (by omega) (by omega))

theorem orbit_iff (ha : a ≠ 0) (h : ∀ n, 0 < n → n ≤ Fintype.card F → lucas a b n ≠ 0) (i j : Nat) :
    (inv a b)^[i] b = (inv a b)^[j] b ↔ i ≡ j [MOD Fintype.card F] := by
  have hpos : 0 < Fintype.card F := Fintype.card_pos
  have red : ∀ i, (inv a b)^[i] b = (inv a b)^[i % Fintype.card F] b := fun i => by
    have hp : Function.IsPeriodicPt (inv a b) (Fintype.card F) b := orbit_last ha h
    exact (hp.iterate_mod_apply i).symm
  rw [red i, red j]
  constructor
  · intro e
    have := (orbit_bij ha h).1 (a₁ := ⟨i % Fintype.card F, Nat.mod_lt _ hpos⟩) (a₂ := ⟨j % Fintype.card F, Nat.mod_lt _ hpos⟩) e
    exact congrArg Fin.val this
  · intro e
    rw [show i % Fintype.card F = j % Fintype.card F from e]

/-- Every element reaches every element by exactly one number of steps below the number of elements. -/
theorem reach (ha : a ≠ 0) (h : ∀ n, 0 < n → n ≤ Fintype.card F → lucas a b n ≠ 0) (x y : F) :
    ∃! n, n < Fintype.card F ∧ (inv a b)^[n] x = y := by
  obtain ⟨i, hi⟩ := (orbit_bij ha h).2 x
  obtain ⟨j, hj⟩ := (orbit_bij ha h).2 y
  have hi' : (inv a b)^[i.1] b = x := hi
  have hj' : (inv a b)^[j.1] b = y := hj
  have hlt := i.2
  have hlt' := j.2
  have key : ∀ n, (inv a b)^[n] x = y ↔ n + i.1 ≡ j.1 [MOD Fintype.card F] := fun n => by
    rw [← hi', ← hj', ← Function.iterate_add_apply, orbit_iff ha h]
  have ex : ∃ n, n < Fintype.card F ∧ n + i.1 ≡ j.1 [MOD Fintype.card F] := by
    by_cases hc : i.1 ≤ j.1
    · exact ⟨j.1 - i.1, by omega, by rw [Nat.sub_add_cancel hc]⟩
    · refine ⟨Fintype.card F + j.1 - i.1, by omega, ?_⟩
      rw [Nat.sub_add_cancel (by omega)]
      exact Nat.add_modEq_left
  obtain ⟨n, hn, hm⟩ := ex
  refine ⟨n, ⟨hn, (key n).2 hm⟩, fun m ⟨hm1, hm2⟩ => ?_⟩
  have := Nat.ModEq.add_right_cancel' _ (((key m).1 hm2).trans hm.symm)
  rwa [Nat.ModEq, Nat.mod_eq_of_lt hm1, Nat.mod_eq_of_lt hn] at this

/-- The converse. -/
theorem lucas_ne_of_reach (h : ∀ y : F, ∃ n, n < Fintype.card F ∧ (inv a b)^[n] b = y) : ∀ n, 0 < n → n ≤ Fintype.card F → lucas a b n ≠ 0 := by
  classical
  intro n
  induction n using Nat.strong_induction_on with
  | _ n ih =>
    intro hn hle hz
    have h2 : 2 ≤ n := by
      rcases Nat.lt_or_ge n 2 with h1 | h1
      · have : n = 1 := by omega
        subst this
        simp [lucas] at hz
      · exact h1
    have ho := orbit (a := a) (b := b) (N := n - 1) (fun m h1 h3 => ih m (by omega) h1 (by omega)) (n - 2) (by omega)
    rw [show n - 2 + 2 = n by omega, hz, zero_div] at ho
    have hper : Function.IsPeriodicPt (inv a b) (n - 1) b := by
      show (inv a b)^[n - 1] b = b
      rw [show n - 1 = (n - 2) + 1 by omega, Function.iterate_succ_apply', ho, inv_zero_eq]
    have hsurj : Function.Surjective fun k : Fin (n - 1) => (inv a b)^[k] b := fun y => by
      obtain ⟨m, -, hm⟩ := h y
      exact ⟨⟨m % (n - 1), Nat.mod_lt _ (by omega)⟩, by
        show (inv a b)^[m % (n - 1)] b = y
        rw [hper.iterate_mod_apply]; exact hm⟩
    have := Fintype.card_le_of_surjective _ hsurj
    rw [Fintype.card_fin] at this
    omega

end Boost.Random.Icg
