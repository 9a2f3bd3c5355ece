import Verif.Model.Faure
import Mathlib.Data.Nat.Log
import Mathlib.Data.Nat.Choose.Basic
import Mathlib.Data.Nat.ModEq
import Mathlib.Tactic.Ring
import Mathlib.Tactic.Linarith

/-!
# Faure engine: logarithm, power, table of binomial coefficients
-/

namespace Boost.Random
namespace Faure
open Qrng

theorem integerLog_eq {base : Nat} (hb : 2 ≤ base) : ∀ (fuel arg ilog : Nat), arg < 2 ^ fuel → integerLog base fuel arg ilog = ilog + Nat.log base arg := by
  intro fuel
  induction fuel with
  | zero =>
    intro arg ilog h
    have : arg = 0 := by omega
    subst this
    simp [integerLog]
  | succ f ih =>
    intro arg ilog h
    rw [integerLog]
    by_cases hle : base ≤ arg
    · rw [if_pos hle, ih]
      · rw [Nat.log_of_one_lt_of_le (by omega) hle]; omega
      · rw [Nat.div_lt_iff_lt_mul (by omega)]
        calc arg < 2 ^ f * 2 := by rw [← Nat.pow_succ]; exact h
          _ ≤ 2 ^ f * base := Nat.mul_le_mul_left _ hb
    · rw [if_neg hle, Nat.log_of_lt (by omega), Nat.add_zero]

theorem integerPowLoop_spec (digits : Nat) : ∀ (fuel base e result : Nat), e < 2 ^ fuel → result < 2 ^ digits →
    ∃ r, integerPowLoop (mulUnsigned digits) fuel base e result = some r ∧ r < 2 ^ digits ∧ r ≡ result * base ^ e [MOD 2 ^ digits] := by
  intro fuel
  induction fuel with
  | zero =>
    intro base e result he hr
    have : e = 0 := by omega
    subst this
    exact ⟨result, rfl, hr, by simp [Nat.ModEq]⟩
  | succ f ih =>
    intro base e result he hr
    rw [integerPowLoop]
    by_cases h0 : e = 0
    · rw [if_pos h0, h0]
      exact ⟨result, rfl, hr, by simp [Nat.ModEq]⟩
    · rw [if_neg h0]
      have hp := Nat.two_pow_pos digits
      have hdm := Nat.div_add_mod e 2
      have hsq : base ^ e = (base * base) ^ (e / 2) * base ^ (e % 2) := by
        conv_lhs => rw [← hdm]
        rw [Nat.pow_add, Nat.pow_mul, Nat.pow_two]
      by_cases hodd : e % 2 = 1
      · rw [if_pos hodd]
        obtain ⟨r, h1, h2, h3⟩ := ih (base * base % 2 ^ digits) (e / 2) (result * base % 2 ^ digits) (by omega) (Nat.mod_lt _ hp)
        refine ⟨r, h1, h2, h3.trans ?_⟩
        rw [hsq, hodd, Nat.pow_one, ← Nat.mul_assoc, Nat.mul_right_comm]
        exact Nat.ModEq.mul (Nat.mod_modEq _ _) ((Nat.mod_modEq _ _).pow _)
      · rw [if_neg hodd]
        obtain ⟨r, h1, h2, h3⟩ := ih (base * base % 2 ^ digits) (e / 2) result (by omega) hr
        refine ⟨r, h1, h2, h3.trans ?_⟩
        rw [hsq, show e % 2 = 0 by omega, Nat.pow_zero, Nat.mul_one]
        exact Nat.ModEq.mul rfl ((Nat.mod_modEq _ _).pow _)

/-- The power is exact when it is a value of the type, whatever becomes of the squares. -/
theorem integerPow_eq {digits base e : Nat} (hd : 1 ≤ digits) (he : e < 2 ^ digits) (h : base ^ e < 2 ^ digits) :
    integerPow (mulUnsigned digits) digits base e = some (base ^ e) := by
  obtain ⟨r, h1, h2, h3⟩ := integerPowLoop_spec digits digits base e 1 he (Nat.one_lt_two_pow (by omega))
  rw [Nat.one_mul] at h3
  unfold Nat.ModEq at h3
  rw [Nat.mod_eq_of_lt h2, Nat.mod_eq_of_lt h] at h3
  rw [← h3]
  exact h1

/-! ## Loops -/

theorem foldlM_inv {α : Type} (f : α → Nat → Option α) (P : Nat → α → Prop) (len : Nat) : ∀ (start : Nat) (a : α), P start a →
    (∀ k b, start ≤ k → k < start + len → P k b → ∃ b', f b k = some b' ∧ P (k + 1) b') →
    ∃ a', (List.range' start len).foldlM f a = some a' ∧ P (start + len) a' := by
  induction len with
  | zero => intro start a h _; exact ⟨a, rfl, h⟩
  | succ n ih =>
    intro start a h hs
    obtain ⟨b, h1, h2⟩ := hs start a (le_refl _) (by omega) h
    obtain ⟨a', g1, g2⟩ := ih (start + 1) b h2 (fun k b' hk hk' hp => hs k b' (by omega) (by omega) hp)
    refine ⟨a', ?_, by rw [show start + (n + 1) = start + 1 + n by omega]; exact g2⟩
    rw [List.range'_succ, List.foldlM_cons, h1]
    exact g1

/-! ## The packed triangle -/

/-- Where row `i` begins. -/
def off (n i : Nat) : Nat := i * (2 * n - i + 1) / 2

theorem off_succ {n i : Nat} (h : i < n) : off n (i + 1) = off n i + (n - i) := by
  unfold off
  obtain ⟨k, rfl⟩ : ∃ k, n = i + 1 + k := ⟨n - i - 1, by omega⟩
  have e1 : 2 * (i + 1 + k) - (i + 1) + 1 = i + 2 * k + 2 := by omega
  have e2 : 2 * (i + 1 + k) - i + 1 = i + 2 * k + 3 := by omega
  have e3 : i + 1 + k - i = k + 1 := by omega
  rw [e1, e2, e3]
  have : (i + 1) * (i + 2 * k + 2) = i * (i + 2 * k + 3) + 2 * (k + 1) := by ring
  rw [this, Nat.add_mul_div_left _ _ (by decide)]

theorem off_mono {n i j : Nat} (h : i ≤ j) (hj : j ≤ n) : off n i ≤ off n j := by
  induction j with
  | zero => rw [show i = 0 by omega]
  | succ j ih =>
    by_cases hi : i = j + 1
    · rw [hi]
    · have := off_succ (n := n) (i := j) (by omega)
      have := ih (by omega) (by omega)
      omega

theorem off_last (n : Nat) : off n n = sizeHint n := by
  unfold off sizeHint
  rw [show 2 * n - n + 1 = n + 1 by omega]

theorem upperIndex_eq {i j n : Nat} (h : i ≤ j) : upperIndex i j n = off n i + (j - i) := by unfold upperIndex off; omega

theorem upperIndex_lt {i j n : Nat} (h : i ≤ j) (hj : j < n) : upperIndex i j n < sizeHint n := by
  rw [upperIndex_eq h, ← off_last]
  have h1 := off_succ (n := n) (i := i) (by omega)
  have h2 := off_mono (n := n) (i := i + 1) (j := n) (by omega) (le_refl _)
  omega

theorem upperIndex_lt_of_lt {i j i' j' n : Nat} (h : i ≤ j) (hj : j < n) (h' : i' ≤ j') (hj' : j' < n) (hi : i < i') : upperIndex i j n < upperIndex i' j' n := by
  rw [upperIndex_eq h, upperIndex_eq h']
  have h1 := off_succ (n := n) (i := i) (by omega)
  have h2 := off_mono (n := n) (i := i + 1) (j := i') (by omega) (by omega)
  omega

theorem upperIndex_inj {i j i' j' n : Nat} (h : i ≤ j) (hj : j < n) (h' : i' ≤ j') (hj' : j' < n) (he : upperIndex i j n = upperIndex i' j' n) : i = i' ∧ j = j' := by
  rcases Nat.lt_trichotomy i i' with hlt | rfl | hgt
  · exact absurd he (Nat.ne_of_lt (upperIndex_lt_of_lt h hj h' hj' hlt))
  · rw [upperIndex_eq h, upperIndex_eq h'] at he
    exact ⟨rfl, by omega⟩
  · exact absurd he (Nat.ne_of_gt (upperIndex_lt_of_lt h' hj' h hj hgt))

/-- The table holds the values `f i j`. -/
structure Tab (n : Nat) (c : List Nat) (f : Nat → Nat → Nat) : Prop where
  len : c.length = sizeHint n
  get : ∀ i j, i ≤ j → j < n → c[upperIndex i j n]? = some (f i j)

theorem Tab.getUpper {n : Nat} {c : List Nat} {f : Nat → Nat → Nat} (T : Tab n c f) {i j : Nat} (h : i ≤ j) (hj : j < n) : getUpper c i j n = some (f i j) := by
  unfold Qrng.getUpper
  rw [if_pos ⟨by omega, hj, h⟩, T.get i j h hj]

theorem Tab.setUpper {n : Nat} {c : List Nat} {f : Nat → Nat → Nat} (T : Tab n c f) {i j : Nat} (h : i ≤ j) (hj : j < n) (v : Nat) :
    ∃ c', setUpper c i j n v = some c' ∧ Tab n c' (fun a b => if a = i ∧ b = j then v else f a b) := by
  unfold Qrng.setUpper
  have hlt := upperIndex_lt h hj
  rw [if_pos ⟨by omega, hj, h, by rw [T.len]; exact hlt⟩]
  refine ⟨_, rfl, by rw [List.length_set, T.len], fun a b hab hb => ?_⟩
  by_cases he : a = i ∧ b = j
  · rw [if_pos he, he.1, he.2, List.getElem?_set_self (by rw [T.len]; exact hlt)]
  · rw [if_neg he, List.getElem?_set_ne, T.get a b hab hb]
    intro hc
    have := upperIndex_inj h hj hab hb hc
    exact he ⟨this.1.symm, this.2.symm⟩

/-- The table is that of the binomial coefficients modulo `base`. -/
theorem computeCoefficients_spec {base n : Nat} (hb : 2 ≤ base) (hn : 1 ≤ n) :
    ∃ c, computeCoefficients base n = some c ∧ Tab n c (fun i j => j.choose i % base) := by
  have h1b : 1 % base = 1 := Nat.mod_eq_of_lt (by omega)
  have T0 : Tab n (List.replicate (sizeHint n) 0) (fun _ _ => 0) :=
    ⟨by simp, fun i j h hj => by rw [List.getElem?_replicate, if_pos (upperIndex_lt h hj)]⟩
  obtain ⟨c0, e0, T1⟩ := T0.setUpper (le_refl 0) (by omega : 0 < n) 1
  unfold computeCoefficients
  rw [e0]
  simp only [Option.bind_some]
  -- the first row and the diagonal
  obtain ⟨c1, e1, f1, T2, P1⟩ := foldlM_inv (fun c i => (setUpper c 0 i n 1).bind fun c => setUpper c i i n 1)
    (fun k c => ∃ f, Tab n c f ∧ ∀ i < k, f 0 i = 1 ∧ f i i = 1) (n - 1) 1 c0
    ⟨_, T1, fun i hi => by rw [show i = 0 by omega]; simp⟩ (by
      rintro k b hk hkn ⟨f, T, hf⟩
      obtain ⟨c', g1, g2⟩ := T.setUpper (Nat.zero_le k) (by omega : k < n) 1
      obtain ⟨c'', g3, g4⟩ := g2.setUpper (le_refl k) (by omega : k < n) 1
      refine ⟨c'', by rw [g1]; exact g3, _, g4, fun i hi => ?_⟩
      by_cases hik : i = k
      · subst hik; simp
      · have := hf i (by omega)
        simp [hik, this.1, this.2])
  rw [e1]
  simp only [Option.bind_some]
  rw [show 1 + (n - 1) = n by omega] at P1
  -- the other elements
  obtain ⟨c2, e2, f2, T3, P2, P3⟩ := foldlM_inv (fun c i => (List.range' (i + 1) (n - (i + 1))).foldlM (fun c j =>
      (Qrng.getUpper c i (j - 1) n).bind fun x => (Qrng.getUpper c (i - 1) (j - 1) n).bind fun y => setUpper c i j n ((x + y) % base)) c)
    (fun k c => ∃ f, Tab n c f ∧ (∀ i < k, ∀ j, i ≤ j → j < n → f i j = j.choose i % base) ∧ ∀ i < n, f i i = 1) (n - 1) 1 c1
    ⟨f1, T2, fun i hi j _ hj => by rw [show i = 0 by omega, (P1 j hj).1, Nat.choose_zero_right, h1b], fun i hi => (P1 i hi).2⟩ (by
      rintro k b hk hkn ⟨f, T, hf, hd⟩
      obtain ⟨c', g1, f', T', hf', hd', hr⟩ := foldlM_inv (fun c j =>
          (Qrng.getUpper c k (j - 1) n).bind fun x => (Qrng.getUpper c (k - 1) (j - 1) n).bind fun y => setUpper c k j n ((x + y) % base))
        (fun m c => ∃ f, Tab n c f ∧ (∀ i < k, ∀ j, i ≤ j → j < n → f i j = j.choose i % base) ∧ (∀ i < n, f i i = 1) ∧
          ∀ j, k ≤ j → j < m → f k j = j.choose k % base) (n - (k + 1)) (k + 1) b
        ⟨f, T, hf, hd, fun j h1 h2 => by rw [show j = k by omega, hd k (by omega), Nat.choose_self, h1b]⟩ (by
          rintro m b' hm hmn ⟨f, T, hf, hd, hr⟩
          have hj : m < n := by omega
          rw [T.getUpper (by omega : k ≤ m - 1) (by omega), T.getUpper (by omega : k - 1 ≤ m - 1) (by omega)]
          simp only [Option.bind_some]
          obtain ⟨c', g1, g2⟩ := T.setUpper (by omega : k ≤ m) hj ((f k (m - 1) + f (k - 1) (m - 1)) % base)
          refine ⟨c', g1, _, g2, fun i hi j h1 h2 => ?_, fun i hi => ?_, fun j h1 h2 => ?_⟩
          · rw [if_neg (by omega)]; exact hf i hi j h1 h2
          · rw [if_neg (by omega)]; exact hd i hi
          · by_cases hjm : j = m
            · rw [if_pos ⟨rfl, hjm⟩, hr (m - 1) (by omega) (by omega), hf (k - 1) (by omega) (m - 1) (by omega) (by omega), hjm]
              obtain ⟨m', rfl⟩ : ∃ m', m = m' + 1 := ⟨m - 1, by omega⟩
              obtain ⟨k', rfl⟩ : ∃ k', k = k' + 1 := ⟨k - 1, by omega⟩
              rw [Nat.add_sub_cancel, Nat.add_sub_cancel, ← Nat.add_mod, Nat.choose_succ_succ, Nat.add_comm]
            · rw [if_neg (by omega)]; exact hr j h1 (by omega))
      refine ⟨c', g1, f', T', fun i hi j h1 h2 => ?_, hd'⟩
      by_cases hik : i = k
      · subst hik; exact hr j h1 (by omega)
      · exact hf' i (by omega) j h1 h2)
  refine ⟨c2, e2, T3.len, fun i j h hj => ?_⟩
  rw [T3.get i j h hj, P2 i (by omega) j h hj]

theorem sizeHint_inj {m n : Nat} (h : sizeHint m = sizeHint n) : m = n := by
  unfold sizeHint at h
  have hmono : ∀ a b : Nat, a < b → a * (a + 1) / 2 < b * (b + 1) / 2 := by
    intro a b hab
    have h1 : a * (a + 1) + 2 ≤ b * (b + 1) := by nlinarith
    omega
  rcases Nat.lt_trichotomy m n with hlt | he | hgt
  · exact absurd h (Nat.ne_of_lt (hmono m n hlt))
  · exact he
  · exact absurd h (Nat.ne_of_gt (hmono n m hgt))

end Faure
end Boost.Random
