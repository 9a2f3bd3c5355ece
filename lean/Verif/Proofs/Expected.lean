import Verif.Proofs.DrawBind
import Verif.Proofs.IndependentBits
import Verif.Spec.Expected
import Mathlib.Algebra.BigOperators.Field
import Mathlib.Algebra.Order.BigOperators.Ring.Finset
import Mathlib.Data.Nat.Log
import Mathlib.Tactic.FieldSimp
import Mathlib.Tactic.Positivity

/-! Mean running time of the rejection loops, and the law of their results. -/

namespace Boost.Random
open Spec Finset

section avg
variable {α : Type} (E : EngInfo)

/-- mean over all lists of `n` engine values -/
def avg (f : List Int → ℚ) : Nat → ℚ
  | 0 => f []
  | n + 1 => (∑ d ∈ range E.b, avg (fun xs => f ((E.min + (d : Int)) :: xs)) n) / E.b

theorem b_pos : (0 : ℚ) < E.b := by
  have : 0 < E.b := Nat.succ_pos _
  exact_mod_cast this

theorem list_sum_rangeQ (f : Nat → ℚ) (b : Nat) : ((List.range b).map f).sum = ∑ d ∈ range b, f d := by
  induction b with
  | zero => rfl
  | succ b ih => rw [List.range_succ, List.map_append, List.sum_append, ih, sum_range_succ]; simp

theorem sum_flatMap {β γ : Type} (l : List β) (g : β → List γ) (f : γ → ℚ) :
    ((l.flatMap g).map f).sum = (l.map fun x => ((g x).map f).sum).sum := by
  induction l with
  | nil => rfl
  | cons x l ih => simp [List.flatMap_cons, ih]

theorem avg_eq (f : List Int → ℚ) (n : Nat) : ((tuples E n).map f).sum / (E.b : ℚ) ^ n = avg E f n := by
  induction n generalizing f with
  | zero => simp [tuples, avg]
  | succ n ih =>
    have hb := (b_pos E).ne'
    unfold tuples avg
    rw [sum_flatMap, list_sum_rangeQ, pow_succ, ← div_div, sum_div]
    congr 1
    apply sum_congr rfl
    intro d _
    rw [← ih, List.map_map]
    rfl

theorem avg_mono {f g : List Int → ℚ} (hE : E.min ≤ E.max) (n : Nat) (h : ∀ xs, Outputs E xs → xs.length = n → f xs ≤ g xs) :
    avg E f n ≤ avg E g n := by
  induction n generalizing f g with
  | zero => exact h [] (by intro x hx; simp at hx) rfl
  | succ n ih =>
    unfold avg
    apply div_le_div_of_nonneg_right _ (b_pos E).le
    apply sum_le_sum
    intro d hd
    apply ih
    intro xs hxs hl
    apply h _ _ (by simp [hl])
    intro x hx
    rcases List.mem_cons.1 hx with rfl | hx
    · have := mem_range.1 hd
      unfold EngInfo.b at this
      omega
    · exact hxs x hx

theorem avg_congr {f g : List Int → ℚ} (hE : E.min ≤ E.max) (n : Nat) (h : ∀ xs, Outputs E xs → xs.length = n → f xs = g xs) :
    avg E f n = avg E g n :=
  le_antisymm (avg_mono E hE n fun xs a b => (h xs a b).le) (avg_mono E hE n fun xs a b => (h xs a b).ge)

theorem avg_const (c : ℚ) (n : Nat) : avg E (fun _ => c) n = c := by
  induction n with
  | zero => rfl
  | succ n ih => simp only [avg, ih, sum_const, card_range, nsmul_eq_mul]; field_simp [(b_pos E).ne']

theorem avg_add (f g : List Int → ℚ) (n : Nat) : avg E (fun xs => f xs + g xs) n = avg E f n + avg E g n := by
  induction n generalizing f g with
  | zero => rfl
  | succ n ih => simp only [avg, ih, sum_add_distrib, add_div]

theorem avg_mul (c : ℚ) (f : List Int → ℚ) (n : Nat) : avg E (fun xs => c * f xs) n = c * avg E f n := by
  induction n generalizing f with
  | zero => rfl
  | succ n ih => simp only [avg, ih, ← mul_sum, mul_div_assoc]

/-- mean number of values used -/
def mu (q : List Int → Draw α) (n : Nat) : ℚ := avg E (fun xs => (usedOf q xs : ℚ)) n

theorem meanUsed_eq (q : List Int → Draw α) (n : Nat) : meanUsed E q n = mu E q n := by
  unfold mu
  rw [← avg_eq]
  unfold meanUsed
  rw [Nat.cast_list_sum, List.map_map]
  rfl

theorem mu_nonneg (q : List Int → Draw α) (hE : E.min ≤ E.max) (n : Nat) : 0 ≤ mu E q n := by
  have := avg_mono E (f := fun _ => 0) (g := fun xs => (usedOf q xs : ℚ)) hE n (fun xs _ _ => Nat.cast_nonneg _)
  rw [avg_const] at this
  exact this

theorem mu_zero (q : List Int → Draw α) : mu E q 0 = 0 := by
  simp only [mu, avg, usedOf]
  split <;> simp

theorem mu_done (a : α) (n : Nat) : mu E (fun xs => Draw.done a xs) n = 0 := by
  have : (fun xs => (usedOf (fun xs => Draw.done a xs) xs : ℚ)) = fun _ => 0 := by
    funext xs; simp [usedOf]
  rw [mu, this, avg_const]

theorem mu_congr {q q' : List Int → Draw α} (hE : E.min ≤ E.max) (h : ∀ xs, Outputs E xs → q xs = q' xs) (n : Nat) :
    mu E q n = mu E q' n := avg_congr E hE n fun xs hxs _ => by simp only [usedOf, h xs hxs]

theorem mu_map {β : Type} (f : α → β) (q : List Int → Draw α) (n : Nat) : mu E (fun xs => (q xs).map f) n = mu E q n := by
  have : (fun xs => (usedOf (fun xs => (q xs).map f) xs : ℚ)) = fun xs => (usedOf q xs : ℚ) := by
    funext xs
    simp only [usedOf]
    cases q xs <;> rfl
  unfold mu
  rw [this]

/-- one engine value is used by the first step -/
theorem mu_succ (q : List Int → Draw α) (g : Nat → List Int → Draw α) (hE : E.min ≤ E.max) (n : Nat)
    (h : ∀ d < E.b, ∀ xs, Outputs E xs → q ((E.min + (d : Int)) :: xs) = g d xs) :
    mu E q (n + 1) ≤ 1 + (∑ d ∈ range E.b, mu E (g d) n) / E.b := by
  have hb := b_pos E
  unfold mu
  conv => lhs; unfold avg
  have h1 : ∀ d ∈ range E.b, avg E (fun xs => (usedOf q ((E.min + (d : Int)) :: xs) : ℚ)) n ≤
      1 + avg E (fun xs => (usedOf (g d) xs : ℚ)) n := by
    intro d hd
    calc _ ≤ avg E (fun xs => 1 + (usedOf (g d) xs : ℚ)) n := by
          apply avg_mono E hE
          intro xs hxs _
          have : usedOf q ((E.min + (d : Int)) :: xs) ≤ 1 + usedOf (g d) xs := by
            unfold usedOf
            rw [h d (mem_range.1 hd) xs hxs]
            cases g d xs <;> (simp; try omega)
          exact_mod_cast this
      _ = _ := by rw [avg_add, avg_const]
  calc _ ≤ (∑ d ∈ range E.b, (1 + avg E (fun xs => (usedOf (g d) xs : ℚ)) n)) / (E.b : ℚ) :=
        div_le_div_of_nonneg_right (sum_le_sum h1) hb.le
    _ = _ := by
        rw [sum_add_distrib, sum_const, card_range, nsmul_eq_mul, mul_one, add_div, div_self hb.ne']

theorem sum_digitsQ (f : Nat → ℚ) (m b : Nat) :
    ∑ r ∈ range m, ∑ d ∈ range b, f (r + d * m) = ∑ t ∈ range (m * b), f t := by
  rw [sum_comm]
  induction b with
  | zero => simp
  | succ b ih =>
    rw [sum_range_succ, ih, Nat.mul_add, Nat.mul_one, sum_range_add]
    congr 1
    apply sum_congr rfl
    intro r _
    rw [Nat.add_comm, Nat.mul_comm b m]

theorem sum_bucketsQ (f : Nat → ℚ) (c : ℚ) (k N b : Nat) (hk : 0 < k) (hN : k * N ≤ b) :
    ∑ d ∈ range b, (if d / k < N then f (d / k) else c) = k * (∑ i ∈ range N, f i) + ((b : ℚ) - k * N) * c := by
  obtain ⟨t, rfl⟩ := Nat.exists_eq_add_of_le hN
  rw [sum_range_add]
  congr 1
  · rw [← sum_digitsQ]
    rw [mul_sum, sum_comm]
    apply sum_congr rfl
    intro i hi
    have : ∀ r ∈ range k, (if (r + i * k) / k < N then f ((r + i * k) / k) else c) = f i := by
      intro r hr
      have h1 : (r + i * k) / k = i := by
        rw [Nat.add_mul_div_right _ _ hk, Nat.div_eq_of_lt (mem_range.1 hr), Nat.zero_add]
      rw [h1, if_pos (mem_range.1 hi)]
    rw [sum_congr rfl this, sum_const, card_range, nsmul_eq_mul]
  · have : ∀ r ∈ range t, (if (k * N + r) / k < N then f ((k * N + r) / k) else c) = c := by
      intro r _
      rw [if_neg]
      rw [Nat.not_lt, Nat.le_div_iff_mul_le hk]
      rw [Nat.mul_comm]; omega
    rw [sum_congr rfl this, sum_const, card_range, nsmul_eq_mul]
    push_cast
    ring

end avg

namespace UniformInt
section mean
variable {E : EngInfo} (hE : EngOK E)
include hE

omit hE in
theorem mu_after (N C n : Nat) (B : ℚ) (hC : N ≤ C) (hB : mu E (K E.b (dig E) N) n ≤ B) :
    ∑ t ∈ range C, mu E (after E N t) n ≤ ((C : ℚ) - N) * B := by
  obtain ⟨u, rfl⟩ := Nat.exists_eq_add_of_le hC
  rw [sum_range_add]
  have h1 : ∀ t ∈ range N, mu E (after E N t) n = 0 := by
    intro t ht
    rw [← mu_done E t n]
    congr 1
    funext xs
    unfold after
    rw [if_pos (mem_range.1 ht)]
  have h2 : ∀ t ∈ range u, mu E (after E N (N + t)) n ≤ B := by
    intro t _
    refine le_trans (le_of_eq ?_) hB
    congr 1
    funext xs
    unfold after
    rw [if_neg (by omega)]
  rw [sum_congr rfl h1, sum_const_zero, zero_add]
  refine le_trans (sum_le_sum h2) ?_
  rw [sum_const, card_range, nsmul_eq_mul]
  push_cast
  apply le_of_eq; ring

/-- the part after the digit loop, averaged over the results of the digit loop -/
theorem mu_G (N m : Nat) (hm0 : 0 < m) (hmN : m < N) (hmb : N < m * E.b) (B : ℚ) (hB0 : 0 ≤ B) (n : Nat)
    (ihA : ∀ j < n, mu E (K E.b (dig E) N) j ≤ B) :
    ∑ r ∈ range m, mu E (G E.b (dig E) N r m) n ≤ m * (2 + B / 2) := by
  have hb2 := EngInfo.b_ge hE
  have hle := hE.lt.le
  have hbq := b_pos E
  have hb2q : (2 : ℚ) ≤ E.b := by exact_mod_cast hb2
  have hm0q : (0 : ℚ) < m := by exact_mod_cast hm0
  obtain ⟨N', hN'⟩ : ∃ N', N' = (N - 1) / m + 1 := ⟨_, rfl⟩
  have hN'b : N' ≤ E.b := by
    have : (N - 1) / m < E.b := by
      rw [Nat.div_lt_iff_lt_mul hm0]; rw [Nat.mul_comm]; omega
    omega
  have hNm : N ≤ m * N' ∧ m * N' ≤ N + m := by
    have h1 := Nat.div_add_mod (N - 1) m
    have h2 := Nat.mod_lt (N - 1) hm0
    rw [hN', Nat.mul_add, Nat.mul_one]
    omega
  have hN'2 : 2 ≤ N' := by
    have : 1 ≤ (N - 1) / m := Nat.div_pos (by omega) hm0
    omega
  have hN'2q : (2 : ℚ) ≤ N' := by exact_mod_cast hN'2
  have hNmq : (m : ℚ) * N' - N ≤ m := by
    have : ((m * N' : Nat) : ℚ) ≤ ((N + m : Nat) : ℚ) := by exact_mod_cast hNm.2
    push_cast at this
    linarith
  have hH : ∀ j < n, ∑ r ∈ range m, ∑ i ∈ range N', mu E (after E N (r + i * m)) j ≤ m * B := by
    intro j hj
    rw [sum_digitsQ (fun t => mu E (after E N t) j)]
    refine le_trans (mu_after N _ j B hNm.1 (ihA j hj)) ?_
    push_cast
    exact mul_le_mul_of_nonneg_right hNmq hB0
  cases n with
  | zero =>
    simp only [mu_zero, sum_const_zero]
    positivity
  | succ n =>
  by_cases h2 : N' = E.b
  · have : ∀ r ∈ range m, mu E (G E.b (dig E) N r m) (n + 1) ≤ 1 + (∑ i ∈ range N', mu E (after E N (r + i * m)) n) / E.b := by
      intro r _
      have := mu_succ E (G E.b (dig E) N r m) (fun i => after E N (r + i * m)) hle n (by
        intro d _ xs _
        unfold G after
        rw [← hN', h2, K_b_cons hb2, dig_min hE])
      rw [h2]; exact this
    refine le_trans (sum_le_sum this) ?_
    rw [sum_add_distrib, sum_const, card_range, nsmul_eq_mul, mul_one, ← sum_div]
    have h3 : (∑ r ∈ range m, ∑ i ∈ range N', mu E (after E N (r + i * m)) n) / (E.b : ℚ) ≤ m * B / 2 :=
      div_le_div₀ (by positivity) (hH n (by omega)) (by norm_num) hb2q
    linarith
  · have h3 : N' < E.b := by omega
    have h1 : N' ≠ 1 := by omega
    have hkpos : 0 < E.b / N' := Nat.div_pos hN'b (by omega)
    have hkN : E.b / N' * N' ≤ E.b := Nat.div_mul_le_self _ _
    have hk2 : E.b ≤ 2 * (E.b / N' * N') := by
      have h4 := Nat.div_add_mod E.b N'
      have h5 := Nat.mod_lt E.b (show 0 < N' by omega)
      have h6 : 1 * N' ≤ E.b / N' * N' := Nat.mul_le_mul_right _ hkpos
      rw [Nat.mul_comm N'] at h4
      omega
    generalize hk : E.b / N' = k at *
    have hcons : ∀ (r d : Nat) xs, G E.b (dig E) N r m ((E.min + (d : Int)) :: xs) =
        if d / k < N' then after E N (r + d / k * m) xs else G E.b (dig E) N r m xs := by
      intro r d xs
      unfold G after
      rw [← hN', K_bucket h1 h3, K_bucket h1 h3, hk]
      conv => lhs; unfold cBucket
      rw [dig_min hE]
      by_cases hd : d / k < N'
      · rw [if_pos hd, if_pos hd]
      · rw [if_neg hd, if_neg hd]
    have hkq : (0 : ℚ) < k := by exact_mod_cast hkpos
    have hkNq : (k : ℚ) * N' ≤ E.b := by exact_mod_cast hkN
    have hk2q : (E.b : ℚ) ≤ 2 * (k * N') := by exact_mod_cast hk2
    have hrec : ∀ j ≤ n, ∑ r ∈ range m, mu E (G E.b (dig E) N r m) (j + 1) ≤
        m + (k * (m * B) + ((E.b : ℚ) - k * N') * ∑ r ∈ range m, mu E (G E.b (dig E) N r m) j) / E.b := by
      intro j hj
      have hr : ∀ r ∈ range m, mu E (G E.b (dig E) N r m) (j + 1) ≤
          1 + (k * (∑ i ∈ range N', mu E (after E N (r + i * m)) j) + ((E.b : ℚ) - k * N') * mu E (G E.b (dig E) N r m) j) / E.b := by
        intro r _
        have h4 := mu_succ E (G E.b (dig E) N r m) (fun d xs => if d / k < N' then after E N (r + d / k * m) xs else G E.b (dig E) N r m xs)
          hle j (fun d _ xs _ => hcons r d xs)
        have h5 : ∀ d ∈ range E.b, mu E (fun xs => if d / k < N' then after E N (r + d / k * m) xs else G E.b (dig E) N r m xs) j =
            if d / k < N' then mu E (after E N (r + d / k * m)) j else mu E (G E.b (dig E) N r m) j := by
          intro d _
          by_cases hd : d / k < N' <;> simp only [hd, if_true, if_false]
        rw [sum_congr rfl h5, sum_bucketsQ (fun i => mu E (after E N (r + i * m)) j) _ k N' E.b hkpos hkN] at h4
        exact h4
      refine le_trans (sum_le_sum hr) ?_
      rw [sum_add_distrib, sum_const, card_range, nsmul_eq_mul, mul_one, ← sum_div, sum_add_distrib, ← mul_sum, ← mul_sum]
      have := hH j (by omega)
      gcongr
    have hfin : ∀ j ≤ n + 1, ∑ r ∈ range m, mu E (G E.b (dig E) N r m) j ≤ m * (2 + B / 2) := by
      intro j
      induction j with
      | zero =>
        intro _
        simp only [mu_zero, sum_const_zero]
        positivity
      | succ j ih =>
        intro hj
        refine le_trans (hrec j (by omega)) ?_
        have ih := ih (by omega)
        have h0 : (0 : ℚ) ≤ (E.b : ℚ) - k * N' := by linarith
        have h4 := mul_le_mul_of_nonneg_left ih h0
        have h5 : (k * (m * B) + ((E.b : ℚ) - k * N') * ∑ r ∈ range m, mu E (G E.b (dig E) N r m) j) / E.b ≤ m * (1 + B / 2) := by
          rw [div_le_iff₀ hbq]
          have h6 : (0 : ℚ) ≤ k * m * B * (N' - 2) := by
            have : (0 : ℚ) ≤ N' - 2 := by linarith
            positivity
          have h7 := mul_le_mul_of_nonneg_left hk2q hm0q.le
          nlinarith
        linarith
    exact hfin (n + 1) le_rfl

theorem mu_F (N k : Nat) (hk : N ≤ E.b ^ (k + 1)) (B : ℚ) (hB0 : 0 ≤ B) : ∀ (n i : Nat), E.b ^ i < N →
    (∀ j < n, mu E (K E.b (dig E) N) j ≤ B) →
    ∑ r ∈ range (E.b ^ i), mu E (F E.b (dig E) N r (E.b ^ i)) n ≤ (E.b : ℚ) ^ i * (((k : ℚ) - i) + 2 + B / 2) := by
  have hb2 := EngInfo.b_ge hE
  have hle := hE.lt.le
  have hbq := b_pos E
  have hik : ∀ i, E.b ^ i < N → i ≤ k := by
    intro i hi
    have := lt_of_lt_of_le hi hk
    have := (Nat.pow_lt_pow_iff_right (by omega)).1 this
    omega
  intro n
  induction n with
  | zero =>
    intro i hi _
    simp only [mu_zero, sum_const_zero]
    have : (i : ℚ) ≤ k := by exact_mod_cast hik i hi
    have : (0 : ℚ) ≤ (k : ℚ) - i := by linarith
    positivity
  | succ n ih =>
    intro i hi ihA
    have hik' : (i : ℚ) ≤ k := by exact_mod_cast hik i hi
    have hpos : 0 < E.b ^ i := Nat.pow_pos (by omega)
    have hposq : (0 : ℚ) < (E.b : ℚ) ^ i := by positivity
    rcases Nat.lt_trichotomy (E.b ^ i * E.b) N with h | h | h
    · have h1 : ∀ r ∈ range (E.b ^ i), mu E (F E.b (dig E) N r (E.b ^ i)) (n + 1) ≤
          1 + (∑ d ∈ range E.b, mu E (F E.b (dig E) N (r + d * E.b ^ i) (E.b ^ i * E.b)) n) / E.b := by
        intro r _
        apply mu_succ E _ (fun d => F E.b (dig E) N (r + d * E.b ^ i) (E.b ^ i * E.b)) hle
        intro d _ xs _
        rw [F_cons_lt h, dig_min hE]
      refine le_trans (sum_le_sum h1) ?_
      rw [sum_add_distrib, sum_const, card_range, nsmul_eq_mul, mul_one, ← sum_div,
        sum_digitsQ (fun t => mu E (F E.b (dig E) N t (E.b ^ i * E.b)) n)]
      have h2 := ih (i + 1) (by rw [pow_succ]; exact h) (fun j hj => ihA j (by omega))
      rw [pow_succ (E.b) i, pow_succ (E.b : ℚ) i] at h2
      have h3 : (∑ t ∈ range (E.b ^ i * E.b), mu E (F E.b (dig E) N t (E.b ^ i * E.b)) n) / (E.b : ℚ) ≤
          (E.b : ℚ) ^ i * (((k : ℚ) - (i + 1)) + 2 + B / 2) := by
        rw [div_le_iff₀ hbq]
        refine le_trans h2 (le_of_eq ?_)
        push_cast
        ring
      push_cast
      linarith
    · have h1 : ∀ r ∈ range (E.b ^ i), mu E (F E.b (dig E) N r (E.b ^ i)) (n + 1) ≤ 1 := by
        intro r _
        have := mu_succ E (F E.b (dig E) N r (E.b ^ i)) (fun d xs => Draw.done (r + d * E.b ^ i) xs) hle n (by
          intro d _ xs _
          rw [F_cons_eq h, dig_min hE])
        simpa [mu_done] using this
      refine le_trans (sum_le_sum h1) ?_
      rw [sum_const, card_range, nsmul_eq_mul]
      push_cast
      apply mul_le_mul_of_nonneg_left _ hposq.le
      linarith
    · have : ∀ r, F E.b (dig E) N r (E.b ^ i) = G E.b (dig E) N r (E.b ^ i) := fun r => funext fun xs => F_gt h xs
      simp only [this]
      refine le_trans (mu_G hE N _ hpos hi h B hB0 (n + 1) ihA) ?_
      push_cast
      apply mul_le_mul_of_nonneg_left _ hposq.le
      linarith

/-- at most as many values as the engine has: less than half of them are rejected -/
theorem mu_K_small (N : Nat) (hN : 0 < N) (hNb : N ≤ E.b) (n : Nat) : mu E (K E.b (dig E) N) n ≤ 2 := by
  have hb2 := EngInfo.b_ge hE
  have hle := hE.lt.le
  have hbq := b_pos E
  by_cases h1 : N = 1
  · have : K E.b (dig E) N = fun xs => Draw.done 0 xs := funext fun xs => by rw [h1, K_one]
    rw [this, mu_done]; norm_num
  by_cases h2 : N = E.b
  · cases n with
    | zero => rw [mu_zero]; norm_num
    | succ n =>
      have := mu_succ E (K E.b (dig E) N) (fun d xs => Draw.done d xs) hle n (by
        intro d _ xs _
        rw [h2, K_b_cons hb2, dig_min hE])
      simp only [mu_done, sum_const_zero, zero_div] at this
      linarith
  · have h3 : N < E.b := by omega
    have hkpos : 0 < E.b / N := Nat.div_pos hNb hN
    have hkN : E.b / N * N ≤ E.b := Nat.div_mul_le_self _ _
    have hk2 : E.b ≤ 2 * (E.b / N * N) := by
      have h4 := Nat.div_add_mod E.b N
      have h5 := Nat.mod_lt E.b hN
      have h6 : 1 * N ≤ E.b / N * N := Nat.mul_le_mul_right _ hkpos
      rw [Nat.mul_comm N] at h4
      omega
    generalize hk : E.b / N = k at *
    have hkNq : (k : ℚ) * N ≤ E.b := by exact_mod_cast hkN
    have hk2q : (E.b : ℚ) ≤ 2 * (k * N) := by exact_mod_cast hk2
    induction n with
    | zero => rw [mu_zero]; norm_num
    | succ n ih =>
      have h4 := mu_succ E (K E.b (dig E) N) (fun d xs => if d / k < N then Draw.done (d / k) xs else K E.b (dig E) N xs) hle n (by
        intro d _ xs _
        rw [K_bucket h1 h3, K_bucket h1 h3, hk]
        conv => lhs; unfold cBucket
        rw [dig_min hE])
      have h5 : ∀ d ∈ range E.b, mu E (fun xs => if d / k < N then Draw.done (d / k) xs else K E.b (dig E) N xs) n =
          if d / k < N then 0 else mu E (K E.b (dig E) N) n := by
        intro d _
        by_cases hd : d / k < N
        · simp only [hd, if_true, mu_done]
        · simp only [hd, if_false]
      rw [sum_congr rfl h5, sum_bucketsQ (fun _ => 0) _ k N E.b hkpos hkN] at h4
      refine le_trans h4 ?_
      have h6 : ((k : ℚ) * ∑ i ∈ range N, 0 + ((E.b : ℚ) - k * N) * mu E (K E.b (dig E) N) n) / E.b ≤ 1 := by
        rw [div_le_iff₀ hbq, sum_const_zero]
        have := mul_le_mul_of_nonneg_left ih (show (0 : ℚ) ≤ (E.b : ℚ) - k * N by linarith)
        linarith
      linarith

theorem mu_K (N : Nat) (hN : 0 < N) (n : Nat) : mu E (K E.b (dig E) N) n ≤ 2 * (Nat.log E.b (N - 1) + 2 : Nat) := by
  have hb2 := EngInfo.b_ge hE
  rcases Nat.lt_or_ge E.b N with h | h
  · have hk : N ≤ E.b ^ (Nat.log E.b (N - 1) + 1) := by
      have := Nat.lt_pow_succ_log_self (b := E.b) (by omega) (N - 1)
      rw [Nat.succ_eq_add_one] at this
      omega
    induction n using Nat.strong_induction_on with
    | _ n ih =>
      rw [mu_congr E hE.lt.le (fun xs hxs => K_eq_F hb2 h xs (outputs_dig hE hxs))]
      have := mu_F hE N _ hk (2 * (Nat.log E.b (N - 1) + 2 : Nat)) (by positivity) n 0 (by simp; omega) ih
      simp only [pow_zero, range_one, sum_singleton] at this
      refine le_trans this ?_
      push_cast
      linarith
  · refine le_trans (mu_K_small hE N hN h n) ?_
    push_cast
    have : (0 : ℚ) ≤ Nat.log E.b (N - 1) := Nat.cast_nonneg _
    linarith

end mean
end UniformInt
end Boost.Random

namespace Boost.Random
open Spec Finset

section law
variable {α : Type} [DecidableEq α] (E : EngInfo)

theorem countP_eq_avg (p : List Int → Bool) (n : Nat) :
    ((tuples E n).countP p : ℚ) / (E.b : ℚ) ^ n = avg E (fun xs => if p xs then 1 else 0) n := by
  rw [← avg_eq]
  congr 1
  induction tuples E n with
  | nil => rfl
  | cons a l ih =>
    rw [List.countP_cons, List.map_cons, List.sum_cons, ← ih]
    split <;> push_cast <;> ring

/-- probability of having returned `v` -/
def rho (q : List Int → Draw α) (n : Nat) (v : α) : ℚ := avg E (fun xs => if returns v (q xs) then 1 else 0) n

theorem returned_eq (q : List Int → Draw α) (n : Nat) (v : α) : returned E q n v = rho E q n v := countP_eq_avg E _ n

/-- the number of values used by a call that returns `v` is some `j` -/
theorem rho_eq_sum (hE : E.min ≤ E.max) (n : Nat) : ∀ (q : List Int → Draw α), LocalOn E q → ∀ v : α,
    rho E q n v = ∑ j ∈ range (n + 1), (cnt E q j v : ℚ) / (E.b : ℚ) ^ j := by
  have hb := b_pos E
  induction n with
  | zero =>
    intro q hq v
    simp only [rho, avg, zero_add, range_one, sum_singleton, cnt, pow_zero, div_one]
    cases h : q [] with
    | more => simp [returns]
    | ub => simp [returns]
    | done a rest =>
      obtain ⟨pre, h1, h2⟩ := hq [] a rest (Outputs.nil) h
      have h3 : rest = [] := by
        have := congrArg List.length h1
        simp at this
        exact List.eq_nil_of_length_eq_zero (by omega)
      subst h3
      by_cases hav : a = v <;> simp [returns, hav]
  | succ n ih =>
    intro q hq v
    by_cases h0 : ∃ a rest, q [] = Draw.done a rest
    · obtain ⟨a, rest, h⟩ := h0
      obtain ⟨pre, h1, h2⟩ := hq [] a rest (Outputs.nil) h
      have h3 : pre = [] := by
        have := congrArg List.length h1
        simp at this
        exact List.eq_nil_of_length_eq_zero (by omega)
      subst h3
      have h4 : ∀ xs, Outputs E xs → q xs = Draw.done a xs := fun xs hxs => h2 xs hxs
      have h5 : ∀ j, cnt E q j v = if j = 0 ∧ a = v then 1 else 0 := fun j => by
        rw [cnt_congr_outputs E hE h4, cnt_done]
      have h6 : rho E q (n + 1) v = avg E (fun _ => if a = v then 1 else 0) (n + 1) := by
        apply avg_congr E hE
        intro xs hxs _
        rw [h4 xs hxs]
        simp [returns]
      rw [h6, avg_const, sum_eq_single 0]
      · by_cases hav : a = v <;> simp [h5, hav]
      · intro j _ hj
        simp [h5, hj]
      · simp
    · have hc0 : cnt E q 0 v = 0 := by
        simp only [cnt]
        rw [if_neg]
        intro h
        exact h0 ⟨_, _, h⟩
      have hr : ∀ d < E.b, LocalOn E (fun xs => q ((E.min + (d : Int)) :: xs)) := by
        intro d hd xs w rest hxs h
        obtain ⟨pre, h1, h2⟩ := hq _ w rest (outputs_cons hE hd hxs) h
        cases pre with
        | nil => exact absurd ⟨_, _, h2 [] (Outputs.nil)⟩ h0
        | cons x pre =>
          rw [List.cons_append, List.cons.injEq] at h1
          refine ⟨pre, h1.2, fun ys hys => ?_⟩
          have := h2 ys hys
          rw [← h1.1] at this
          exact this
      rw [sum_range_succ', hc0]
      simp only [Nat.cast_zero, zero_div, add_zero]
      have h1 : rho E q (n + 1) v = (∑ d ∈ range E.b, rho E (fun xs => q ((E.min + (d : Int)) :: xs)) n v) / E.b := rfl
      rw [h1, sum_congr rfl (fun d hd => ih _ (hr d (mem_range.1 hd)) v), sum_comm, sum_div]
      apply sum_congr rfl
      intro j _
      simp only [cnt]
      push_cast
      rw [← sum_div, pow_succ, div_div]

/-- equally many exact tuples for all values: the same probability -/
theorem rho_congr (hE : E.min ≤ E.max) (q : List Int → Draw α) (hq : LocalOn E q) (v v' : α)
    (h : ∀ n, cnt E q n v = cnt E q n v') (n : Nat) : rho E q n v = rho E q n v' := by
  rw [rho_eq_sum E hE n q hq, rho_eq_sum E hE n q hq]
  simp only [h]

/-- probability of still running -/
def sigma (q : List Int → Draw α) (n : Nat) : ℚ := avg E (fun xs => if decide (q xs = Draw.more) then 1 else 0) n

theorem stillRunning_eq (q : List Int → Draw α) (n : Nat) : stillRunning E q n = sigma E q n := countP_eq_avg E _ n

theorem avg_sum {β : Type} (s : Finset β) (f : β → List Int → ℚ) (n : Nat) :
    avg E (fun xs => ∑ v ∈ s, f v xs) n = ∑ v ∈ s, avg E (f v) n := by
  classical
  induction s using Finset.induction_on with
  | empty => simp only [sum_empty]; exact avg_const E 0 n
  | insert a s ha ih =>
    simp only [sum_insert ha]
    rw [avg_add, ih]

/-- it returns one of the values or is still running -/
theorem rho_total (hE : E.min ≤ E.max) (q : List Int → Draw α) (s : Finset α)
    (h : ∀ xs, Outputs E xs → q xs ≠ Draw.ub ∧ ∀ v rest, q xs = Draw.done v rest → v ∈ s) (n : Nat) :
    ∑ v ∈ s, rho E q n v + sigma E q n = 1 := by
  unfold rho sigma
  rw [← avg_sum, ← avg_add]
  refine Eq.trans ?_ (avg_const E 1 n)
  apply avg_congr E hE
  intro xs hxs _
  obtain ⟨h1, h2⟩ := h xs hxs
  cases hq : q xs with
  | ub => exact absurd hq h1
  | more => simp [returns]
  | done a rest =>
    have := h2 a rest hq
    simp [returns, this]

/-- Markov's inequality -/
theorem sigma_le (hE : E.min ≤ E.max) (q : List Int → Draw α) (n : Nat) : n * sigma E q n ≤ mu E q n := by
  unfold sigma mu
  rw [← avg_mul]
  apply avg_mono E hE
  intro xs _ hl
  unfold usedOf
  cases hq : q xs with
  | more => simp [hl]
  | ub => simp
  | done a rest => simp

theorem sigma_nonneg (hE : E.min ≤ E.max) (q : List Int → Draw α) (n : Nat) : 0 ≤ sigma E q n := by
  rw [← avg_const E 0 n]
  apply avg_mono E hE
  intro xs _ _
  split <;> norm_num

end law

namespace UniformInt

theorem generate_local {E : EngInfo} (hE : EngOK E) {T : IntTy} {mn mx : Int} (hP : ParamOK T mn mx) :
    LocalOn E (generate E T mn mx) := by
  intro xs v rest hxs h
  rw [generate_eq_K hE hP xs hxs] at h
  cases hk : K E.b (dig E) ((mx - mn).toNat + 1) xs with
  | more => rw [hk] at h; cases h
  | ub => rw [hk] at h; cases h
  | done a rest' =>
    rw [hk] at h
    simp only [Draw.map, Draw.done.injEq] at h
    obtain ⟨rfl, rfl⟩ := h
    obtain ⟨pre, h1, h2⟩ := K_local hE (Nat.succ_pos _) xs a rest' hxs hk
    refine ⟨pre, h1, fun ys hys => ?_⟩
    rw [generate_eq_K hE hP, h2 ys hys]
    · rfl
    · intro x hx
      rcases List.mem_append.1 hx with h | h
      · exact hxs x (by rw [h1]; simp [h])
      · exact hys x h

end UniformInt

/-! ## `independent_bits_engine` -/

theorem ibRun_local (E : EngInfo) : ∀ (xs : List Int) (ss : List (Nat × Nat)) (S v : Nat) (rest : List Int),
    ibRun E xs ss S = Draw.done v rest → ∃ pre, xs = pre ++ rest ∧ ∀ ys, ibRun E (pre ++ ys) ss S = Draw.done v ys := by
  intro xs
  induction xs with
  | nil =>
    intro ss S v rest h
    cases ss with
    | nil =>
      simp only [ibRun] at h
      cases h
      exact ⟨[], rfl, fun ys => by rw [List.nil_append, IndependentBits.ibRun_nil]⟩
    | cons s ss => simp [ibRun] at h
  | cons x xs ih =>
    intro ss S v rest h
    cases ss with
    | nil =>
      rw [IndependentBits.ibRun_nil] at h
      cases h
      exact ⟨[], rfl, fun ys => by rw [List.nil_append, IndependentBits.ibRun_nil]⟩
    | cons s ss =>
      obtain ⟨y, k⟩ := s
      simp only [ibRun] at h
      split at h
      · next hx =>
        obtain ⟨pre, h1, h2⟩ := ih _ _ _ _ h
        refine ⟨x :: pre, by rw [h1]; rfl, fun ys => ?_⟩
        rw [List.cons_append]
        simp only [ibRun]
        rw [if_pos hx, h2]
      · next hx =>
        obtain ⟨pre, h1, h2⟩ := ih _ _ _ _ h
        refine ⟨x :: pre, by rw [h1]; rfl, fun ys => ?_⟩
        rw [List.cons_append]
        simp only [ibRun]
        rw [if_neg hx, h2]

theorem mu_ibRun (E : EngInfo) (hE : E.min ≤ E.max) : ∀ (n : Nat) (ss : List (Nat × Nat)) (S : Nat),
    (∀ s ∈ ss, s.1 ≤ E.b ∧ E.b ≤ 2 * s.1) → mu E (fun xs => ibRun E xs ss S) n ≤ 2 * ss.length := by
  have hbq := b_pos E
  intro n
  induction n with
  | zero => intro ss S _; rw [mu_zero]; positivity
  | succ n ih =>
    intro ss S hs
    cases ss with
    | nil =>
      have : (fun xs => ibRun E xs [] S) = fun xs => Draw.done S xs := funext fun xs => IndependentBits.ibRun_nil E xs S
      rw [this, mu_done]
      simp
    | cons s ss =>
      obtain ⟨y, k⟩ := s
      obtain ⟨hy, hy2⟩ := hs (y, k) (by simp)
      have hyq : (y : ℚ) ≤ E.b := by exact_mod_cast hy
      have hy2q : (E.b : ℚ) ≤ 2 * y := by exact_mod_cast hy2
      have h1 := mu_succ E (fun xs => ibRun E xs ((y, k) :: ss) S)
        (fun d xs => if d < y then ibRun E xs ss (2 ^ k * S + d % 2 ^ k) else ibRun E xs ((y, k) :: ss) S) hE n (by
          intro d _ xs _
          simp only [ibRun]
          rw [show (E.min + (d : Int) - E.min).toNat = d by omega])
      refine le_trans h1 ?_
      have h2 : ∑ d ∈ range E.b, mu E (fun xs => if d < y then ibRun E xs ss (2 ^ k * S + d % 2 ^ k) else ibRun E xs ((y, k) :: ss) S) n ≤
          ∑ d ∈ range E.b, ((2 * ss.length : ℚ) + if d < y then 0 else 2) := by
        apply sum_le_sum
        intro d _
        by_cases hd : d < y
        · simp only [hd, if_true, add_zero]
          exact ih ss _ (fun s hs' => hs s (by simp [hs']))
        · simp only [hd, if_false]
          refine le_trans (ih ((y, k) :: ss) S hs) ?_
          rw [List.length_cons]
          push_cast
          linarith
      have h3 : ∑ d ∈ range E.b, ((2 * ss.length : ℚ) + if d < y then 0 else 2) = E.b * (2 * ss.length) + ((E.b : ℚ) - y) * 2 := by
        obtain ⟨t, ht⟩ := Nat.exists_eq_add_of_le hy
        rw [sum_add_distrib, sum_const, card_range, nsmul_eq_mul]
        congr 1
        rw [ht, sum_range_add, sum_congr rfl (fun d hd => if_pos (mem_range.1 hd)),
          sum_congr rfl (fun d _ => if_neg (show ¬ y + d < y by omega)), sum_const_zero, zero_add, sum_const, card_range,
          nsmul_eq_mul]
        push_cast
        ring
      rw [h3] at h2
      have h4 := div_le_div_of_nonneg_right h2 hbq.le
      have h5 : ((E.b : ℚ) * (2 * ss.length) + ((E.b : ℚ) - y) * 2) / E.b ≤ 2 * ss.length + 1 := by
        rw [div_le_iff₀ hbq]
        linarith
      rw [List.length_cons]
      push_cast
      linarith

end Boost.Random
