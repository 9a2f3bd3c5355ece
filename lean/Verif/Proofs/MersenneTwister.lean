import Verif.Spec.MersenneTwister
import Verif.Proofs.Block
import Verif.Proofs.Adaptors
import Mathlib.Data.List.GetD

/-!
# Lemmas about the Mersenne Twister
-/

namespace Boost.Random
open Spec

namespace Mt
variable {P : Params}

theorem and_upperMask {x : Nat} (hx : x < 2 ^ P.bits) : x &&& upperMask P = x / 2 ^ P.r * 2 ^ P.r := by
  apply Nat.eq_of_testBit_eq
  intro i
  rw [upperMask, Nat.testBit_and, Nat.testBit_mod_two_pow, Nat.testBit_shiftLeft, Nat.testBit_two_pow_sub_one,
    Nat.mul_comm, Nat.testBit_two_pow_mul, Nat.testBit_div_two_pow]
  by_cases h1 : i < P.bits
  · by_cases h2 : P.r ≤ i
    · simp [h1, h2, show i - P.r < P.bits by omega]
    · simp [h2]
  · have : x.testBit i = false := Nat.testBit_lt_two_pow (lt_of_lt_of_le hx (Nat.pow_le_pow_right (by omega) (by omega)))
    by_cases h2 : P.r ≤ i
    · simp [h1, this, h2]
    · simp [h2]

theorem and_lowerMask (hv : MtValid P) {x : Nat} (hx : x < 2 ^ P.bits) : x &&& lowerMask P = x % 2 ^ P.r := by
  have h3 := hv.r_lt
  have h4 := hv.w_le
  apply Nat.eq_of_testBit_eq
  intro i
  rw [lowerMask, upperMask, Nat.testBit_and, Nat.testBit_xor, Nat.testBit_mod_two_pow, Nat.testBit_shiftLeft,
    Nat.testBit_two_pow_sub_one, Nat.testBit_two_pow_sub_one, Nat.testBit_mod_two_pow]
  by_cases h1 : i < P.bits
  · by_cases h2 : P.r ≤ i
    · simp [h1, h2, show i - P.r < P.bits by omega, show ¬ i < P.r by omega]
    · simp [h1, h2, show i < P.r by omega]
  · have : x.testBit i = false := Nat.testBit_lt_two_pow (lt_of_lt_of_le hx (Nat.pow_le_pow_right (by omega) (by omega)))
    simp [h1, this]

theorem mix_eq (hv : MtValid P) {x y : Nat} (hx : x < 2 ^ P.bits) (hy : y < 2 ^ P.bits) :
    (x &&& upperMask P) ||| (y &&& lowerMask P) = mtJoin P.r x y := by
  rw [and_upperMask hx, and_lowerMask hv hy, mtJoin, Nat.mul_comm,
    Nat.two_pow_add_eq_or_of_lt (Nat.mod_lt _ (Nat.two_pow_pos _))]

theorem pow_le (hv : MtValid P) : 2 ^ P.w ≤ 2 ^ P.bits := Nat.pow_le_pow_right (by omega) hv.w_le

theorem join_lt (hv : MtValid P) {x y : Nat} (hx : x < 2 ^ P.w) : mtJoin P.r x y < 2 ^ P.w := by
  unfold mtJoin
  have e : 2 ^ P.w = 2 ^ (P.w - P.r) * 2 ^ P.r := by rw [← Nat.pow_add]; congr 1; have := hv.r_lt; omega
  have h1 : x / 2 ^ P.r < 2 ^ (P.w - P.r) := by
    rw [Nat.div_lt_iff_lt_mul (Nat.two_pow_pos _), ← e]; exact hx
  have h2 : y % 2 ^ P.r < 2 ^ P.r := Nat.mod_lt _ (Nat.two_pow_pos _)
  calc _ < x / 2 ^ P.r * 2 ^ P.r + 2 ^ P.r := by omega
    _ = (x / 2 ^ P.r + 1) * 2 ^ P.r := by rw [Nat.add_mul, Nat.one_mul]
    _ ≤ 2 ^ (P.w - P.r) * 2 ^ P.r := Nat.mul_le_mul_right _ h1
    _ = _ := e.symm

theorem join_div (r x y : Nat) : mtJoin r x y / 2 ^ r = x / 2 ^ r := by
  unfold mtJoin
  rw [Nat.mul_comm, Nat.mul_add_div (Nat.two_pow_pos _), Nat.div_eq_of_lt (Nat.mod_lt _ (Nat.two_pow_pos _)), Nat.add_zero]

theorem join_mod (r x y : Nat) : mtJoin r x y % 2 ^ r = y % 2 ^ r := by
  unfold mtJoin
  rw [Nat.mul_comm, Nat.mul_add_mod, Nat.mod_mod]

theorem join_self (r x : Nat) : mtJoin r x x = x := by
  unfold mtJoin
  rw [Nat.mul_comm]; exact Nat.div_add_mod _ _

theorem join_congr {r x x' y y' : Nat} (h1 : x / 2 ^ r = x' / 2 ^ r) (h2 : y % 2 ^ r = y' % 2 ^ r) :
    mtJoin r x y = mtJoin r x' y' := by
  unfold mtJoin; rw [h1, h2]

theorem mod_two_of_mod {r x y : Nat} (hr : 1 ≤ r) (h : x % 2 ^ r = y % 2 ^ r) : x % 2 = y % 2 := by
  obtain ⟨k, rfl⟩ : ∃ k, r = k + 1 := ⟨r - 1, by omega⟩
  have e : 2 ^ (k + 1) = 2 * 2 ^ k := by rw [Nat.pow_succ, Nat.mul_comm]
  rw [← Nat.mod_mul_right_mod x 2 (2 ^ k), ← Nat.mod_mul_right_mod y 2 (2 ^ k), ← e, h]

theorem word_eq (hv : MtValid P) {x0 x1 x2 : Nat} (h0 : x0 < 2 ^ P.w) (h1 : x1 < 2 ^ P.w) :
    word P x0 x1 x2 = x2 ^^^ mtA P.a (mtJoin P.r x0 x1) := by
  have hp := pow_le hv
  unfold word mtA
  rw [mix_eq hv (by omega) (by omega)]
  have ho : mtJoin P.r x0 x1 % 2 = x1 % 2 := mod_two_of_mod hv.r_pos (join_mod _ _ _)
  have e : (x1 &&& 1) * P.a % 2 ^ P.bits = if x1 % 2 = 1 then P.a else 0 := by
    rw [Nat.and_one_is_mod]
    have := hv.a_lt
    rcases Nat.mod_two_eq_zero_or_one x1 with h | h
    · simp [h]
    · simp [h]; exact Nat.mod_eq_of_lt (by omega)
  simp only [e, ho, Nat.shiftRight_eq_div_pow, Nat.pow_one, Nat.xor_assoc]

theorem mtA_lt (hv : MtValid P) {y : Nat} (hy : y < 2 ^ P.w) : mtA P.a y < 2 ^ P.w := by
  unfold mtA
  apply Nat.xor_lt_two_pow
  · omega
  · split
    · exact hv.a_lt
    · exact Nat.two_pow_pos _

theorem IsMt.lt (hv : MtValid P) {X : Nat → Nat} (h : IsMt P X) (h0 : ∀ j < P.n, X j < 2 ^ P.w) : ∀ k, X k < 2 ^ P.w := by
  intro k
  induction k using Nat.strong_induction_on with
  | _ k ih =>
    by_cases hk : k < P.n
    · exact h0 k hk
    · have hm := hv.m_lt
      have e := h (k - P.n)
      rw [show k - P.n + P.n = k by omega] at e
      rw [e]
      exact Nat.xor_lt_two_pow (ih _ (by omega)) (mtA_lt hv (join_lt hv (ih _ (by omega))))

/-! ### The inverse of `A` -/

theorem and_top (hv : MtValid P) {y : Nat} (hy : y < 2 ^ P.w) :
    (y &&& ((1 <<< (P.w - 1)) % 2 ^ P.bits) ≠ 0) ↔ 2 ^ (P.w - 1) ≤ y := by
  have h1 := hv.r_lt
  have h2 := hv.w_le
  have e : (1 <<< (P.w - 1)) % 2 ^ P.bits = 2 ^ (P.w - 1) := by
    rw [Nat.one_shiftLeft]
    exact Nat.mod_eq_of_lt (Nat.pow_lt_pow_right (by omega) (by omega))
  rw [e]
  have e2 : y &&& 2 ^ (P.w - 1) = if y.testBit (P.w - 1) then 2 ^ (P.w - 1) else 0 := by
    apply Nat.eq_of_testBit_eq
    intro i
    rw [Nat.testBit_and, Nat.testBit_two_pow]
    by_cases hi : P.w - 1 = i
    · subst hi
      cases y.testBit (P.w - 1) <;> simp
    · cases y.testBit (P.w - 1) <;> simp [hi, Nat.testBit_two_pow]
  rw [e2]
  constructor
  · intro h
    split at h
    · exact Nat.ge_two_pow_of_testBit (by assumption)
    · exact absurd rfl h
  · intro h
    have hb : y.testBit (P.w - 1) = true := by
      obtain ⟨i, hi, hb⟩ := Nat.exists_ge_and_testBit_of_ge_two_pow h
      have : i < P.w := by
        by_contra hc
        have := Nat.ge_two_pow_of_testBit hb
        have := Nat.pow_le_pow_right (n := 2) (by omega) (show P.w ≤ i by omega)
        omega
      rwa [show P.w - 1 = i by omega]
    rw [if_pos hb]
    have := Nat.two_pow_pos (P.w - 1)
    omega

theorem half_lt (hv : MtValid P) {y : Nat} (hy : y < 2 ^ P.w) : y / 2 < 2 ^ (P.w - 1) := by
  have := hv.r_lt
  have e : 2 ^ P.w = 2 ^ (P.w - 1) * 2 := by rw [← Nat.pow_succ]; congr 1; omega
  omega

theorem xor_top {k x a : Nat} (hx : x < 2 ^ (k + 1)) (ha : a < 2 ^ (k + 1)) (ht : 2 ^ k ≤ a) :
    (2 ^ k ≤ x ^^^ a ↔ x < 2 ^ k) := by
  have key : ∀ z, z < 2 ^ (k + 1) → (2 ^ k ≤ z ↔ z.testBit k = true) := by
    intro z hz
    constructor
    · intro h
      obtain ⟨i, hi, hb⟩ := Nat.exists_ge_and_testBit_of_ge_two_pow h
      have : i < k + 1 := by
        by_contra hc
        have := Nat.ge_two_pow_of_testBit hb
        have := Nat.pow_le_pow_right (n := 2) (by omega) (show k + 1 ≤ i by omega)
        omega
      rwa [show k = i by omega]
    · exact Nat.ge_two_pow_of_testBit
  rw [key _ (Nat.xor_lt_two_pow hx ha), Nat.testBit_xor, (key a ha).1 ht]
  have := key x hx
  rw [← not_le, this]
  simp

/-- The value of `untwist` in arithmetic. -/
theorem untwist_eq (hv : MtValid P) {y : Nat} (hy : y < 2 ^ P.w) :
    untwist P y = if 2 ^ (P.w - 1) ≤ y then 2 * (y ^^^ P.a) + 1 else 2 * y := by
  have h1 := hv.r_lt
  have hp := pow_le hv
  have e : 2 ^ P.w = 2 ^ (P.w - 1 + 1) := by congr 1; omega
  have e' : 2 ^ (P.w - 1 + 1) = 2 ^ (P.w - 1) * 2 := Nat.pow_succ _ _
  unfold untwist
  by_cases h : 2 ^ (P.w - 1) ≤ y
  · rw [if_pos ((and_top hv hy).2 h), if_pos h]
    have hlt : y ^^^ P.a < 2 ^ (P.w - 1) := by
      by_contra hc
      rw [not_lt, xor_top (e ▸ hy) (e ▸ hv.a_lt) hv.a_top] at hc
      omega
    rw [Nat.shiftLeft_eq, Nat.pow_one, Nat.mod_eq_of_lt (by omega), Nat.mul_comm]
    have := Nat.two_pow_add_eq_or_of_lt (i := 1) (b := 1) (by omega) (y ^^^ P.a)
    rw [Nat.pow_one] at this
    exact this.symm
  · rw [if_neg (fun hc => h ((and_top hv hy).1 hc)), if_neg h, Nat.shiftLeft_eq, Nat.pow_one,
      Nat.mod_eq_of_lt (by omega), Nat.mul_comm]

theorem untwist_lt (hv : MtValid P) {y : Nat} (hy : y < 2 ^ P.w) : untwist P y < 2 ^ P.w := by
  have h1 := hv.r_lt
  have e : 2 ^ P.w = 2 ^ (P.w - 1 + 1) := by congr 1; omega
  have e' : 2 ^ (P.w - 1 + 1) = 2 ^ (P.w - 1) * 2 := Nat.pow_succ _ _
  rw [untwist_eq hv hy]
  split
  · rename_i h
    have hlt : y ^^^ P.a < 2 ^ (P.w - 1) := by
      by_contra hc
      rw [not_lt, xor_top (e ▸ hy) (e ▸ hv.a_lt) hv.a_top] at hc
      omega
    omega
  · omega

theorem untwist_mtA (hv : MtValid P) {y : Nat} (hy : y < 2 ^ P.w) : untwist P (mtA P.a y) = y := by
  have h1 := hv.r_lt
  have e : 2 ^ P.w = 2 ^ (P.w - 1 + 1) := by congr 1; omega
  have e' : 2 ^ (P.w - 1 + 1) = 2 ^ (P.w - 1) * 2 := Nat.pow_succ _ _
  have hh := half_lt hv hy
  rw [untwist_eq hv (mtA_lt hv hy)]
  unfold mtA
  rcases Nat.mod_two_eq_zero_or_one y with h | h
  · rw [h, if_neg (show ¬ (0 = 1) by omega), Nat.xor_zero, if_neg (by omega)]
    omega
  · rw [h, if_pos rfl, if_pos ((xor_top (by omega) (e ▸ hv.a_lt) hv.a_top).2 hh), Nat.xor_assoc, Nat.xor_self,
      Nat.xor_zero]
    omega

theorem mtA_untwist (hv : MtValid P) {y : Nat} (hy : y < 2 ^ P.w) : mtA P.a (untwist P y) = y := by
  have h1 := hv.r_lt
  rw [untwist_eq hv hy]
  unfold mtA
  split
  · rw [show (2 * (y ^^^ P.a) + 1) / 2 = y ^^^ P.a by omega, if_pos (by omega), Nat.xor_assoc, Nat.xor_self, Nat.xor_zero]
  · rw [show 2 * y / 2 = y by omega, if_neg (by omega), Nat.xor_zero]

/-! ### The array -/

theorem twist_spec (hv : MtValid P) {X : Nat → Nat} (hX : IsMt P X) (hb : ∀ k, X k < 2 ^ P.w) (B : Nat) (x : List Nat)
    (hw : Win X P.n B 0 x) : ∃ x', twist P x = some x' ∧ Win X P.n (B + 1) 0 x' := by
  have hm := hv.m_lt
  have h2 := hv.m_two
  have low : ∀ j x, j < P.n - P.m → Win X P.n B j x → body P j (j + 1) (j + P.m) x = some (X ((B + 1) * P.n + j)) := by
    intro j x hj w
    rw [body, w.get j (by omega), w.get (j + 1) (by omega), w.get (j + P.m) (by omega), if_neg (by omega),
      if_neg (by omega), if_neg (by omega)]
    simp only [Option.bind_some, Option.map_some]
    rw [word_eq hv (hb _) (hb _)]
    have := hX (B * P.n + j)
    rw [show (B + 1) * P.n + j = B * P.n + j + P.n by rw [Nat.add_mul]; omega, this]
    rw [Nat.add_assoc (B * P.n) j P.m, Nat.add_assoc (B * P.n) j 1]
  have high : ∀ j x, P.n - P.m ≤ j → j < P.n - 1 → Win X P.n B j x →
      body P j (j + 1) (j - (P.n - P.m)) x = some (X ((B + 1) * P.n + j)) := by
    intro j x hj hj' w
    rw [body, w.get j (by omega), w.get (j + 1) (by omega), w.get (j - (P.n - P.m)) (by omega), if_neg (by omega),
      if_neg (by omega), if_pos (by omega)]
    simp only [Option.bind_some, Option.map_some]
    rw [word_eq hv (hb _) (hb _)]
    have := hX (B * P.n + j)
    rw [show (B + 1) * P.n + j = B * P.n + j + P.n by rw [Nat.add_mul]; omega, this]
    rw [show (B + 1) * P.n + (j - (P.n - P.m)) = B * P.n + j + P.m by rw [Nat.add_mul]; omega]
    rw [Nat.add_assoc (B * P.n) j 1]
  unfold twist
  dsimp only
  generalize he1 : (P.n - P.m) % 6 = e1
  generalize he2 : (P.m - 1) % 6 = e2
  have h1 : e1 ≤ P.n - P.m := by rw [← he1]; exact Nat.mod_le _ _
  have h3 : e2 ≤ P.m - 1 := by rw [← he2]; exact Nat.mod_le _ _
  obtain ⟨x1, s1, w1⟩ := sweep_win (X := X) (N := P.n) (B := B) (fun j => body P j (j + 1) (j + P.m)) (P.n - P.m - e1) 0 x
    (by omega) hw (fun j x _ hj w => low j x (by omega) w)
  rw [s1, Option.bind_some]
  obtain ⟨x2, s2, w2⟩ := sweep_win (X := X) (N := P.n) (B := B) (fun j => body P j (j + 1) (j + P.m)) e1 (P.n - P.m - e1) x1
    (by omega) (by rwa [Nat.zero_add] at w1) (fun j x _ hj w => low j x (by omega) w)
  rw [s2, Option.bind_some]
  obtain ⟨x3, s3, w3⟩ := sweep_win (X := X) (N := P.n) (B := B) (fun j => body P j (j + 1) (j - (P.n - P.m)))
    (P.n - 1 - e2 - (P.n - P.m)) (P.n - P.m) x2
    (by omega) (by rwa [show P.n - P.m - e1 + e1 = P.n - P.m by omega] at w2) (fun j x h hj w => high j x h (by omega) w)
  rw [s3, Option.bind_some]
  obtain ⟨x4, s4, w4⟩ := sweep_win (X := X) (N := P.n) (B := B) (fun j => body P j (j + 1) (j - (P.n - P.m)))
    e2 (P.n - 1 - e2) x3
    (by omega) (by rwa [show P.n - P.m + (P.n - 1 - e2 - (P.n - P.m)) = P.n - 1 - e2 by omega] at w3)
    (fun j x h hj w => high j x (by omega) (by omega) w)
  rw [s4, Option.bind_some]
  rw [show P.n - 1 - e2 + e2 = P.n - 1 by omega] at w4
  have last : body P (P.n - 1) 0 (P.m - 1) x4 = some (X ((B + 1) * P.n + (P.n - 1))) := by
    rw [body, w4.get (P.n - 1) (by omega), w4.get 0 (by omega), w4.get (P.m - 1) (by omega), if_neg (by omega),
      if_pos (by omega), if_pos (by omega)]
    simp only [Option.bind_some, Option.map_some]
    rw [word_eq hv (hb _) (hb _)]
    have := hX (B * P.n + (P.n - 1))
    rw [show (B + 1) * P.n + (P.n - 1) = B * P.n + (P.n - 1) + P.n by rw [Nat.add_mul]; omega, this]
    rw [show (B + 1) * P.n + (P.m - 1) = B * P.n + (P.n - 1) + P.m by rw [Nat.add_mul]; omega,
      show (B + 1) * P.n + 0 = B * P.n + (P.n - 1) + 1 by rw [Nat.add_mul]; omega]
  obtain ⟨x5, s5, w5⟩ := sweep_win (X := X) (N := P.n) (B := B) (fun _ _ => some (X ((B + 1) * P.n + (P.n - 1))))
    1 (P.n - 1) x4 (by omega) w4 (fun j x h hj w => by rw [show j = P.n - 1 by omega])
  rw [show P.n - 1 + 1 = P.n by omega] at w5
  rw [last]
  simp only [sweep, Option.bind_some, Option.some.injEq] at s5
  exact ⟨_, congrArg some s5, w5.next⟩

/-- One call. -/
theorem next_spec (hv : MtValid P) {X : Nat → Nat} (hX : IsMt P X) (hb : ∀ k, X k < 2 ^ P.w) (t : Nat) (st : BlockEng Nat)
    (h : BlockAt X P.n t st) : ∃ st', next P st = some (temper P (X t), st') ∧ BlockAt X P.n (t + 1) st' := by
  obtain ⟨y, e, hy, hb'⟩ := block_next (by have := hv.m_lt; omega) (twist_spec hv hX hb) h
  refine ⟨⟨y.x, y.i + 1⟩, ?_, hb'⟩
  have : (if st.i = P.n then (twist P st.x).map fun x => (⟨x, 0⟩ : BlockEng Nat) else some st) = some y := by
    rw [← e]
    have := h.1
    by_cases hi : st.i = P.n
    · rw [if_pos hi, if_pos (by omega)]
    · rw [if_neg hi, if_neg (by omega)]
  rw [next, this, Option.bind_some, hy]
  rfl

theorem run_spec (hv : MtValid P) {X : Nat → Nat} (hX : IsMt P X) (hb : ∀ k, X k < 2 ^ P.w) (t : Nat) (st : BlockEng Nat)
    (h : BlockAt X P.n t st) (k : Nat) : ∃ st',
      run (next P) k st = some ((List.range k).map fun j => temper P (X (t + j)), st') ∧ BlockAt X P.n (t + k) st' :=
  run_block (fun t s hs => next_spec hv hX hb t s hs) k t st h

/-- Every array starts a sequence of the recurrence. -/
theorem exists_seq (hv : MtValid P) (x : List Nat) (hl : x.length = P.n) (hx : ∀ v ∈ x, v < 2 ^ P.w) :
    ∃ X, IsMt P X ∧ (∀ k, X k < 2 ^ P.w) ∧ ∀ j < P.n, x[j]? = some (X j) := by
  have hm := hv.m_lt
  have h2 := hv.m_two
  let G : (Nat → Nat) → Nat := fun f => f P.m ^^^ mtA P.a (mtJoin P.r (f 0) (f 1))
  have hadd := blockSeq_add 0 P.n (by omega) G (fun f g h => by
    show f P.m ^^^ mtA P.a (mtJoin P.r (f 0) (f 1)) = g P.m ^^^ mtA P.a (mtJoin P.r (g 0) (g 1))
    rw [h _ hm, h 0 (by omega), h 1 (by omega)]) x
  have hX : IsMt P (blockSeq 0 P.n G x) := fun k => hadd k
  have h0 : ∀ j < P.n, x[j]? = some (blockSeq 0 P.n G x j) := by
    intro j hj
    rw [blockSeq_lt _ _ _ _ hj, List.getD_eq_getElem _ _ (by omega), List.getElem?_eq_getElem (by omega)]
  refine ⟨_, hX, IsMt.lt hv hX fun j hj => ?_, h0⟩
  have := h0 j hj
  exact hx _ (List.mem_of_getElem? this)

end Mt
end Boost.Random
