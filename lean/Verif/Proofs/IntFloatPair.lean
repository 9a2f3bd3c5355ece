import Verif.Model.RealDist
import Verif.Proofs.Rounding
import Verif.Proofs.DrawBind
import Verif.Proofs.LargeArithmetic

/-!
# `generate_int_float_pair`
-/

namespace Boost.Random
open Spec Finset
namespace RealDist

/-! ## The digits that are read -/

/-- The first value below `2^m`. -/
def dg (E : EngInfo) (m : Nat) : List Int → Draw Nat
  | [] => .more
  | x :: xs => if dig E x < 2 ^ m then .done (dig E x) xs else dg E m xs

theorem digitMask_eq {wb bits : Nat} (h1 : 1 ≤ bits) (h2 : bits ≤ wb) : digitMask wb bits = 2 ^ bits - 1 := by
  unfold digitMask
  have e : 2 <<< (bits - 1) = 2 ^ bits := by
    rw [Nat.shiftLeft_eq, ← pow_succ']
    congr 1
    omega
  rw [e]
  have hp := Nat.two_pow_pos bits
  rcases eq_or_lt_of_le h2 with h | h
  · subst h
    rw [Nat.mod_self, Nat.zero_add, Nat.mod_eq_of_lt (by omega)]
  · have hlt : 2 ^ bits < 2 ^ wb := Nat.pow_lt_pow_right (by omega) h
    rw [Nat.mod_eq_of_lt hlt, show 2 ^ bits + 2 ^ wb - 1 = 2 ^ bits - 1 + 2 ^ wb by omega, Nat.add_mod_right, Nat.mod_eq_of_lt (by omega)]

theorem and_high {wb m y : Nat} (hm : m ≤ wb) (hy : y < 2 ^ wb) : y &&& (2 ^ wb - 1 - (2 ^ m - 1)) = y - y % 2 ^ m := by
  have h1 : 2 ^ wb - 1 - (2 ^ m - 1) = (2 ^ (wb - m) - 1) <<< m := by
    rw [Nat.shiftLeft_eq, Nat.sub_mul, ← pow_add, show wb - m + m = wb by omega]
    have := Nat.two_pow_pos m
    omega
  rw [h1]
  have h2 : y - y % 2 ^ m = (y >>> m) <<< m := by
    rw [Nat.shiftLeft_eq, Nat.shiftRight_eq_div_pow]
    have := Nat.div_add_mod y (2 ^ m)
    rw [mul_comm] at this
    omega
  rw [h2]
  apply Nat.eq_of_testBit_eq
  intro i
  rw [Nat.testBit_and, Nat.testBit_shiftLeft, Nat.testBit_shiftLeft, Nat.testBit_shiftRight, Nat.testBit_two_pow_sub_one]
  by_cases h : i ≥ m
  · simp only [h, decide_true, Bool.true_and]
    rw [show m + (i - m) = i by omega]
    by_cases h3 : i < wb
    · simp [show i - m < wb - m by omega]
    · rw [Nat.testBit_lt_two_pow (lt_of_lt_of_le hy (Nat.pow_le_pow_right (by omega) (by omega)))]
      rfl
  · simp [h]

section
variable {E : EngInfo} (hE : EngOK E)
include hE

theorem oneDigit_eq {m : Nat} (h1 : 1 ≤ m) (hb : 2 ^ m ≤ E.b) (hb' : E.b < 2 ^ (m + 1)) : ∀ xs, Outputs E xs → oneDigit E m xs = dg E m xs := by
  have hble := EngInfo.b_le hE
  have hb2 := UniformInt.EngInfo.b_ge hE
  have hm : m ≤ E.ty.bits := by
    by_contra hlt
    have : 2 ^ E.ty.bits < 2 ^ m := Nat.pow_lt_pow_right (by omega) (by omega)
    omega
  intro xs
  induction xs with
  | nil => intro _; rfl
  | cons x xs ih =>
    intro hO
    have hx := hO x (by simp)
    unfold oneDigit dg
    rw [EngInfo.brange_eq hE, EngInfo.diff_eq hE hx]
    simp only
    rw [digitMask_eq h1 hm, show E.b - 1 + 1 = E.b by omega, ih fun z hz => hO z (by simp [hz])]
    have hd := dig_lt hx
    have hpm := Nat.two_pow_pos m
    rw [Nat.and_two_pow_sub_one_eq_mod]
    rcases eq_or_lt_of_le hble with he | hlt
    · have hme : m = E.ty.bits := by
        by_contra hne
        have : 2 ^ (m + 1) ≤ 2 ^ E.ty.bits := Nat.pow_le_pow_right (by omega) (by omega)
        omega
      rw [he, Nat.mod_self, Nat.zero_and]
      rw [if_neg (by simp), if_pos (by rw [hme]; omega), Nat.mod_eq_of_lt (by rw [hme]; omega)]
    · rw [Nat.mod_eq_of_lt hlt, and_high hm hlt]
      have e : E.b - E.b % 2 ^ m = 2 ^ m := by
        have h3 : E.b / 2 ^ m = 1 := by
          rw [pow_succ] at hb'
          exact Nat.div_eq_of_lt_le (by omega) (by omega)
        have := Nat.div_add_mod E.b (2 ^ m)
        rw [h3] at this
        omega
      rw [e]
      by_cases h : dig E x < 2 ^ m
      · rw [if_neg (by omega), if_pos h, Nat.mod_eq_of_lt h]
      · rw [if_pos (by omega), if_neg h]

end

theorem dg_local (E : EngInfo) (m : Nat) : LocalOn E (dg E m) := by
  intro xs
  induction xs with
  | nil => intro u rest _ h; cases h
  | cons x xs ih =>
    intro u rest hO h
    unfold dg at h
    by_cases hd : dig E x < 2 ^ m
    · rw [if_pos hd] at h
      cases h
      exact ⟨[x], rfl, fun ys _ => by show dg E m (x :: ys) = _; unfold dg; rw [if_pos hd]⟩
    · rw [if_neg hd] at h
      obtain ⟨pre, e1, e2⟩ := ih u rest (fun z hz => hO z (by simp [hz])) h
      refine ⟨x :: pre, by rw [e1]; rfl, fun ys hys => ?_⟩
      show dg E m (x :: (pre ++ ys)) = _
      unfold dg
      rw [if_neg hd]
      exact e2 ys hys

theorem dg_lt (E : EngInfo) (m : Nat) : ∀ xs u rest, dg E m xs = .done u rest → u < 2 ^ m := by
  intro xs
  induction xs with
  | nil => intro u rest h; cases h
  | cons x xs ih =>
    intro u rest h
    unfold dg at h
    by_cases hd : dig E x < 2 ^ m
    · rw [if_pos hd] at h
      cases h
      exact hd
    · rw [if_neg hd] at h
      exact ih u rest h

theorem dg_ne_ub (E : EngInfo) (m : Nat) : ∀ xs, dg E m xs ≠ .ub := by
  intro xs
  induction xs with
  | nil => intro h; cases h
  | cons x xs ih => unfold dg; split; simp; exact ih

/-- The number of ways to read one digit with `n` values. -/
def digWays (E : EngInfo) (m n : Nat) : Nat := cnt E (dg E m) n 0

theorem dg_uniform {E : EngInfo} {m : Nat} (hb : 2 ^ m ≤ E.b) (n : Nat) : ∀ u, u < 2 ^ m → cnt E (dg E m) n u = digWays E m n := by
  have key : ∀ n u, u < 2 ^ m → cnt E (dg E m) (n + 1) u = (if n = 0 then 1 else 0) + (E.b - 2 ^ m) * cnt E (dg E m) n u := by
    intro n u hu
    conv_lhs => unfold cnt
    have hs : ∀ d ∈ range E.b, cnt E (fun xs => dg E m ((E.min + (d : Int)) :: xs)) n u =
        if d < 2 ^ m then (if n = 0 ∧ d = u then 1 else 0) else cnt E (dg E m) n u := by
      intro d _
      have : (fun xs => dg E m ((E.min + (d : Int)) :: xs)) = fun xs => if d < 2 ^ m then .done d xs else dg E m xs := by
        funext xs
        have hd : dig E (E.min + (d : Int)) = d := by unfold dig; omega
        rw [dg, hd]
      rw [this]
      by_cases h : d < 2 ^ m
      · simp only [h, if_true]
        exact cnt_done E d n u
      · simp only [h, if_false]
    rw [sum_congr rfl hs, sum_ite]
    have f1 : (range E.b).filter (fun d => d < 2 ^ m) = range (2 ^ m) := by
      ext d; simp only [mem_filter, mem_range]; omega
    have f2 : ((range E.b).filter (fun d => ¬ d < 2 ^ m)).card = E.b - 2 ^ m := by
      have := card_filter_add_card_filter_not (s := range E.b) (fun d => d < 2 ^ m)
      rw [f1, card_range, card_range] at this
      omega
    rw [f1, sum_const, f2, smul_eq_mul]
    congr 1
    by_cases hn : n = 0
    · simp only [hn, true_and, if_true]
      rw [sum_ite_eq' (range (2 ^ m)) u, if_pos (mem_range.2 hu)]
    · simp [hn]
  unfold digWays
  intro u hu
  induction n with
  | zero => rfl
  | succ n ih => rw [key n u hu, key n 0 (Nat.two_pow_pos m), ih]

section
variable {α : Type} [DecidableEq α]

theorem cnt_dg_bind {E : EngInfo} (hE : E.min ≤ E.max) {m : Nat} (hb : 2 ^ m ≤ E.b) (f : Nat → List Int → Draw α) (n : Nat) (v : α) :
    cnt E (fun xs => (dg E m xs).bind f) n v = ∑ k ∈ range (n + 1), digWays E m k * ∑ u ∈ range (2 ^ m), cnt E (f u) (n - k) v := by
  rw [cnt_bind hE f (range (2 ^ m)) n v (dg E m) (dg_local E m) fun xs u rest _ h => mem_range.2 (dg_lt E m xs u rest h)]
  apply sum_congr rfl
  intro k _
  rw [mul_sum]
  apply sum_congr rfl
  intro u hu
  rw [dg_uniform hb k u (mem_range.1 hu)]

end

/-! ## The pair in terms of integers -/

/-- The rest of the fraction: `ks` bits of further digits, above `i` bits `N`. -/
def fracTail (E : EngInfo) (m : Nat) : (ks : List Nat) → (N i : Nat) → List Int → Draw Nat
  | [], N, _, xs => .done N xs
  | k :: ks, N, i, xs => (dg E m xs).bind fun u xs => fracTail E m ks (N + u % 2 ^ k * 2 ^ i) (i + k) xs

/-- The number of ways to read the rest of the fraction. -/
def fracWays (E : EngInfo) (m : Nat) : List Nat → Nat → Nat
  | [], n => if n = 0 then 1 else 0
  | k :: ks, n => ∑ j ∈ range (n + 1), digWays E m j * (2 ^ (m - k) * fracWays E m ks (n - j))

theorem fracTail_local (E : EngInfo) (m : Nat) : ∀ ks N i, LocalOn E (fracTail E m ks N i) := by
  intro ks
  induction ks with
  | nil => intro N i; exact LocalOn.done N
  | cons k ks ih => intro N i; exact LocalOn.bind (dg_local E m) fun u => ih _ _

theorem low_add_lt {N i u k : Nat} (hN : N < 2 ^ i) (hu : u < 2 ^ k) : N + u * 2 ^ i < 2 ^ (i + k) := by
  rw [pow_add]
  calc N + u * 2 ^ i < 2 ^ i + u * 2 ^ i := by omega
    _ = 2 ^ i * (u + 1) := by ring
    _ ≤ 2 ^ i * 2 ^ k := Nat.mul_le_mul_left _ hu

theorem fracTail_lt (E : EngInfo) (m : Nat) : ∀ ks N i xs v rest, N < 2 ^ i → fracTail E m ks N i xs = .done v rest → v < 2 ^ (i + ks.sum) := by
  intro ks
  induction ks with
  | nil =>
    intro N i xs v rest hN h
    cases h
    simpa using hN
  | cons k ks ih =>
    intro N i xs v rest hN h
    unfold fracTail at h
    cases hd : dg E m xs with
    | more => rw [hd] at h; cases h
    | ub => rw [hd] at h; cases h
    | done u mid =>
      rw [hd] at h
      have := ih _ _ _ _ _ (low_add_lt hN (Nat.mod_lt u (Nat.two_pow_pos k))) h
      rwa [List.sum_cons, ← add_assoc]

theorem fracTail_ne_ub (E : EngInfo) (m : Nat) : ∀ ks N i xs, fracTail E m ks N i xs ≠ .ub := by
  intro ks
  induction ks with
  | nil => intro N i xs h; cases h
  | cons k ks ih =>
    intro N i xs h
    unfold fracTail at h
    cases hd : dg E m xs with
    | more => rw [hd] at h; cases h
    | ub => exact dg_ne_ub E m xs hd
    | done u mid => rw [hd] at h; exact ih _ _ _ h

theorem card_mod_eq {m k t : Nat} (hk : k ≤ m) (ht : t < 2 ^ k) : ((range (2 ^ m)).filter fun u => u % 2 ^ k = t).card = 2 ^ (m - k) := by
  rw [show 2 ^ (m - k) = (range (2 ^ (m - k))).card from (card_range _).symm]
  have hmk : 2 ^ m = 2 ^ k * 2 ^ (m - k) := by rw [← pow_add]; congr 1; omega
  refine (card_bij (fun a _ => t + 2 ^ k * a) ?_ ?_ ?_).symm
  · intro a ha
    rw [mem_range] at ha
    rw [mem_filter, mem_range]
    refine ⟨?_, by rw [Nat.add_mul_mod_self_left, Nat.mod_eq_of_lt ht]⟩
    calc t + 2 ^ k * a < 2 ^ k + 2 ^ k * a := by omega
      _ = 2 ^ k * (a + 1) := by ring
      _ ≤ 2 ^ k * 2 ^ (m - k) := Nat.mul_le_mul_left _ ha
      _ = 2 ^ m := hmk.symm
  · intro a _ b _ h
    have := Nat.two_pow_pos k
    have : 2 ^ k * a = 2 ^ k * b := by omega
    exact Nat.eq_of_mul_eq_mul_left (by omega) this
  · intro u hu
    rw [mem_filter, mem_range] at hu
    refine ⟨u / 2 ^ k, ?_, ?_⟩
    · rw [mem_range, Nat.div_lt_iff_lt_mul (Nat.two_pow_pos k), mul_comm, ← hmk]; exact hu.1
    · rw [← hu.2]; exact Nat.mod_add_div u (2 ^ k)

theorem mod_split {v N i u k : Nat} (hN : N < 2 ^ i) :
    v % 2 ^ (i + k) = N + u * 2 ^ i ↔ v % 2 ^ i = N ∧ u = v / 2 ^ i % 2 ^ k := by
  rw [pow_add, Nat.mod_mul]
  have hp := Nat.two_pow_pos i
  have h1 := Nat.mod_lt v hp
  generalize v % 2 ^ i = a at *
  generalize v / 2 ^ i % 2 ^ k = b at *
  constructor
  · intro h
    have h2 : (a + 2 ^ i * b) % 2 ^ i = (N + u * 2 ^ i) % 2 ^ i := by rw [h]
    rw [Nat.add_mul_mod_self_left, Nat.add_mul_mod_self_right, Nat.mod_eq_of_lt h1, Nat.mod_eq_of_lt hN] at h2
    subst h2
    have : 2 ^ i * b = 2 ^ i * u := by rw [mul_comm u] at h; omega
    exact ⟨rfl, (Nat.eq_of_mul_eq_mul_left hp this).symm⟩
  · rintro ⟨rfl, rfl⟩
    ring

theorem cnt_fracTail {E : EngInfo} (hE : E.min ≤ E.max) {m : Nat} (hb : 2 ^ m ≤ E.b) : ∀ (ks : List Nat) (N i n v : Nat),
    (∀ k ∈ ks, k ≤ m) → N < 2 ^ i → v < 2 ^ (i + ks.sum) →
    cnt E (fracTail E m ks N i) n v = if v % 2 ^ i = N then fracWays E m ks n else 0 := by
  intro ks
  induction ks with
  | nil =>
    intro N i n v _ hN hv
    have e : fracTail E m [] N i = fun xs => Draw.done N xs := by funext xs; rfl
    rw [e, cnt_done, fracWays]
    rw [List.sum_nil, add_zero] at hv
    rw [Nat.mod_eq_of_lt hv]
    by_cases h1 : n = 0 <;> by_cases h2 : N = v <;> simp [h1, h2, eq_comm]
  | cons k ks ih =>
    intro N i n v hk hN hv
    have e : fracTail E m (k :: ks) N i = fun xs => (dg E m xs).bind fun u xs => fracTail E m ks (N + u % 2 ^ k * 2 ^ i) (i + k) xs := by
      funext xs; rfl
    rw [e, cnt_dg_bind hE hb]
    have hs : ∀ j, ∑ u ∈ range (2 ^ m), cnt E (fracTail E m ks (N + u % 2 ^ k * 2 ^ i) (i + k)) (n - j) v =
        if v % 2 ^ i = N then 2 ^ (m - k) * fracWays E m ks (n - j) else 0 := by
      intro j
      have h1 : ∀ u ∈ range (2 ^ m), cnt E (fracTail E m ks (N + u % 2 ^ k * 2 ^ i) (i + k)) (n - j) v =
          if u % 2 ^ k = v / 2 ^ i % 2 ^ k then (if v % 2 ^ i = N then fracWays E m ks (n - j) else 0) else 0 := by
        intro u _
        have hu := Nat.mod_lt u (Nat.two_pow_pos k)
        rw [ih _ _ _ v (fun k' hk' => hk k' (by simp [hk'])) (low_add_lt hN hu) (by rwa [List.sum_cons, ← add_assoc] at hv)]
        by_cases h : v % 2 ^ i = N <;> by_cases h' : u % 2 ^ k = v / 2 ^ i % 2 ^ k
        · rw [if_pos ((mod_split hN).2 ⟨h, h'⟩), if_pos h', if_pos h]
        · rw [if_neg (fun hh => h' ((mod_split hN).1 hh).2), if_neg h']
        · rw [if_neg (fun hh => h ((mod_split hN).1 hh).1), if_pos h', if_neg h]
        · rw [if_neg (fun hh => h ((mod_split hN).1 hh).1), if_neg h']
      rw [sum_congr rfl h1, ← sum_filter, sum_const, card_mod_eq (hk k (by simp)) (Nat.mod_lt _ (Nat.two_pow_pos k)), smul_eq_mul]
      split <;> simp
    simp only [hs]
    rw [fracWays]
    by_cases h : v % 2 ^ i = N
    · simp only [h, if_true]
    · simp only [h, if_false, mul_zero, sum_const_zero]

/-- The pair, the fraction as a number of units. -/
def pairNat (E : EngInfo) (m s : Nat) (ks : List Nat) : (n bucket : Nat) → List Int → Draw (Nat × Nat)
  | 0, b, xs => (dg E m xs).bind fun u xs => (fracTail E m ks (u / 2 ^ s) (m - s) xs).bind fun N xs => .done (N, b * 2 ^ s + u % 2 ^ s) xs
  | n + 1, b, xs => (dg E m xs).bind fun u xs => pairNat E m s ks n (b * 2 ^ m + u) xs

/-- The number of ways to read a pair. -/
def pairWays (E : EngInfo) (m s : Nat) (ks : List Nat) : Nat → Nat → Nat
  | 0, n => ∑ j ∈ range (n + 1), digWays E m j * fracWays E m ks (n - j)
  | t + 1, n => ∑ j ∈ range (n + 1), digWays E m j * pairWays E m s ks t (n - j)

theorem pairNat_spec (E : EngInfo) (m s : Nat) (hs : s ≤ m) (ks : List Nat) : ∀ n b xs, pairNat E m s ks n b xs ≠ .ub ∧
    ∀ v rest, pairNat E m s ks n b xs = .done v rest → v.1 < 2 ^ (m - s + ks.sum) ∧ v.2 < (b + 1) * 2 ^ (m * n + s) := by
  intro n
  induction n with
  | zero =>
    intro b xs
    unfold pairNat
    cases hd : dg E m xs with
    | more => exact ⟨by rintro ⟨⟩, by rintro _ _ ⟨⟩⟩
    | ub => exact absurd hd (dg_ne_ub E m xs)
    | done u mid =>
      simp only [Draw.bind]
      have hu := dg_lt E m _ _ _ hd
      have hq : u / 2 ^ s < 2 ^ (m - s) := by
        rw [Nat.div_lt_iff_lt_mul (Nat.two_pow_pos s), ← pow_add, show m - s + s = m by omega]; exact hu
      cases hf : fracTail E m ks (u / 2 ^ s) (m - s) mid with
      | more => exact ⟨by rintro ⟨⟩, by rintro _ _ ⟨⟩⟩
      | ub => exact absurd hf (fracTail_ne_ub E m _ _ _ _)
      | done N r =>
        refine ⟨by rintro ⟨⟩, ?_⟩
        rintro _ _ ⟨⟩
        refine ⟨fracTail_lt E m _ _ _ _ _ _ hq hf, ?_⟩
        have := Nat.mod_lt u (Nat.two_pow_pos s)
        rw [Nat.mul_zero, Nat.zero_add, add_mul, one_mul]
        show b * 2 ^ s + u % 2 ^ s < _
        omega
  | succ n ih =>
    intro b xs
    unfold pairNat
    cases hd : dg E m xs with
    | more => exact ⟨by rintro ⟨⟩, by rintro _ _ ⟨⟩⟩
    | ub => exact absurd hd (dg_ne_ub E m xs)
    | done u mid =>
      simp only [Draw.bind]
      have hu := dg_lt E m _ _ _ hd
      refine ⟨(ih _ _).1, fun v rest h => ?_⟩
      obtain ⟨h1, h2⟩ := (ih _ _).2 v rest h
      refine ⟨h1, lt_of_lt_of_le h2 ?_⟩
      calc (b * 2 ^ m + u + 1) * 2 ^ (m * n + s) ≤ (b * 2 ^ m + 2 ^ m) * 2 ^ (m * n + s) := Nat.mul_le_mul_right _ (by omega)
        _ = (b + 1) * 2 ^ (m * (n + 1) + s) := by
          rw [show m * (n + 1) + s = m + (m * n + s) by ring, pow_add 2 m]; ring

theorem pairNat_local (E : EngInfo) (m s : Nat) (ks : List Nat) : ∀ n b, LocalOn E (pairNat E m s ks n b) := by
  intro n
  induction n with
  | zero =>
    intro b
    exact LocalOn.bind (dg_local E m) fun u => LocalOn.bind (fracTail_local E m _ _ _) fun N => LocalOn.done _
  | succ n ih => intro b; exact LocalOn.bind (dg_local E m) fun u => ih _

theorem bind_done_eq_map {α β : Type} (r : Draw α) (f : α → β) : (r.bind fun a xs => .done (f a) xs) = r.map f := by cases r <;> rfl

theorem split_iff {b s k x : Nat} (hx : x < 2 ^ s) : b * 2 ^ s + x = k ↔ k / 2 ^ s = b ∧ x = k % 2 ^ s := by
  have hp := Nat.two_pow_pos s
  constructor
  · rintro rfl
    rw [Nat.mul_comm, Nat.mul_add_div hp, Nat.div_eq_of_lt hx, Nat.mul_add_mod, Nat.mod_eq_of_lt hx]
    exact ⟨rfl, rfl⟩
  · rintro ⟨rfl, rfl⟩
    rw [mul_comm]; exact Nat.div_add_mod k (2 ^ s)

theorem cnt_pairNat {E : EngInfo} (hE : E.min ≤ E.max) {m s : Nat} (hs : s ≤ m) (hb : 2 ^ m ≤ E.b) (ks : List Nat) (hk : ∀ k ∈ ks, k ≤ m) :
    ∀ (t b n N k : Nat), N < 2 ^ (m - s + ks.sum) →
    cnt E (pairNat E m s ks t b) n (N, k) = if k / 2 ^ (m * t + s) = b then pairWays E m s ks t n else 0 := by
  intro t
  induction t with
  | zero =>
    intro b n N k hN
    have e : pairNat E m s ks 0 b = fun xs => (dg E m xs).bind fun u xs => (fracTail E m ks (u / 2 ^ s) (m - s) xs).bind
        fun N xs => .done (N, b * 2 ^ s + u % 2 ^ s) xs := by funext xs; rfl
    rw [e, cnt_dg_bind hE hb, Nat.mul_zero, Nat.zero_add]
    have hu0 : N % 2 ^ (m - s) * 2 ^ s + k % 2 ^ s < 2 ^ m := by
      have h1 := Nat.mod_lt N (Nat.two_pow_pos (m - s))
      have h2 := Nat.mod_lt k (Nat.two_pow_pos s)
      calc N % 2 ^ (m - s) * 2 ^ s + k % 2 ^ s < N % 2 ^ (m - s) * 2 ^ s + 2 ^ s := by omega
        _ = (N % 2 ^ (m - s) + 1) * 2 ^ s := by ring
        _ ≤ 2 ^ (m - s) * 2 ^ s := Nat.mul_le_mul_right _ h1
        _ = 2 ^ m := by rw [← pow_add]; congr 1; omega
    have key : ∀ j, ∑ u ∈ range (2 ^ m), cnt E (fun xs => (fracTail E m ks (u / 2 ^ s) (m - s) xs).bind
        fun N xs => .done (N, b * 2 ^ s + u % 2 ^ s) xs) (n - j) (N, k) = if k / 2 ^ s = b then fracWays E m ks (n - j) else 0 := by
      intro j
      have h1 : ∀ u ∈ range (2 ^ m), cnt E (fun xs => (fracTail E m ks (u / 2 ^ s) (m - s) xs).bind
          fun N xs => .done (N, b * 2 ^ s + u % 2 ^ s) xs) (n - j) (N, k) =
          if N % 2 ^ (m - s) * 2 ^ s + k % 2 ^ s = u then (if k / 2 ^ s = b then fracWays E m ks (n - j) else 0) else 0 := by
        intro u hu
        rw [mem_range] at hu
        have hp := Nat.two_pow_pos s
        have hm := Nat.mod_lt u hp
        have hq : u / 2 ^ s < 2 ^ (m - s) := by
          rw [Nat.div_lt_iff_lt_mul (Nat.two_pow_pos s), ← pow_add, show m - s + s = m by omega]; exact hu
        have hue : N % 2 ^ (m - s) * 2 ^ s + k % 2 ^ s = u ↔ N % 2 ^ (m - s) = u / 2 ^ s ∧ u % 2 ^ s = k % 2 ^ s := by
          rw [split_iff (Nat.mod_lt k hp)]
          constructor <;> rintro ⟨h1, h2⟩ <;> exact ⟨h1.symm, h2.symm⟩
        by_cases hK : b * 2 ^ s + u % 2 ^ s = k
        · obtain ⟨hb1, hb2⟩ := (split_iff hm).1 hK
          simp only [hK]
          have : (fun xs => (fracTail E m ks (u / 2 ^ s) (m - s) xs).bind fun N xs => Draw.done (N, k) xs) =
              fun xs => (fracTail E m ks (u / 2 ^ s) (m - s) xs).map fun N => (N, k) := by
            funext xs; exact bind_done_eq_map _ _
          rw [this, cnt_map E _ (fun N => (N, k)) N (fun xs a rest _ _ h => (Prod.mk.inj h).1) hE,
            cnt_fracTail hE hb ks _ _ _ _ hk hq hN, if_pos hb1]
          by_cases h : N % 2 ^ (m - s) = u / 2 ^ s
          · rw [if_pos h, if_pos (hue.2 ⟨h, hb2⟩)]
          · rw [if_neg h, if_neg (fun hh => h (hue.1 hh).1)]
        · rw [cnt_eq_zero hE]
          · by_cases h : N % 2 ^ (m - s) * 2 ^ s + k % 2 ^ s = u
            · rw [if_pos h, if_neg]
              intro hb1
              exact hK ((split_iff hm).2 ⟨hb1, (hue.1 h).2⟩)
            · rw [if_neg h]
          · intro xs _
            rw [bind_done_eq_map]
            cases fracTail E m ks (u / 2 ^ s) (m - s) xs with
            | more => simp [Draw.map]
            | ub => simp [Draw.map]
            | done a r => simp only [Draw.map, ne_eq, Draw.done.injEq, Prod.mk.injEq, not_and]; intro h; exact absurd h.2 hK
      rw [sum_congr rfl h1, sum_ite_eq, if_pos (mem_range.2 hu0)]
    simp only [key]
    rw [pairWays]
    by_cases h : k / 2 ^ s = b
    · simp only [h, if_true]
    · simp only [h, if_false, mul_zero, sum_const_zero]
  | succ t ih =>
    intro b n N k hN
    have e : pairNat E m s ks (t + 1) b = fun xs => (dg E m xs).bind fun u xs => pairNat E m s ks t (b * 2 ^ m + u) xs := by funext xs; rfl
    rw [e, cnt_dg_bind hE hb]
    have key : ∀ j, ∑ u ∈ range (2 ^ m), cnt E (pairNat E m s ks t (b * 2 ^ m + u)) (n - j) (N, k) =
        if k / 2 ^ (m * (t + 1) + s) = b then pairWays E m s ks t (n - j) else 0 := by
      intro j
      have h1 : ∀ u ∈ range (2 ^ m), cnt E (pairNat E m s ks t (b * 2 ^ m + u)) (n - j) (N, k) =
          if u = k / 2 ^ (m * t + s) % 2 ^ m then (if k / 2 ^ (m * (t + 1) + s) = b then pairWays E m s ks t (n - j) else 0) else 0 := by
        intro u hu
        rw [ih _ _ _ _ hN]
        have hd : k / 2 ^ (m * (t + 1) + s) = k / 2 ^ (m * t + s) / 2 ^ m := by
          rw [Nat.div_div_eq_div_mul, ← pow_add]; congr 2; ring
        have hiff := split_iff (b := b) (k := k / 2 ^ (m * t + s)) (mem_range.1 hu)
        rw [← hd] at hiff
        by_cases h : b * 2 ^ m + u = k / 2 ^ (m * t + s)
        · rw [if_pos h.symm, if_pos (hiff.1 h).2, if_pos (hiff.1 h).1]
        · rw [if_neg (Ne.symm h)]
          by_cases h2 : u = k / 2 ^ (m * t + s) % 2 ^ m
          · rw [if_pos h2, if_neg]
            intro hh
            exact h (hiff.2 ⟨hh, h2⟩)
          · rw [if_neg h2]
      rw [sum_congr rfl h1, sum_ite_eq', if_pos (mem_range.2 (Nat.mod_lt _ (Nat.two_pow_pos m)))]
    simp only [key]
    rw [pairWays]
    by_cases h : k / 2 ^ (m * (t + 1) + s) = b
    · simp only [h, if_true]
    · simp only [h, if_false, mul_zero, sum_const_zero]

/-! ## The code computes this pair -/

theorem Draw.bind_congr {α β : Type} {r : Draw α} {f g : α → List Int → Draw β} (h : ∀ u rest, r = .done u rest → f u rest = g u rest) :
    r.bind f = r.bind g := by
  cases r with
  | more => rfl
  | ub => rfl
  | done u rest => exact h u rest rfl

theorem Draw.bind_assoc {α β γ : Type} (r : Draw α) (f : α → List Int → Draw β) (g : β → List Int → Draw γ) :
    (r.bind f).bind g = r.bind fun u xs => (f u xs).bind g := by cases r <;> rfl

theorem Draw.map_bind {α β γ : Type} (r : Draw α) (f : α → List Int → Draw β) (g : β → γ) :
    (r.bind f).map g = r.bind fun u xs => (f u xs).map g := by cases r <;> rfl

theorem Draw.bind_map {α β γ : Type} (r : Draw α) (f : α → β) (g : β → List Int → Draw γ) :
    (r.map f).bind g = r.bind fun u xs => g (f u) xs := by cases r <;> rfl

theorem dg_outputs {E : EngInfo} {m : Nat} {xs : List Int} (hO : Outputs E xs) {u : Nat} {rest : List Int} (h : dg E m xs = .done u rest) :
    Outputs E rest := by
  obtain ⟨pre, e, _⟩ := dg_local E m xs u rest hO h
  rw [e] at hO
  exact Outputs.right hO

/-- The widths of the digits of the fraction after the first. -/
def tailWidths (m D : Nat) : List Nat := if D = 0 then [] else List.replicate (D / m) m ++ [D % m]

theorem tailWidths_sum {m D : Nat} : (tailWidths m D).sum = D := by
  unfold tailWidths
  split
  · rename_i h; rw [h]; rfl
  · rw [List.sum_append, List.sum_replicate, List.sum_singleton, smul_eq_mul, mul_comm]
    exact Nat.div_add_mod D m

theorem tailWidths_le {m D : Nat} (hm : 0 < m) : ∀ k ∈ tailWidths m D, k ≤ m := by
  intro k hk
  unfold tailWidths at hk
  split at hk
  · simp at hk
  · rcases List.mem_append.1 hk with h | h
    · rw [(List.mem_replicate.1 h).2]
    · rw [List.mem_singleton.1 h]; exact (Nat.mod_lt D hm).le

theorem shl1_eq' {wb k m : Nat} (hm : m ≤ wb) (h : k < m) : shl1 wb k = some (2 ^ k) := by
  unfold shl1
  split
  · rw [if_pos (by omega)]
  · rw [if_pos (by omega)]

section
variable {digits : Nat} {fl : ℚ → ℚ} (H : Rounding digits fl) (h1 : 1 ≤ digits)
include H

theorem fl_nat {n : Nat} (h : n < 2 ^ digits) : fl n = n := H.exact _ (Representable.natCast h)
theorem fl_scaled {n : Nat} (h : n < 2 ^ digits) (k : Nat) : fl ((n : ℚ) / 2 ^ k) = (n : ℚ) / 2 ^ k := H.exact _ (Representable.scaled h k)

include h1
theorem fl_two_pow (k : Nat) : fl (2 ^ k) = 2 ^ k := H.exact _ (Representable.two_pow h1 k)
theorem fl_inv (k : Nat) : fl (1 / 2 ^ k) = 1 / 2 ^ k := H.exact _ (Representable.inv_two_pow h1 k)
theorem fl_one : fl 1 = 1 := H.exact _ (Representable.one h1)
theorem fl_half_div (k : Nat) (hk : 1 ≤ k) : fl (fl (1 / 2) / fl (((2 ^ (k - 1) : Nat)) : ℚ)) = 1 / 2 ^ k := by
  have e := fl_inv H h1 1
  rw [pow_one] at e
  rw [e]
  push_cast
  rw [fl_two_pow H h1, show (1 / 2 / 2 ^ (k - 1) : ℚ) = 1 / 2 ^ k by
    rw [div_div, ← pow_succ', show k - 1 + 1 = k by omega]]
  exact fl_inv H h1 k

theorem step_exact {N i u k : Nat} (hN : N < 2 ^ i) (hu : u < 2 ^ k) (hik : i + k ≤ digits) (hk : 1 ≤ k) :
    fl (fl ((N : ℚ) / 2 ^ i + fl (u : ℚ)) * fl (fl (1 / 2) / fl (((2 ^ (k - 1) : Nat)) : ℚ))) = ((N + u * 2 ^ i : Nat) : ℚ) / 2 ^ (i + k) := by
  have hlt := low_add_lt hN hu
  have hlt' : N + u * 2 ^ i < 2 ^ digits := lt_of_lt_of_le hlt (Nat.pow_le_pow_right (by omega) hik)
  have hud : u < 2 ^ digits := lt_of_lt_of_le hu (Nat.pow_le_pow_right (by omega) (by omega))
  rw [fl_half_div H h1 k hk, fl_nat H hud,
    show (N : ℚ) / 2 ^ i + u = ((N + u * 2 ^ i : Nat) : ℚ) / 2 ^ i by
      push_cast
      rw [add_div, mul_div_cancel_right₀ _ (by positivity)], fl_scaled H hlt' i,
    show ((N + u * 2 ^ i : Nat) : ℚ) / 2 ^ i * (1 / 2 ^ k) = ((N + u * 2 ^ i : Nat) : ℚ) / 2 ^ (i + k) by
      rw [div_mul_div_comm, mul_one, pow_add], fl_scaled H hlt' (i + k)]

variable {E : EngInfo} (hE : EngOK E) {m : Nat} (hm : 1 ≤ m) (hb : 2 ^ m ≤ E.b) (hb' : E.b < 2 ^ (m + 1)) (hmb : m ≤ E.ty.bits)
include hE hm hb hb' hmb

theorem fraction_eq (w : Nat) : ∀ (fuel i N : Nat) (xs : List Int), Outputs E xs → N < 2 ^ i → i < digits → digits - i ≤ fuel → ¬ m ∣ digits - i →
    m - w % m < digits → (digits + w % m - m) % m = (digits - i) % m →
    (fractionDigits fl E digits m fuel i ((N : ℚ) / 2 ^ i) xs).bind (lastDigit fl E digits w m) =
      (fracTail E m (tailWidths m (digits - i)) N i xs).map fun v : Nat => (v : ℚ) / 2 ^ digits := by
  intro fuel
  induction fuel with
  | zero => intro i N xs _ _ h2 h3; omega
  | succ f ih =>
    intro i N xs hO hN hi hf hdvd hM hrem
    unfold fractionDigits
    by_cases hlt : i + m < digits
    · rw [if_pos hlt, oneDigit_eq hE hm hb hb' xs hO]
      have et : tailWidths m (digits - i) = m :: tailWidths m (digits - (i + m)) := by
        unfold tailWidths
        rw [if_neg (by omega), if_neg (by omega)]
        have : digits - i = digits - (i + m) + m := by omega
        rw [this, Nat.add_div_right _ (by omega), Nat.add_mod_right]
        rfl
      rw [et, Draw.bind_assoc]
      conv_rhs => rw [fracTail, Draw.map_bind]
      apply Draw.bind_congr
      intro u rest hu
      have hul := dg_lt E m _ _ _ hu
      rw [shl1_eq' hmb (by omega)]
      simp only
      rw [step_exact H h1 hN hul (by omega) hm, Nat.mod_eq_of_lt hul]
      refine ih (i + m) _ rest (dg_outputs hO hu) (low_add_lt hN hul) hlt (by omega) ?_ hM ?_
      · intro hd
        apply hdvd
        rw [show digits - i = digits - (i + m) + m by omega]
        exact Nat.dvd_add hd (dvd_refl m)
      · rw [hrem, show digits - i = digits - (i + m) + m by omega, Nat.add_mod_right]
    · rw [if_neg hlt]
      have hne : digits - i ≠ m := by rintro h; exact hdvd (by rw [h])
      have hD : digits - i < m := by omega
      have et : tailWidths m (digits - i) = [digits - i] := by
        unfold tailWidths
        rw [if_neg (by omega), Nat.div_eq_of_lt hD, Nat.mod_eq_of_lt hD]
        rfl
      rw [et]
      simp only [Draw.bind]
      unfold lastDigit
      rw [if_pos hM, hrem, Nat.mod_eq_of_lt hD]
      simp only
      rw [oneDigit_eq hE hm hb hb' xs hO, fracTail]
      rw [Draw.map_bind]
      apply Draw.bind_congr
      intro u rest hu
      rw [if_neg (by omega), shl1_eq' hmb (by omega), digitMask_eq (by omega) (by omega), Nat.and_two_pow_sub_one_eq_mod]
      simp only
      rw [step_exact H h1 hN (Nat.mod_lt _ (Nat.two_pow_pos _)) (by omega) (by omega), show i + (digits - i) = digits by omega]
      rfl

omit H h1 hmb in
theorem bucketDigits_eq {n w : Nat} (hw : w ≤ 30) (hn : m * n ≤ w) (s : Nat) (ks : List Nat) (g : Nat → List Int → Draw (ℚ × Nat)) (F : Nat × Nat → ℚ × Nat)
    (hg : ∀ b xs, Outputs E xs → b < 2 ^ (m * n) → g b xs = (pairNat E m s ks 0 b xs).map F) :
    ∀ (t b : Nat) (xs : List Int), Outputs E xs → t ≤ n → b < 2 ^ (m * (n - t)) →
      (bucketDigits E m t b xs).bind g = (pairNat E m s ks t b xs).map F := by
  intro t
  induction t with
  | zero =>
    intro b xs hO _ hb0
    unfold bucketDigits
    exact hg b xs hO hb0
  | succ t ih =>
    intro b xs hO ht hb0
    unfold bucketDigits pairNat
    rw [oneDigit_eq hE hm hb hb' xs hO, Draw.bind_assoc, Draw.map_bind]
    apply Draw.bind_congr
    intro u rest hu
    have hul := dg_lt E m _ _ _ hu
    have hmn : m ≤ m * n := by
      calc m = m * 1 := (mul_one m).symm
        _ ≤ m * n := Nat.mul_le_mul_left m (by omega)
    have hpow : b * 2 ^ m + u < 2 ^ (m * (n - t)) := by
      rw [show n - t = n - (t + 1) + 1 by omega, Nat.mul_add, mul_one, pow_add]
      calc b * 2 ^ m + u < b * 2 ^ m + 2 ^ m := by omega
        _ = (b + 1) * 2 ^ m := by ring
        _ ≤ 2 ^ (m * (n - (t + 1))) * 2 ^ m := Nat.mul_le_mul_right _ hb0
    have hle : 2 ^ (m * (n - t)) ≤ 2 ^ 30 := Nat.pow_le_pow_right (by omega) (le_trans (Nat.mul_le_mul_left m (by omega : n - t ≤ n)) (by omega))
    have hsh : shlInt b m = some (b * 2 ^ m) := by
      unfold shlInt
      rw [if_pos]
      refine ⟨by omega, ?_⟩
      have h3 : b * 2 ^ m < 2 ^ 30 := lt_of_le_of_lt (Nat.le_add_right _ u) (lt_of_lt_of_le hpow hle)
      exact lt_trans h3 (by norm_num)
    rw [hsh]
    simp only
    rw [← Nat.shiftLeft_eq, ← Nat.shiftLeft_add_eq_or_of_lt hul, Nat.shiftLeft_eq]
    exact ih _ rest (dg_outputs hO hu) (by omega) hpow

omit H h1 hE hm hb hb' hmb in
theorem integerLog2_range (hE : EngOK E) : (if E.b - 1 = 2 ^ E.ty.bits - 1 then E.ty.bits else integerLog2 E.ty.bits (E.b - 1 + 1)) = Nat.log2 E.b := by
  have hble := EngInfo.b_le hE
  have hb2 := UniformInt.EngInfo.b_ge hE
  by_cases h : E.b = 2 ^ E.ty.bits
  · rw [h, if_pos rfl, Nat.log2_two_pow]
  · rw [if_neg (by omega), show E.b - 1 + 1 = E.b by omega, integerLog2_eq _ _ (by omega) (by omega)]

/-- Clearing a bit. -/
def clearBit (N k : Nat) : Nat := if N.testBit k then N - 2 ^ k else N

omit H h1 hE hm hb hb' hmb in
theorem clearBit_shift (u s k : Nat) : (if u.testBit (k + s) then u - 2 ^ (k + s) else u) >>> s = clearBit (u / 2 ^ s) k := by
  unfold clearBit
  rw [← Nat.shiftRight_eq_div_pow, Nat.testBit_shiftRight, add_comm s k]
  split
  · rw [Nat.shiftRight_eq_div_pow, Nat.shiftRight_eq_div_pow, pow_add, mul_comm, Nat.sub_mul_div]
  · rfl

/-- The first digit makes up the whole fraction: what is made of it. -/
def bigFrac (fl : ℚ → ℚ) (digits M N : Nat) : ℚ := fl (fl (clearBit N (M - digits) : Nat) * (1 / 2 ^ M))

/-- The fraction in terms of its units. -/
def fracOf (fl : ℚ → ℚ) (digits M N : Nat) : ℚ := if M ≤ digits then (N : ℚ) / 2 ^ digits else bigFrac fl digits M N

theorem intFloatPair_eq (hlog : m = Nat.log2 E.b) {w : Nat} (hw1 : 1 ≤ w) (hw : w ≤ 30) (hsafe : m - w % m < digits → ¬ m ∣ digits + w)
    (xs : List Int) (hO : Outputs E xs) : intFloatPair fl E digits w xs =
      (pairNat E m (w % m) (tailWidths m (digits - (m - w % m))) (w / m) 0 xs).map
        fun p => (fracOf fl digits (m - w % m) p.1, p.2) := by
  have hs := Nat.mod_lt w (show 0 < m by omega)
  have hdm := Nat.div_add_mod w m
  unfold intFloatPair
  rw [EngInfo.brange_eq hE]
  simp only
  rw [integerLog2_range hE, ← hlog, if_neg (by omega)]
  refine bucketDigits_eq hE hm hb hb' hw (n := w / m) (by omega) _ _ _ _ ?_ _ _ xs hO (le_refl _) (by simp)
  intro b xs hO hb0
  have hble : b * 2 ^ (w % m) < 2 ^ 30 := by
    calc b * 2 ^ (w % m) < 2 ^ (m * (w / m)) * 2 ^ (w % m) := Nat.mul_lt_mul_of_pos_right hb0 (Nat.two_pow_pos _)
      _ = 2 ^ w := by rw [← pow_add, hdm]
      _ ≤ 2 ^ 30 := Nat.pow_le_pow_right (by omega) hw
  rw [pairNat, oneDigit_eq hE hm hb hb' xs hO, Draw.map_bind]
  apply Draw.bind_congr
  intro u rest hu
  have hul := dg_lt E m _ _ _ hu
  have hOr := dg_outputs hO hu
  have hq : u / 2 ^ (w % m) < 2 ^ (m - w % m) := by
    rw [Nat.div_lt_iff_lt_mul (Nat.two_pow_pos _), ← pow_add, show m - w % m + w % m = m by omega]; exact hul
  have hsh1 : shl1 E.ty.bits (w % m) = some (2 ^ (w % m)) := shl1_eq' hmb hs
  have hsh2 : shl1 E.ty.bits (m - w % m) = some (2 ^ (m - w % m)) := by
    by_cases h0 : w % m = 0
    · have : m ≤ w := Nat.le_of_dvd (by omega) (Nat.dvd_of_mod_eq_zero h0)
      unfold shl1
      by_cases h32 : E.ty.bits < 32
      · rw [if_pos h32, if_pos (by omega)]
      · rw [if_neg h32, if_pos (by omega)]
    · exact shl1_eq' hmb (by omega)
  have hsh3 : shlInt b (w % m) = some (b * 2 ^ (w % m)) := by
    unfold shlInt
    rw [if_pos ⟨by have := Nat.mod_le w m; omega, lt_trans hble (by norm_num)⟩]
  rw [hsh1, hsh2, hsh3]
  simp only
  have hbk : b * 2 ^ (w % m) ||| ((2 ^ (w % m) - 1) &&& u) = b * 2 ^ (w % m) + u % 2 ^ (w % m) := by
    rw [Nat.and_comm, Nat.and_two_pow_sub_one_eq_mod, ← Nat.shiftLeft_eq, ← Nat.shiftLeft_add_eq_or_of_lt (Nat.mod_lt _ (Nat.two_pow_pos _)), Nat.shiftLeft_eq]
  rw [hbk]
  have hmult : fl (1 / fl ((2 ^ (m - w % m) : Nat) : ℚ)) = 1 / 2 ^ (m - w % m) := by
    push_cast
    rw [fl_two_pow H h1, fl_inv H h1]
  rw [hmult, ← Draw.bind_assoc]
  by_cases hMd : m - w % m ≤ digits
  · rw [if_neg (fun h => absurd h.1 (by omega)), Nat.shiftRight_eq_div_pow]
    have hqd : u / 2 ^ (w % m) < 2 ^ digits := lt_of_lt_of_le hq (Nat.pow_le_pow_right (by omega) hMd)
    have hr : fl (fl ((u / 2 ^ (w % m) : Nat) : ℚ) * (1 / 2 ^ (m - w % m))) = ((u / 2 ^ (w % m) : Nat) : ℚ) / 2 ^ (m - w % m) := by
      rw [fl_nat H hqd, mul_one_div, fl_scaled H hqd]
    rw [hr]
    have key : (fractionDigits fl E digits m digits (m - w % m) (((u / 2 ^ (w % m) : Nat) : ℚ) / 2 ^ (m - w % m)) rest).bind (lastDigit fl E digits w m) =
        (fracTail E m (tailWidths m (digits - (m - w % m))) (u / 2 ^ (w % m)) (m - w % m) rest).map fun v : Nat => (v : ℚ) / 2 ^ digits := by
      rcases lt_or_eq_of_le hMd with hlt | heq
      · refine fraction_eq H h1 hE hm hb hb' hmb w digits (m - w % m) _ rest hOr hq hlt (by omega) ?_ hlt ?_
        · intro hd
          apply hsafe hlt
          have : digits + w = digits - (m - w % m) + m * (1 + w / m) := by rw [Nat.mul_add, mul_one]; omega
          rw [this]
          exact Nat.dvd_add hd (Dvd.intro _ rfl)
        · rw [show digits + w % m - m = digits - (m - w % m) by omega]
      · have e0 : digits - (m - w % m) = 0 := by omega
        rw [e0]
        have ef : ∀ f, fractionDigits fl E digits m f (m - w % m) (((u / 2 ^ (w % m) : Nat) : ℚ) / 2 ^ (m - w % m)) rest =
            .done (((u / 2 ^ (w % m) : Nat) : ℚ) / 2 ^ (m - w % m)) rest := by
          intro f
          cases f with
          | zero => rfl
          | succ f => unfold fractionDigits; rw [if_neg (by omega)]
        rw [ef]
        simp only [Draw.bind]
        unfold lastDigit
        rw [if_neg (by omega)]
        show _ = Draw.done (((u / 2 ^ (w % m) : Nat) : ℚ) / 2 ^ digits) rest
        rw [heq]
    have e1 : (fractionDigits fl E digits m digits (m - w % m) (((u / 2 ^ (w % m) : Nat) : ℚ) / 2 ^ (m - w % m)) rest).bind
        (fun r xs => lastDigit fl E digits w m r xs) = _ := key
    rw [e1, Draw.bind_map, Draw.map_bind]
    apply Draw.bind_congr
    intro N r _
    simp only [Draw.map]
    rw [fracOf, if_pos hMd]
  · have hgt : m - w % m > digits := by omega
    have hbit : m - digits = (m - w % m - digits) + w % m := by omega
    have hcond : (if m - w % m > digits ∧ u.testBit (m - digits) = true then u - 2 ^ (m - digits) else u) >>> (w % m) =
        clearBit (u / 2 ^ (w % m)) (m - w % m - digits) := by
      rw [← clearBit_shift]
      simp only [hgt, true_and]
      rw [hbit]
    rw [hcond]
    have ef : ∀ f r, fractionDigits fl E digits m f (m - w % m) r rest = .done r rest := by
      intro f r
      cases f with
      | zero => rfl
      | succ f => unfold fractionDigits; rw [if_neg (by omega)]
    rw [ef]
    have e0 : digits - (m - w % m) = 0 := by omega
    rw [e0]
    simp only [Draw.bind]
    unfold lastDigit
    rw [if_neg (by omega)]
    show _ = Draw.done (fracOf fl digits (m - w % m) (u / 2 ^ (w % m)), _) rest
    rw [fracOf, if_neg hMd, bigFrac]

omit hE hm hb hb' hmb in
theorem bigFrac_range {M N : Nat} (hM : digits < M) (hN : N < 2 ^ M) : 0 ≤ bigFrac fl digits M N ∧ bigFrac fl digits M N < 1 := by
  have h0 : fl 0 = 0 := H.exact _ (Representable.zero _)
  have hp := Nat.two_pow_pos digits
  have hpM : 2 ^ M = 2 ^ digits * 2 ^ (M - digits) := by rw [← pow_add]; congr 1; omega
  have hc : clearBit N (M - digits) ≤ (2 ^ digits - 1) * 2 ^ (M - digits) := by
    rw [Nat.sub_mul, one_mul, ← hpM]
    have hk := Nat.two_pow_pos (M - digits)
    unfold clearBit
    split
    · omega
    · rename_i hbit
      by_contra hlt
      push Not at hlt
      apply hbit
      have hd : N / 2 ^ (M - digits) = 2 ^ digits - 1 := by
        refine Nat.div_eq_of_lt_le ?_ ?_
        · rw [Nat.sub_mul, one_mul, ← hpM]; omega
        · rw [show 2 ^ digits - 1 + 1 = 2 ^ digits by omega, ← hpM]; exact hN
      rw [Nat.testBit_eq_decide_div_mod_eq, hd]
      have : 2 ^ digits = 2 * 2 ^ (digits - 1) := by rw [← pow_succ']; congr 1; omega
      have := Nat.two_pow_pos (digits - 1)
      rw [decide_eq_true_iff]
      omega
  have hup : fl ((clearBit N (M - digits) : Nat) : ℚ) ≤ ((2 ^ digits - 1 : Nat) : ℚ) * 2 ^ (M - digits) := by
    rw [← H.exact _ (Representable.scaledUp (N := 2 ^ digits - 1) (by omega) (M - digits))]
    apply H.mono
    exact_mod_cast hc
  have hlo : 0 ≤ fl ((clearBit N (M - digits) : Nat) : ℚ) := by
    rw [← h0]
    exact H.mono _ _ (by positivity)
  unfold bigFrac
  constructor
  · rw [← h0]
    exact H.mono _ _ (by positivity)
  · have h3 : fl ((clearBit N (M - digits) : Nat) : ℚ) * (1 / 2 ^ M) ≤ ((2 ^ digits - 1 : Nat) : ℚ) / 2 ^ digits := by
      rw [mul_one_div, div_le_div_iff₀ (by positivity) (by positivity)]
      have : (2 : ℚ) ^ M = 2 ^ digits * 2 ^ (M - digits) := by exact_mod_cast hpM
      rw [this]
      have := mul_le_mul_of_nonneg_right hup (show (0 : ℚ) ≤ 2 ^ digits by positivity)
      linarith
    refine lt_of_le_of_lt (H.mono _ _ h3) ?_
    rw [fl_scaled H (by omega) digits, div_lt_one (by positivity)]
    have : 2 ^ digits - 1 < 2 ^ digits := by omega
    exact_mod_cast this

end

end RealDist
end Boost.Random
