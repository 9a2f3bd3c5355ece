import Verif.Model.Splitmix
import Verif.Proofs.Period
import Verif.Spec.Run
import Verif.Spec.Engine
import Verif.Proofs.Adaptors
import Mathlib.Data.Nat.Digits.Lemmas

namespace Boost.Random.Splitmix
open Spec

/-- `z ^ (z >> s)` is injective for `s ≥ 1`. -/
theorem xorshift_inj {s : Nat} (hs : 0 < s) {x y : Nat} (h : x ^^^ x >>> s = y ^^^ y >>> s) : x = y := by
  have hd : (x ^^^ y) = (x ^^^ y) >>> s := by
    apply Nat.eq_of_testBit_eq
    intro i
    have := congrArg (fun n => Nat.testBit n i) h
    simp only [Nat.testBit_xor, Nat.testBit_shiftRight] at this ⊢
    revert this
    cases x.testBit i <;> cases y.testBit i <;> cases x.testBit (s + i) <;> cases y.testBit (s + i) <;> simp
  have h0 : x ^^^ y = 0 := by
    generalize x ^^^ y = d at hd
    rw [Nat.shiftRight_eq_div_pow] at hd
    by_contra hne
    have := Nat.div_lt_self (Nat.pos_of_ne_zero hne) (Nat.one_lt_two_pow (by omega : s ≠ 0))
    omega
  exact Nat.xor_eq_zero_iff.1 h0

theorem xorshift_lt {w s x : Nat} (hx : x < 2 ^ w) : x ^^^ x >>> s < 2 ^ w := by
  apply Nat.xor_lt_two_pow hx
  rw [Nat.shiftRight_eq_div_pow]
  exact lt_of_le_of_lt (Nat.div_le_self _ _) hx

/-- Multiplication by an odd number is injective modulo `2^w`. -/
theorem mul_odd_inj {w a x y : Nat} (ha : a % 2 = 1) (hx : x < 2 ^ w) (hy : y < 2 ^ w)
    (h : x * a % 2 ^ w = y * a % 2 ^ w) : x = y := by
  have hc : Nat.gcd (2 ^ w) a = 1 := by
    apply Nat.Coprime.pow_left
    rw [Nat.coprime_two_left, Nat.odd_iff]; exact ha
  have := Nat.ModEq.cancel_right_of_coprime hc h
  unfold Nat.ModEq at this
  rwa [Nat.mod_eq_of_lt hx, Nat.mod_eq_of_lt hy] at this

theorem mix_inj {x y : Nat} (hx : x < 2 ^ 64) (hy : y < 2 ^ 64) (h : mix x = mix y) : x = y := by
  unfold mix at h
  have h1 := xorshift_inj (by decide) h
  have h2 := mul_odd_inj (by decide) (xorshift_lt (Nat.mod_lt _ (by decide))) (xorshift_lt (Nat.mod_lt _ (by decide))) h1
  have h3 := xorshift_inj (by decide) h2
  have h4 := mul_odd_inj (by decide) (xorshift_lt hx) (xorshift_lt hy) h3
  exact xorshift_inj (by decide) h4

theorem mix_lt (x : Nat) : mix x < 2 ^ 64 := xorshift_lt (Nat.mod_lt _ (by decide))

/-- State after `n` calls. -/
def st (s n : Nat) : Nat := if n = 0 then s else (s + n * 0x9E3779B97F4A7C15) % 2 ^ 64

theorem st_succ (s n : Nat) : (st s n + 0x9E3779B97F4A7C15) % 2 ^ 64 = st s (n + 1) := by
  unfold st
  rw [if_neg (Nat.succ_ne_zero n)]
  split
  · rename_i h; rw [h, Nat.zero_add, Nat.one_mul]
  · rw [Nat.mod_add_mod, Nat.add_mul, Nat.one_mul, Nat.add_assoc]

theorem run_eq (s n : Nat) : run next n s = some ((List.range n).map (fun k => mix (st s (k + 1))), st s n) := by
  induction n with
  | zero => rfl
  | succ n ih =>
    rw [run_add, ih, Option.bind_some, run_one, List.range_succ]
    have h : next (st s n) = some (mix (st s (n + 1)), st s (n + 1)) := by rw [← st_succ]; rfl
    rw [h]
    simp

theorem discard_succ (z s : Nat) : discard (z + 1) s = (next s).bind fun p => discard z p.2 := by
  rw [discard]

theorem discard_eq (z s : Nat) : discard z s = stateAfter next z s := by
  induction z generalizing s with
  | zero => rw [discard, stateAfter_zero]
  | succ z ih =>
    rw [discard_succ, Nat.add_comm z 1, stateAfter_add, stateAfter_one]
    cases next s with
    | none => rfl
    | some p => rw [Option.map_some, Option.bind_some, Option.bind_some, ih]

theorem generate_eq (n s : Nat) : generate n s = run next n s := by
  induction n generalizing s with
  | zero => rfl
  | succ n ih =>
    simp only [generate, run, ih]
    cases next s with
    | none => rfl
    | some p =>
      simp only [Option.bind_some, Option.bind_eq_bind]
      cases run next n p.2 <;> rfl

/-! ### text -/

theorem foldl_map (ds : List Nat) (hd : ∀ d ∈ ds, d < 10) (n0 : Nat) :
    (ds.map Nat.digitChar).foldl (fun n c => 10 * n + (c.toNat - 48)) n0 =
      ds.foldl (fun n d => 10 * n + d) n0 := by
  induction ds generalizing n0 with
  | nil => rfl
  | cons d ds ih =>
    simp only [List.map_cons, List.foldl_cons]
    rw [ih (fun x hx => hd x (by simp [hx]))]
    have h : d < 10 := hd d (by simp)
    have : (Nat.digitChar d).toNat - 48 = d := by
      interval_cases d <;> decide
    rw [this]

theorem foldl_reverse (ds : List Nat) :
    ds.reverse.foldl (fun n d => 10 * n + d) 0 = Nat.ofDigits 10 ds := by
  induction ds with
  | nil => rfl
  | cons d ds ih =>
    rw [List.reverse_cons, List.foldl_append, ih]
    simp [Nat.ofDigits_cons, Nat.add_comm]

theorem decimal_value (n : Nat) :
    (decimal n).foldl (fun n c => 10 * n + (c.toNat - 48)) 0 = n := by
  unfold decimal
  split
  · rename_i h; rw [h]; decide
  · rw [foldl_map _ (fun d hd => Nat.digits_lt_base (by decide) (List.mem_reverse.1 hd)), foldl_reverse,
      Nat.ofDigits_digits]

theorem decimal_digits (n : Nat) : ∀ c ∈ decimal n, isDigit c = true ∧ isSpace c = false := by
  unfold decimal
  split
  · decide
  · intro c hc
    obtain ⟨d, hd, rfl⟩ := List.mem_map.1 hc
    have : d < 10 := Nat.digits_lt_base (by decide) (List.mem_reverse.1 hd)
    interval_cases d <;> decide

theorem readLoop_append (xs ys : List Char) : readLoop (xs ++ ys) = readLoop xs ++ readLoop ys := by
  induction xs with
  | nil => rfl
  | cons c cs ih =>
    simp only [List.cons_append, readLoop]
    split
    · exact ih
    · split
      · rw [ih]; rfl
      · exact ih

theorem readLoop_digits (xs : List Char) (h : ∀ c ∈ xs, isDigit c = true ∧ isSpace c = false) : readLoop xs = xs := by
  induction xs with
  | nil => rfl
  | cons c cs ih =>
    have := h c (by simp)
    simp [readLoop, this, ih fun x hx => h x (by simp [hx])]

theorem readLoop_nodigits (xs : List Char) (h : ∀ c ∈ xs, isDigit c = false) : readLoop xs = [] := by
  induction xs with
  | nil => rfl
  | cons c cs ih =>
    have := h c (by simp)
    simp [readLoop, this, ih fun x hx => h x (by simp [hx])]

end Boost.Random.Splitmix
