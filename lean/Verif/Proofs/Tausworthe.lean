import Verif.Proofs.Gf2Nat
import Verif.Proofs.MtChar
import Verif.Proofs.Lfsr
import Verif.Spec.SwcPeriod
import Mathlib.Data.Nat.Prime.Basic
import Mathlib.RingTheory.Coprime.Basic

/-!
# The period of linear recurrences over GF(2)
-/

namespace Boost.Random.Tausworthe
open Spec Polynomial Mt Gf2N

/-- What is to be computed about a polynomial whose order is `N`. -/
structure HasOrder (φ : (ZMod 2)[X]) (N : Nat) : Prop where
  pos : 0 < N
  dvd : φ ∣ X ^ N - 1
  cop : ∀ p, p.Prime → p ∣ N → IsCoprime φ (X ^ (N / p) - 1)

theorem repeat_mul {α : Type} {b : Nat → α} {g : Nat} (h : ∀ n, b (n + g) = b n) (m n : Nat) : b (n + g * m) = b n := by
  induction m with
  | zero => rfl
  | succ m ih => rw [Nat.mul_succ, ← Nat.add_assoc, h, ih]

theorem repeat_dvd {α : Type} {b : Nat → α} {g M : Nat} (h : ∀ n, b (n + g) = b n) (hd : g ∣ M) (n : Nat) : b (n + M) = b n := by
  obtain ⟨m, rfl⟩ := hd
  exact repeat_mul h m n

/-- The numbers of steps after which a sequence repeats are closed under the greatest common divisor. -/
theorem repeat_gcd {α : Type} {b : Nat → α} {P N : Nat} (hN0 : 0 < N) (hP : ∀ n, b (n + P) = b n) (hN : ∀ n, b (n + N) = b n) (n : Nat) :
    b (n + Nat.gcd P N) = b n := by
  rcases (Nat.gcd_le_right P hN0).eq_or_lt with h | h
  · rw [h, hN]
  · obtain ⟨m, hm⟩ := Nat.exists_mul_mod_eq_gcd h
    have e := repeat_mul hP m n
    rw [← Nat.mod_add_div (P * m) N, hm.2, ← Nat.add_assoc, repeat_mul hN] at e
    exact e

theorem ones_period {φ : (ZMod 2)[X]} {b : Nat → ZMod 2} (hb : aeval shiftSeq φ b = 0) {M : Nat} (hM : ∀ n, b (n + M) = b n)
    (hc : IsCoprime φ (X ^ M - 1)) : b = 0 := by
  obtain ⟨x, y, e⟩ := hc
  have h1 : aeval shiftSeq (X ^ M - 1 : (ZMod 2)[X]) b = 0 := by
    funext t
    rw [map_sub, map_one, LinearMap.sub_apply, Pi.sub_apply, aeval_X_pow', hM, Module.End.one_apply, sub_self, Pi.zero_apply]
  have := congrArg (fun p => aeval shiftSeq p b) e
  simp only [map_add, map_mul, LinearMap.add_apply, Module.End.mul_apply, hb, h1, map_zero, add_zero, map_one, Module.End.one_apply] at this
  exact this.symm

theorem period {φ : (ZMod 2)[X]} {N : Nat} (h : HasOrder φ N) {b : Nat → ZMod 2} (hb : aeval shiftSeq φ b = 0) (h0 : b ≠ 0) : HasPeriod b N := by
  have hN : ∀ n, b (n + N) = b n := fun n => by
    obtain ⟨g, hg⟩ := h.dvd
    have : aeval shiftSeq (X ^ N - 1 : (ZMod 2)[X]) b = 0 := by rw [hg, mul_comm, map_mul, Module.End.mul_apply, hb, map_zero]
    have := congrFun this n
    rw [map_sub, map_one, LinearMap.sub_apply, Pi.sub_apply, aeval_X_pow', Module.End.one_apply] at this
    exact sub_eq_zero.1 this
  refine ⟨h.pos, fun P => ⟨fun hP => ?_, fun hd => repeat_dvd hN hd⟩⟩
  have hg := repeat_gcd h.pos hP hN
  by_contra hc
  have hne : P.gcd N ≠ N := fun e => hc (e ▸ Nat.gcd_dvd_left P N)
  obtain ⟨m, hm⟩ := Nat.gcd_dvd_right P N
  have hm1 : m ≠ 1 := by rintro rfl; exact hne (by omega)
  obtain ⟨p, hp, hpm⟩ := Nat.exists_prime_and_dvd hm1
  have hpN : p ∣ N := hm ▸ (hpm.mul_left _)
  refine h0 (ones_period hb (fun n => repeat_dvd hg ?_ n) (h.cop p hp hpN))
  obtain ⟨l, rfl⟩ := hpm
  refine ⟨l, Nat.div_eq_of_eq_mul_left hp.pos (hm.trans ?_)⟩
  ring

/-- `X ^ k + X ^ q + 1`. -/
noncomputable def trinomial (k q : Nat) : (ZMod 2)[X] := X ^ k + X ^ q + 1

theorem annihilates {k q : Nat} {u : Nat → Bool} (hu : Spec.Tausworthe k q u) : aeval shiftSeq (trinomial k q) (fun n => gf (u n)) = 0 := by
  funext t
  rw [trinomial, map_add, map_add, map_one, LinearMap.add_apply, LinearMap.add_apply, Pi.add_apply, Pi.add_apply, aeval_X_pow', aeval_X_pow',
    Module.End.one_apply, hu t, gf_xor]
  rw [add_assoc, CharTwo.add_self_eq_zero]; rfl

/-! ### Computation modulo a polynomial -/

/-- Multiplication by `X` modulo `f` of degree `k`. -/
noncomputable def mulX (k f a : Nat) : Nat := if (a <<< 1).testBit k then (a <<< 1) ^^^ f else a <<< 1

/-- Multiplication of numbers as polynomials, modulo `f` of degree `k`. -/
noncomputable def mulmod (k f n : Nat) : Nat → Nat → Nat :=
  Nat.rec (fun _ _ => 0) (fun _ ih a b => Nat.xor (if b.testBit 0 then a else 0) (force (mulX k f a) fun a' => force (b >>> 1) fun b' => ih a' b')) n

theorem mulmod_succ (k f n a b : Nat) : mulmod k f (n + 1) a b = (if b.testBit 0 then a else 0) ^^^ mulmod k f n (mulX k f a) (b >>> 1) := by
  show Nat.xor _ (force (mulX k f a) fun a' => force (b >>> 1) fun b' => mulmod k f n a' b') = _
  rw [force_eq, force_eq]; rfl

theorem bitPoly_half (b : Nat) : bitPoly b = (if b.testBit 0 then (1 : (ZMod 2)[X]) else 0) + X * bitPoly (b >>> 1) := by
  ext i
  rw [coeff_add]
  cases i with
  | zero => simp [coeff_bitPoly]; split <;> simp_all
  | succ i =>
    rw [coeff_X_mul, coeff_bitPoly, coeff_bitPoly, Nat.testBit_shiftRight]
    have : (if b.testBit 0 then (1 : (ZMod 2)[X]) else 0).coeff (i + 1) = 0 := by split <;> simp [coeff_one]
    rw [this, zero_add, Nat.add_comm 1 i]

theorem mulmod_dvd {φ : (ZMod 2)[X]} {k f : Nat} (hf : bitPoly f = φ) : ∀ n a b, b < 2 ^ n → φ ∣ bitPoly a * bitPoly b - bitPoly (mulmod k f n a b)
  | 0, a, b, h => by
    have : b = 0 := by omega
    subst this
    simp [mulmod, bitPoly_zero]
  | n + 1, a, b, h => by
    rw [mulmod_succ, bitPoly_xor]
    have h1 := mulmod_dvd (k := k) hf n (mulX k f a) (b >>> 1) (by rw [Nat.shiftRight_eq_div_pow]; omega)
    have h2 : φ ∣ X * bitPoly a - bitPoly (mulX k f a) := by
      unfold mulX
      split
      · rw [bitPoly_xor, bitPoly_shift, hf, pow_one]; exact ⟨-1, by ring⟩
      · rw [bitPoly_shift, pow_one, sub_self]; exact dvd_zero _
    have h3 : bitPoly (if b.testBit 0 then a else 0) = (if b.testBit 0 then 1 else 0) * bitPoly a := by
      split <;> simp [bitPoly_zero]
    rw [h3, bitPoly_half b]
    obtain ⟨x, hx⟩ := h1
    obtain ⟨y, hy⟩ := h2
    refine ⟨x + y * bitPoly (b >>> 1), ?_⟩
    linear_combination hx + bitPoly (b >>> 1) * hy

theorem mulX_lt {k f a : Nat} (h1 : f < 2 ^ (k + 1)) (h2 : f.testBit k = true) (ha : a < 2 ^ k) : mulX k f a < 2 ^ k := by
  have hx : a <<< 1 < 2 ^ (k + 1) := by rw [Nat.shiftLeft_eq, pow_succ]; omega
  have top : ∀ y < 2 ^ (k + 1), y.testBit k = false → y < 2 ^ k := fun y hy hk => by
    refine Nat.lt_pow_two_of_testBit y fun i hi => ?_
    rcases hi.eq_or_lt with rfl | h
    · exact hk
    · exact Nat.testBit_lt_two_pow (hy.trans_le (Nat.pow_le_pow_right (by decide) h))
  unfold mulX
  split
  · rename_i h
    exact top _ (Nat.xor_lt_two_pow hx h1) (by rw [Nat.testBit_xor, h, h2]; rfl)
  · rename_i h
    exact top _ hx (by simpa using h)

theorem mulmod_lt {k f : Nat} (h1 : f < 2 ^ (k + 1)) (h2 : f.testBit k = true) : ∀ n a b, a < 2 ^ k → mulmod k f n a b < 2 ^ k
  | 0, _, _, _ => Nat.two_pow_pos k
  | n + 1, a, b, ha => by
    rw [mulmod_succ]
    refine Nat.xor_lt_two_pow ?_ (mulmod_lt h1 h2 n _ _ (mulX_lt h1 h2 ha))
    split
    · exact ha
    · exact Nat.two_pow_pos k

/-- `X ^ e` by repeated squaring, the `n` low bits of `e`. -/
noncomputable def powX (k f n : Nat) : Nat → Nat :=
  Nat.rec (fun _ => 1) (fun _ ih e => force (ih (e >>> 1)) fun r => force (mulmod k f k r r) fun s => if e.testBit 0 then mulX k f s else s) n

theorem powX_succ (k f n e : Nat) : powX k f (n + 1) e =
    if e.testBit 0 then mulX k f (mulmod k f k (powX k f n (e >>> 1)) (powX k f n (e >>> 1))) else mulmod k f k (powX k f n (e >>> 1)) (powX k f n (e >>> 1)) := by
  show (force (powX k f n (e >>> 1)) fun r => force (mulmod k f k r r) fun s => if e.testBit 0 then mulX k f s else s) = _
  rw [force_eq, force_eq]

theorem mulX_dvd {φ : (ZMod 2)[X]} {k f : Nat} (hf : bitPoly f = φ) (a : Nat) : φ ∣ X * bitPoly a - bitPoly (mulX k f a) := by
  unfold mulX
  split
  · rw [bitPoly_xor, bitPoly_shift, hf, pow_one]; exact ⟨-1, by ring⟩
  · rw [bitPoly_shift, pow_one, sub_self]; exact dvd_zero _

theorem bitPoly_one : bitPoly 1 = 1 := by
  ext i
  rw [coeff_bitPoly, coeff_one]
  by_cases h : i = 0
  · subst h; rfl
  · rw [if_neg h, if_neg (fun hc => h (Nat.testBit_one_eq_true_iff_self_eq_zero.1 hc))]

theorem powX_zero (k f e : Nat) : powX k f 0 e = 1 := rfl

theorem powX_spec {φ : (ZMod 2)[X]} {k f : Nat} (hk : 0 < k) (hf : bitPoly f = φ) (h1 : f < 2 ^ (k + 1)) (h2 : f.testBit k = true) :
    ∀ n e, e < 2 ^ n → φ ∣ X ^ e - bitPoly (powX k f n e) ∧ powX k f n e < 2 ^ k
  | 0, e, h => by
    have : e = 0 := by omega
    subst this
    exact ⟨by rw [powX_zero, bitPoly_one, pow_zero, sub_self]; exact dvd_zero _, by rw [powX_zero]; exact Nat.one_lt_two_pow hk.ne'⟩
  | n + 1, e, h => by
    obtain ⟨i1, i2⟩ := powX_spec hk hf h1 h2 n (e >>> 1) (by rw [Nat.shiftRight_eq_div_pow]; omega)
    rw [powX_succ]
    set r := powX k f n (e >>> 1)
    have m1 := mulmod_dvd hf k r r i2 (k := k)
    have m2 := mulmod_lt h1 h2 k r r i2
    obtain ⟨x, hx⟩ := i1
    obtain ⟨y, hy⟩ := m1
    have he : e = 2 * (e >>> 1) + if e.testBit 0 then 1 else 0 := by
      rw [Nat.shiftRight_eq_div_pow, Nat.testBit_zero]
      have := Nat.div_add_mod e 2
      split <;> simp_all
    have hsq : φ ∣ X ^ (2 * (e >>> 1)) - bitPoly (mulmod k f k r r) :=
      ⟨x * (X ^ (e >>> 1) + bitPoly r) + y, by rw [two_mul, pow_add]; linear_combination (X ^ (e >>> 1) + bitPoly r) * hx + hy⟩
    split
    · rename_i hb
      refine ⟨?_, mulX_lt h1 h2 m2⟩
      rw [if_pos hb] at he
      rw [he, pow_succ]
      obtain ⟨u, hu⟩ := hsq
      obtain ⟨v, hv⟩ := mulX_dvd hf (k := k) (mulmod k f k r r)
      exact ⟨X * u + v, by linear_combination X * hu + hv⟩
    · rename_i hb
      rw [if_neg hb, add_zero] at he
      exact ⟨by rw [he]; exact hsq, m2⟩

/-- What is evaluated to find the order: `X ^ N` is 1, and `X ^ (N / p) - 1` has an inverse for every prime of the list. -/
noncomputable def orderCheck (k f N : Nat) (ps : List (Nat × Nat)) : Bool :=
  (powX k f (k + 1) N == 1) && ps.all fun pi => mulmod k f k pi.2 (powX k f (k + 1) (N / pi.1) ^^^ 1) == 1

theorem hasOrder_of {φ : (ZMod 2)[X]} {k f N : Nat} (hk : 0 < k) (hf : bitPoly f = φ) (h1 : f < 2 ^ (k + 1)) (h2 : f.testBit k = true) (hN : 0 < N)
    (hN' : N < 2 ^ (k + 1)) {ps : List (Nat × Nat)} (hps : ∀ p, p.Prime → p ∣ N → ∃ i, (p, i) ∈ ps) (h : orderCheck k f N ps = true) : HasOrder φ N := by
  unfold orderCheck at h
  rw [Bool.and_eq_true, beq_iff_eq, List.all_eq_true] at h
  refine ⟨hN, ?_, fun p hp hd => ?_⟩
  · have := (powX_spec hk hf h1 h2 (k + 1) N hN').1
    rwa [h.1, bitPoly_one] at this
  · obtain ⟨i, hi⟩ := hps p hp hd
    have e := h.2 _ hi
    rw [beq_iff_eq] at e
    obtain ⟨⟨x, hx⟩, b2⟩ := powX_spec hk hf h1 h2 (k + 1) (N / p) (lt_of_le_of_lt (Nat.div_le_self _ _) hN')
    have m := mulmod_dvd hf k i (powX k f (k + 1) (N / p) ^^^ 1) (k := k) (Nat.xor_lt_two_pow b2 (Nat.one_lt_two_pow hk.ne'))
    dsimp only at e
    rw [e, bitPoly_one, bitPoly_xor, bitPoly_one] at m
    obtain ⟨y, hy⟩ := m
    refine ⟨-(y + bitPoly i * x), bitPoly i, ?_⟩
    have h2 : (2 : (ZMod 2)[X]) = 0 := CharTwo.two_eq_zero
    linear_combination bitPoly i * hx + hy - bitPoly i * h2

/-! ### The engines -/

variable {L : Lfsr}

/-- The Tausworthe sequence of a state. -/
def bits (L : Lfsr) (v : Nat) : Nat → Bool := Lfsr.tseq L.k L.q (topBit L.w v)

theorem _root_.Boost.Random.Lfsr.Valid.q_lt (hL : L.Valid) : L.q < L.k := by obtain ⟨h1, h2, h3, h4, h5, h6, h7, h8, h9⟩ := hL; omega

/-- The engine as a function. -/
def after (L : Lfsr) (v : Nat) : Nat → Nat
  | 0 => v
  | n + 1 => L.stp (after L v n)

theorem after_bits (hL : L.Valid) (v n : Nat) :
    (∀ i, i < L.k → topBit L.w (after L v n) i = bits L v (n * L.s + i)) ∧
      (0 < n → L.w + L.s + L.q ≤ 2 * L.k → ∀ i, i < L.w → topBit L.w (after L v n) i = bits L v (n * L.s + i)) := by
  have hq := hL.q_lt
  have hrec := Lfsr.tseq_rec hq (topBit L.w v)
  obtain ⟨h1, h2, h3, h4, h5, h6, h7, h8, h9⟩ := id hL
  induction n with
  | zero => exact ⟨fun i hi => by rw [Nat.zero_mul, Nat.zero_add]; exact (Lfsr.tseq_init hi).symm, fun h => absurd h (by omega)⟩
  | succ n ih =>
    have main : ∀ i, i < L.w → i + L.s + L.q < 2 * L.k → topBit L.w (after L v (n + 1)) i = bits L v ((n + 1) * L.s + i) := by
      intro i hi hk
      rw [after, Lfsr.stp_top L hL _ i hi, Nat.add_mul, Nat.one_mul]
      split
      · rename_i h
        rw [ih.1 _ h]; congr 1; omega
      · rename_i h
        rw [ih.1 _ (by omega), ih.1 _ (by omega)]
        have := hrec (n * L.s + (i + L.s - L.k))
        rw [show n * L.s + (i + L.s - L.k) + L.k = n * L.s + L.s + i by omega,
          show n * L.s + (i + L.s - L.k) + L.q = n * L.s + (i + L.s - L.k + L.q) by omega] at this
        rw [bits, this, Bool.xor_comm]
    exact ⟨fun i hi => main i (by omega) (by omega), fun _ hw i hi => main i hi (by omega)⟩

end Boost.Random.Tausworthe
