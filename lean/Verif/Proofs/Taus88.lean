import Verif.Proofs.TausPeriod
import Verif.Proofs.PrimRoot
import Mathlib.Tactic.NormNum.GCD
import Mathlib.Algebra.BigOperators.Group.Finset.Basic

/-!
# The order of the three trinomials of `taus88`, and the combination
-/

namespace Boost.Random.Tausworthe
open Spec Polynomial Mt Gf2N

theorem bitPoly_pow (n : Nat) : bitPoly (2 ^ n) = X ^ n := by
  have := bitPoly_shift 1 n
  rwa [bitPoly_one, mul_one, Nat.shiftLeft_eq, one_mul] at this

theorem bitPoly_tri (k q f : Nat) (hf : f = 2 ^ k ^^^ 2 ^ q ^^^ 1) : bitPoly f = trinomial k q := by
  rw [hf, bitPoly_xor, bitPoly_xor, bitPoly_pow, bitPoly_pow, bitPoly_one]; rfl

theorem orderA : HasOrder (trinomial 31 13) (2 ^ 31 - 1) :=
  hasOrder_of (k := 31) (f := 2147491841) (by decide) (bitPoly_tri 31 13 _ (by decide)) (by decide) (by decide) (by decide) (by decide)
    (ps := [(2147483647, 2147475456)])
    (fun p hp hd => ⟨2147475456, by
      have : p = 2147483647 := (Nat.prime_dvd_prime_iff_eq hp M31_prime).1 (by norm_num at hd; exact hd)
      subst this; simp⟩)
    (by decide +kernel)

theorem orderB : HasOrder (trinomial 29 2) (2 ^ 29 - 1) :=
  hasOrder_of (k := 29) (f := 536870917) (by decide) (bitPoly_tri 29 2 _ (by decide)) (by decide) (by decide) (by decide) (by decide)
    (ps := [(233, 166316410), (1103, 185447446), (2089, 317348523)])
    (fun p hp hd => by
      rw [show (2 ^ 29 - 1 : Nat) = 233 * (1103 * 2089) by norm_num, hp.dvd_mul, hp.dvd_mul, Nat.prime_dvd_prime_iff_eq hp (by norm_num),
        Nat.prime_dvd_prime_iff_eq hp (by norm_num), Nat.prime_dvd_prime_iff_eq hp (by norm_num)] at hd
      rcases hd with rfl | rfl | rfl <;> simp)
    (by decide +kernel)

theorem orderC : HasOrder (trinomial 28 3) (2 ^ 28 - 1) :=
  hasOrder_of (k := 28) (f := 268435465) (by decide) (bitPoly_tri 28 3 _ (by decide)) (by decide) (by decide) (by decide) (by decide)
    (ps := [(3, 201413087), (5, 135300520), (29, 99118671), (43, 220580552), (113, 4290707), (127, 152044070)])
    (fun p hp hd => by
      rw [show (2 ^ 28 - 1 : Nat) = 3 * (5 * (29 * (43 * (113 * 127)))) by norm_num, hp.dvd_mul, hp.dvd_mul, hp.dvd_mul, hp.dvd_mul, hp.dvd_mul,
        Nat.prime_dvd_prime_iff_eq hp (by norm_num), Nat.prime_dvd_prime_iff_eq hp (by norm_num), Nat.prime_dvd_prime_iff_eq hp (by norm_num),
        Nat.prime_dvd_prime_iff_eq hp (by norm_num), Nat.prime_dvd_prime_iff_eq hp (by norm_num), Nat.prime_dvd_prime_iff_eq hp (by norm_num)] at hd
      rcases hd with rfl | rfl | rfl | rfl | rfl | rfl <;> simp)
    (by decide +kernel)

/-- Three sequences whose periods have no common divisors, combined. -/
theorem xor_period {a b c : Nat → Nat} {A B C : Nat} (ha : HasPeriod a A) (hb : HasPeriod b B) (hc : HasPeriod c C) (hAB : Nat.Coprime A B) (hAC : Nat.Coprime A C)
    (hBC : Nat.Coprime B C) : HasPeriod (fun n => a n ^^^ b n ^^^ c n) (A * B * C) := by
  have rep : ∀ {x : Nat → Nat} {T : Nat}, HasPeriod x T → ∀ m, T ∣ m → ∀ n, x (n + m) = x n := fun h m hd => (h.2 m).2 hd
  refine ⟨Nat.mul_pos (Nat.mul_pos ha.1 hb.1) hc.1, fun P => ⟨fun h => ?_, fun hd n => ?_⟩⟩
  · have hm : ∀ m n, a (n + P * m) ^^^ b (n + P * m) ^^^ c (n + P * m) = a n ^^^ b n ^^^ c n := fun m n => repeat_mul (b := fun n => a n ^^^ b n ^^^ c n) h m n
    have xc : ∀ {x y z : Nat}, x ^^^ z = y ^^^ z → x = y := fun {x y z} h => by
      have := congrArg (· ^^^ z) h
      simpa [Nat.xor_assoc] using this
    have xl : ∀ {x y z : Nat}, z ^^^ x = z ^^^ y → x = y := fun {x y z} h => xc (by rwa [Nat.xor_comm x z, Nat.xor_comm y z])
    have cA : A ∣ P := by
      have : A ∣ P * (B * C) := (ha.2 _).1 fun n => by
        have := hm (B * C) n
        rw [rep hb _ ⟨P * C, by ring⟩, rep hc _ ⟨P * B, by ring⟩] at this
        exact xc (xc this)
      exact (Nat.Coprime.mul_right hAB hAC).dvd_of_dvd_mul_right this
    have cB : B ∣ P := by
      have : B ∣ P * (A * C) := (hb.2 _).1 fun n => by
        have := hm (A * C) n
        rw [rep ha _ ⟨P * C, by ring⟩, rep hc _ ⟨P * A, by ring⟩] at this
        exact xl (xc this)
      exact (Nat.Coprime.mul_right hAB.symm hBC).dvd_of_dvd_mul_right this
    have cC : C ∣ P := by
      have : C ∣ P * (A * B) := (hc.2 _).1 fun n => by
        have := hm (A * B) n
        rw [rep ha _ ⟨P * B, by ring⟩, rep hb _ ⟨P * A, by ring⟩] at this
        exact xl this
      exact (Nat.Coprime.mul_right hAC.symm hBC.symm).dvd_of_dvd_mul_right this
    exact (Nat.Coprime.mul_left hAC hBC).mul_dvd_of_dvd_of_dvd (hAB.mul_dvd_of_dvd_of_dvd cA cB) cC
  · show a (n + P) ^^^ b (n + P) ^^^ c (n + P) = _
    rw [rep ha P ((Dvd.intro _ (mul_assoc A B C).symm).trans hd), rep hb P ((Dvd.intro (A * C) (by ring)).trans hd), rep hc P ((Dvd.intro_left _ rfl).trans hd)]

theorem coAB : Nat.Coprime (2 ^ 31 - 1) (2 ^ 29 - 1) := by norm_num
theorem coAC : Nat.Coprime (2 ^ 31 - 1) (2 ^ 28 - 1) := by norm_num
theorem coBC : Nat.Coprime (2 ^ 29 - 1) (2 ^ 28 - 1) := by norm_num

/-- A call of `taus88`. -/
theorem taus88_next (a b c : Nat) : taus88.next ((a, b), c) =
    some (((taus88A.stp a ^^^ taus88B.stp b ^^^ taus88C.stp c : Nat) : Int), ((taus88A.stp a, taus88B.stp b), taus88C.stp c)) := by
  have hA := Lfsr.stp_lt taus88A (by decide) a
  have hB := Lfsr.stp_lt taus88B (by decide) b
  have hC := Lfsr.stp_lt taus88C (by decide) c
  simp only [taus88A, taus88B, taus88C] at hA hB hC
  have hAB := Nat.xor_lt_two_pow hA hB
  have hABC := Nat.xor_lt_two_pow hAB hC
  simp only [taus88, taus88Inner, XorCombine.engine, XorCombine.next, Lfsr.engine, Lfsr.next_eq, Option.bind_eq_bind,
    Option.bind_some, XorCombine.value, Int.toNat_natCast, Nat.shiftLeft_zero, taus88A, taus88B, taus88C]
  rw [if_pos (by decide), Option.bind_some, Option.bind_some]
  dsimp only
  rw [if_pos (by decide), Option.bind_some, Int.toNat_natCast, Nat.mod_eq_of_lt hA, Nat.mod_eq_of_lt hB, Nat.mod_eq_of_lt hAB,
    Nat.mod_eq_of_lt hAB, Nat.mod_eq_of_lt hC, Nat.mod_eq_of_lt hABC]

theorem taus88_run (a b c n : Nat) : run taus88.next n ((a, b), c) =
    some ((List.range n).map fun j => (((after taus88A a (j + 1)) ^^^ (after taus88B b (j + 1)) ^^^ (after taus88C c (j + 1)) : Nat) : Int),
      ((after taus88A a n, after taus88B b n), after taus88C c n)) := by
  induction n with
  | zero => rfl
  | succ n ih =>
    rw [run_add, ih, Option.bind_some, run_one, taus88_next, List.range_succ]
    simp [after]

theorem lfsr_run (L : Lfsr) (v n : Nat) : run L.next n v = some ((List.range n).map fun j => (after L v (j + 1) : Int), after L v n) := by
  induction n with
  | zero => rfl
  | succ n ih =>
    rw [run_add, ih, Option.bind_some, run_one, Lfsr.next_eq, List.range_succ]
    simp [after]

/-! ### Words from significant bits -/

/-- The word of `w` bits whose `k` highest are those of `t` and the others satisfy the recurrence. -/
def word (w k q t : Nat) : Nat := (t <<< (w - k)) ^^^ ((t >>> (2 * k - w)) ^^^ ((t >>> (2 * k - w - q)) % 2 ^ (w - k)))

theorem word_xor (w k q s t : Nat) : word w k q (s ^^^ t) = word w k q s ^^^ word w k q t := by
  refine Nat.eq_of_testBit_eq fun i => ?_
  simp only [word, Nat.testBit_xor, Nat.testBit_shiftLeft, Nat.testBit_shiftRight, Nat.testBit_mod_two_pow]
  cases decide (i ≥ w - k) <;> cases decide (i < w - k) <;> cases s.testBit (i - (w - k)) <;> cases t.testBit (i - (w - k)) <;> cases s.testBit (2 * k - w + i) <;>
    cases t.testBit (2 * k - w + i) <;> cases s.testBit (2 * k - w - q + i) <;> cases t.testBit (2 * k - w - q + i) <;> rfl

theorem word_lt {w k q t : Nat} (hk : k < w) (hq : w + q ≤ 2 * k) (ht : t < 2 ^ k) : word w k q t < 2 ^ w := by
  have h1 : t <<< (w - k) < 2 ^ w := by
    rw [Nat.shiftLeft_eq]
    calc t * 2 ^ (w - k) < 2 ^ k * 2 ^ (w - k) := Nat.mul_lt_mul_of_pos_right ht (Nat.two_pow_pos _)
      _ = 2 ^ w := by rw [← pow_add]; congr 1; omega
  have h2 : t >>> (2 * k - w) < 2 ^ w := by
    rw [Nat.shiftRight_eq_div_pow]
    exact lt_of_le_of_lt (Nat.div_le_self _ _) (ht.trans (Nat.pow_lt_pow_right (by decide) hk))
  exact Nat.xor_lt_two_pow h1 (Nat.xor_lt_two_pow h2 ((Nat.mod_lt _ (Nat.two_pow_pos _)).trans_le (Nat.pow_le_pow_right (by decide) (by omega))))

theorem topBit_word {w k q t i : Nat} (hk : k < w) (hq : w + q ≤ 2 * k) (ht : t < 2 ^ k) (hi : i < w) :
    topBit w (word w k q t) i = if i < k then t.testBit (k - 1 - i) else (t.testBit (k - 1 - (i - k)) ^^ t.testBit (k - 1 - (i - k + q))) := by
  unfold topBit
  simp only [word, Nat.testBit_xor, Nat.testBit_shiftLeft, Nat.testBit_shiftRight, Nat.testBit_mod_two_pow]
  split
  · rename_i h
    have e : t.testBit (2 * k - w + (w - 1 - i)) = false := Nat.testBit_lt_two_pow (ht.trans_le (Nat.pow_le_pow_right (by decide) (by omega)))
    have e1 : w - k ≤ w - 1 - i := by omega
    have e2 : ¬ w - 1 - i < w - k := by omega
    rw [e, show w - 1 - i - (w - k) = k - 1 - i by omega]
    simp [e1, e2]
  · rename_i h
    have e1 : ¬ w - k ≤ w - 1 - i := by omega
    have e2 : w - 1 - i < w - k := by omega
    rw [show 2 * k - w + (w - 1 - i) = k - 1 - (i - k) by omega, show 2 * k - w - q + (w - 1 - i) = k - 1 - (i - k + q) by omega]
    simp [e1, e2]

/-- What the engine returns is given by its significant bits. -/
theorem after_word {L : Lfsr} (hL : L.Valid) (hw : L.bits = L.w) (hc : L.w + L.s + L.q ≤ 2 * L.k) (v n : Nat) :
    after L v (n + 1) = word L.w L.k L.q (after L v (n + 1) / 2 ^ (L.w - L.k)) := by
  have hk := hL.2.2.1
  have hlt : after L v (n + 1) < 2 ^ L.w := hw ▸ after_lt hL v n
  have ht := (sig_div hL hlt).1
  refine eq_of_top hlt (word_lt hk (by omega) ht) fun i hi => ?_
  rw [topBit_word hk (by omega) ht hi]
  have tb : ∀ j, j < L.k → (after L v (n + 1) / 2 ^ (L.w - L.k)).testBit (L.k - 1 - j) = bits L v ((n + 1) * L.s + j) := fun j hj => by
    rw [← (after_bits hL v (n + 1)).1 j hj, Nat.testBit_div_two_pow, topBit]
    congr 1; omega
  rw [(after_bits hL v (n + 1)).2 (by omega) hc i hi]
  split
  · rename_i h; rw [tb i h]
  · rename_i h
    rw [tb _ (by omega), tb _ (by omega)]
    have := bits_rec hL v ((n + 1) * L.s + (i - L.k))
    rw [show (n + 1) * L.s + (i - L.k) + L.k = (n + 1) * L.s + i by omega] at this
    rw [this, Bool.xor_comm, Nat.add_assoc]

/-! ### Counting -/

/-- How often `y` is the sum of a value of `f` and one of `g`. -/
def pairs (m l : Nat) (f g : Nat → Nat) (y : Nat) : Nat := ∑ a ∈ Finset.range (2 ^ m), ∑ b ∈ Finset.range (2 ^ l), if f a ^^^ g b = y then 1 else 0

theorem sum_xor (m c : Nat) (hc : c < 2 ^ m) (h : Nat → Nat) : ∑ a ∈ Finset.range (2 ^ m), h (a ^^^ c) = ∑ a ∈ Finset.range (2 ^ m), h a := by
  refine Finset.sum_nbij' (· ^^^ c) (· ^^^ c) ?_ ?_ ?_ ?_ fun _ _ => rfl
  · exact fun a ha => Finset.mem_range.2 (Nat.xor_lt_two_pow (Finset.mem_range.1 ha) hc)
  · exact fun a ha => Finset.mem_range.2 (Nat.xor_lt_two_pow (Finset.mem_range.1 ha) hc)
  · exact fun a _ => by simp [Nat.xor_assoc]
  · exact fun a _ => by simp [Nat.xor_assoc]

section
variable {m l w : Nat} {f g : Nat → Nat} (hf : ∀ a b, f (a ^^^ b) = f a ^^^ f b) (hg : ∀ a b, g (a ^^^ b) = g a ^^^ g b)
  (bf : ∀ a < 2 ^ m, f a < 2 ^ w) (bg : ∀ a < 2 ^ l, g a < 2 ^ w) (hs : ∀ y < 2 ^ w, ∃ a < 2 ^ m, ∃ b < 2 ^ l, f a ^^^ g b = y)
include hf hg hs

theorem pairs_const (y : Nat) (hy : y < 2 ^ w) : pairs m l f g y = pairs m l f g 0 := by
  obtain ⟨a0, ha, b0, hb, e⟩ := hs y hy
  unfold pairs
  rw [← sum_xor m a0 ha]
  refine Finset.sum_congr rfl fun a _ => ?_
  rw [← sum_xor l b0 hb]
  refine Finset.sum_congr rfl fun b _ => ?_
  have : f (a ^^^ a0) ^^^ g (b ^^^ b0) = y ↔ f a ^^^ g b = 0 := by
    rw [hf, hg, show f a ^^^ f a0 ^^^ (g b ^^^ g b0) = (f a ^^^ g b) ^^^ (f a0 ^^^ g b0) by
      rw [Nat.xor_assoc, Nat.xor_assoc, ← Nat.xor_assoc (f a0), Nat.xor_comm (f a0), Nat.xor_assoc], e]
    constructor
    · intro h
      have := congrArg (· ^^^ y) h
      simpa [Nat.xor_assoc] using this
    · intro h; rw [h, Nat.zero_xor]
  simp only [this]

include bf bg in
theorem pairs_eq (hml : w ≤ m + l) (y : Nat) (hy : y < 2 ^ w) : pairs m l f g y = 2 ^ (m + l - w) := by
  have total : ∑ y ∈ Finset.range (2 ^ w), pairs m l f g y = 2 ^ (m + l) := by
    unfold pairs
    rw [Finset.sum_comm]
    have : ∀ a ∈ Finset.range (2 ^ m), ∑ y ∈ Finset.range (2 ^ w), ∑ b ∈ Finset.range (2 ^ l), (if f a ^^^ g b = y then 1 else 0) = 2 ^ l := fun a ha => by
      rw [Finset.sum_comm]
      have : ∀ b ∈ Finset.range (2 ^ l), ∑ y ∈ Finset.range (2 ^ w), (if f a ^^^ g b = y then 1 else 0) = 1 := fun b hb => by
        rw [Finset.sum_ite_eq, if_pos]
        exact Finset.mem_range.2 (Nat.xor_lt_two_pow (bf a (Finset.mem_range.1 ha)) (bg b (Finset.mem_range.1 hb)))
      rw [Finset.sum_congr rfl this]; simp
    rw [Finset.sum_congr rfl this]
    simp [pow_add]
  rw [Finset.sum_congr rfl fun y hy => pairs_const hf hg hs y (Finset.mem_range.1 hy), Finset.sum_const, Finset.card_range, smul_eq_mul] at total
  rw [pairs_const hf hg hs y hy]
  have : 2 ^ (m + l) = 2 ^ w * 2 ^ (m + l - w) := by rw [← pow_add]; congr 1; omega
  rw [this] at total
  exact Nat.eq_of_mul_eq_mul_left (Nat.two_pow_pos w) total

end

/-- Preimages of the powers of two are enough. -/
theorem surjective_of {m l w : Nat} {f g : Nat → Nat} (hf : ∀ a b, f (a ^^^ b) = f a ^^^ f b) (hg : ∀ a b, g (a ^^^ b) = g a ^^^ g b)
    (h : ∀ i < w, ∃ a < 2 ^ m, ∃ b < 2 ^ l, f a ^^^ g b = 2 ^ i) (y : Nat) (hy : y < 2 ^ w) : ∃ a < 2 ^ m, ∃ b < 2 ^ l, f a ^^^ g b = y := by
  have f0 : f 0 = 0 := by have := hf 0 0; simpa using this
  have g0 : g 0 = 0 := by have := hg 0 0; simpa using this
  have main : ∀ n ≤ w, ∀ y < 2 ^ n, ∃ a < 2 ^ m, ∃ b < 2 ^ l, f a ^^^ g b = y := by
    intro n
    induction n with
    | zero => exact fun _ y hy => ⟨0, Nat.two_pow_pos _, 0, Nat.two_pow_pos _, by rw [f0, g0]; simp at hy ⊢; omega⟩
    | succ n ih =>
      intro hn y hy
      have small : ∀ z < 2 ^ (n + 1), z.testBit n = false → z < 2 ^ n := fun z hz hb => by
        refine Nat.lt_pow_two_of_testBit z fun i hi => ?_
        rcases hi.eq_or_lt with rfl | h
        · exact hb
        · exact Nat.testBit_lt_two_pow (hz.trans_le (Nat.pow_le_pow_right (by decide) h))
      by_cases hb : y.testBit n = true
      · obtain ⟨a, ha, b, hb', e⟩ := ih (by omega) (y ^^^ 2 ^ n) (small _ (Nat.xor_lt_two_pow hy (Nat.pow_lt_pow_right (by decide) (by omega)))
          (by rw [Nat.testBit_xor, hb, Nat.testBit_two_pow_self]; rfl))
        obtain ⟨a', ha', b', hb'', e'⟩ := h n (by omega)
        refine ⟨a ^^^ a', Nat.xor_lt_two_pow ha ha', b ^^^ b', Nat.xor_lt_two_pow hb' hb'', ?_⟩
        rw [hf, hg, show f a ^^^ f a' ^^^ (g b ^^^ g b') = (f a ^^^ g b) ^^^ (f a' ^^^ g b') by
          rw [Nat.xor_assoc, Nat.xor_assoc, ← Nat.xor_assoc (f a'), Nat.xor_comm (f a'), Nat.xor_assoc], e, e', Nat.xor_assoc, Nat.xor_self, Nat.xor_zero]
      · exact ih (by omega) y (small y hy (by simpa using hb))
  exact main w le_rfl y hy

/-- The check of a table of preimages. -/
def tableOK (m l : Nat) (f g : Nat → Nat) (t : List (Nat × Nat)) (w : Nat) : Bool :=
  (List.range w).all fun i => match t[i]? with
    | some p => decide (p.1 < 2 ^ m) && decide (p.2 < 2 ^ l) && (f p.1 ^^^ g p.2 == 2 ^ i)
    | none => false

theorem table_sound {m l w : Nat} {f g : Nat → Nat} {t : List (Nat × Nat)} (h : tableOK m l f g t w = true) (i : Nat) (hi : i < w) :
    ∃ a < 2 ^ m, ∃ b < 2 ^ l, f a ^^^ g b = 2 ^ i := by
  have := List.all_eq_true.1 h i (List.mem_range.2 hi)
  cases e : t[i]? with
  | none => rw [e] at this; simp at this
  | some p =>
    rw [e] at this
    simp only [Bool.and_eq_true, decide_eq_true_eq, beq_iff_eq] at this
    exact ⟨p.1, this.1.1, p.2, this.1.2, this.2⟩

def tableAB : List (Nat × Nat) := [(131072, 32768), (1, 0), (2, 0), (4, 0), (8, 0), (16, 0), (32, 0), (64, 0), (128, 0), (256, 0), (512, 0), (1024, 0), (2048, 0), (4096, 0), (8192, 0), (16384, 0), (32768, 0), (65536, 0), (0, 32768), (262144, 0), (524288, 0), (1048576, 0), (2097152, 0), (4194304, 0), (8388608, 0), (16777216, 0), (33554432, 0), (67108864, 0), (134217728, 0), (268435456, 0), (536870912, 0), (1073872896, 32768)]
def tableAC : List (Nat × Nat) := [(131072, 16384), (1, 0), (2, 0), (4, 0), (8, 0), (16, 0), (32, 0), (64, 0), (128, 0), (256, 0), (512, 0), (1024, 0), (2048, 0), (4096, 0), (8192, 0), (16384, 0), (32768, 0), (65536, 0), (0, 16384), (262144, 0), (524288, 0), (1048576, 0), (2097152, 0), (4194304, 0), (8388608, 0), (16777216, 0), (33554432, 0), (67108864, 0), (134217728, 0), (268435456, 0), (536870912, 0), (1073872896, 16384)]
def tableBC : List (Nat × Nat) := [(4194304, 2097152), (8388608, 4194304), (20971520, 10485760), (1, 0), (2, 0), (4, 0), (8, 0), (16, 0), (32, 0), (64, 0), (128, 0), (256, 0), (512, 0), (1024, 0), (2048, 0), (4096, 0), (8192, 0), (16384, 0), (32768, 0), (65536, 0), (131072, 0), (262144, 0), (524288, 0), (1048576, 0), (2097152, 0), (4194304, 0), (8388608, 0), (20971520, 2097152), (41943040, 4194304), (83886080, 8388608), (142606336, 4194304), (289406976, 10485760)]

theorem pairsAB (y : Nat) (hy : y < 2 ^ 32) : pairs 31 29 (word 32 31 13) (word 32 29 2) y = 2 ^ 28 :=
  pairs_eq (w := 32) (word_xor _ _ _) (word_xor _ _ _) (fun _ h => word_lt (by decide) (by decide) h) (fun _ h => word_lt (by decide) (by decide) h)
    (surjective_of (word_xor _ _ _) (word_xor _ _ _) (table_sound (t := tableAB) (by decide +kernel))) (by decide) y hy

theorem pairsAC (y : Nat) (hy : y < 2 ^ 32) : pairs 31 28 (word 32 31 13) (word 32 28 3) y = 2 ^ 27 :=
  pairs_eq (w := 32) (word_xor _ _ _) (word_xor _ _ _) (fun _ h => word_lt (by decide) (by decide) h) (fun _ h => word_lt (by decide) (by decide) h)
    (surjective_of (word_xor _ _ _) (word_xor _ _ _) (table_sound (t := tableAC) (by decide +kernel))) (by decide) y hy

theorem pairsBC (y : Nat) (hy : y < 2 ^ 32) : pairs 29 28 (word 32 29 2) (word 32 28 3) y = 2 ^ 25 :=
  pairs_eq (w := 32) (word_xor _ _ _) (word_xor _ _ _) (fun _ h => word_lt (by decide) (by decide) h) (fun _ h => word_lt (by decide) (by decide) h)
    (surjective_of (word_xor _ _ _) (word_xor _ _ _) (table_sound (t := tableBC) (by decide +kernel))) (by decide) y hy

end Boost.Random.Tausworthe
