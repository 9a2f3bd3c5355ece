import Verif.Model.NbTable
import Verif.Proofs.NbNet

/-!
# The default table holds exactly the irreducible polynomials of degree at most 15

A sieve with all numbers as bits of one number of 65536 bits, run by the kernel.
-/

namespace Boost.Random
namespace Nb
open Qrng Spec Polynomial Gf2

/-! ## The sieve -/

/-- The remainder: `count` steps with `D` the divisor shifted to the bit `K`. -/
def remLoop : (count K D a : Nat) → Nat
  | 0, _, _, a => a
  | c + 1, K, D, a => remLoop c (K / 2) (D / 2) (bif Nat.ble K a then a ^^^ D else a)

/-- The remainder of a polynomial of at most 16 bits by `d` of degree `e`. -/
def rem (d e n : Nat) : Nat := remLoop (16 - e) 32768 (d <<< (15 - e)) n

/-- Bit `256*c + i` tells whether `i` has the remainder `c`, for `i < n`. -/
def classTab (d e : Nat) : (n : Nat) → Nat
  | 0 => 0
  | i + 1 => classTab d e i ||| 1 <<< (256 * rem d e i + i)

/-- Bit `n` tells whether `d` divides `n`, for `n < 256*count`. -/
def multiples (tab d e : Nat) : (count : Nat) → Nat
  | 0 => 0
  | h + 1 => multiples tab d e h ||| ((tab >>> (256 * rem d e (256 * h))) % 2 ^ 256) <<< (256 * h)

/-- The irreducible polynomials of degree at most 7, with their degrees. -/
def smallIrr : List (Nat × Nat) := [(2, 1), (3, 1), (7, 2), (11, 3), (13, 3), (19, 4), (25, 4), (31, 4), (37, 5), (41, 5), (47, 5), (55, 5), (59, 5), (61, 5),
  (67, 6), (73, 6), (87, 6), (91, 6), (97, 6), (103, 6), (109, 6), (115, 6), (117, 6), (131, 7), (137, 7), (143, 7), (145, 7), (157, 7), (167, 7), (171, 7),
  (185, 7), (191, 7), (193, 7), (203, 7), (211, 7), (213, 7), (229, 7), (239, 7), (241, 7), (247, 7), (253, 7)]

/-- The multiples of any of them. -/
def sieve : List (Nat × Nat) → Nat
  | [] => 0
  | p :: ps => multiples (classTab p.1 p.2 256) p.1 p.2 256 ||| sieve ps

/-- The numbers of a chunk as bits. -/
def chunkMask : (count c : Nat) → Nat
  | 0, _ => 0
  | k + 1, c => 1 <<< (c % 65536) ||| chunkMask k (c / 65536)

def tableMask : List Nat → Nat
  | [] => 0
  | c :: cs => chunkMask 80 c ||| tableMask cs

def sieveCheck : Bool := Nat.beq ((tableMask nbChunks ^^^ sieve smallIrr) >>> 256) (2 ^ 65280 - 1)

set_option maxRecDepth 100000 in
theorem sieveCheck_true : sieveCheck = true := by decide +kernel

/-- Below 256 the polynomials listed are those that none of the others listed divides; and the table begins with them. -/
def smallCheck : (n : Nat) → Bool
  | 0 => true
  | n + 1 => (n < 2 || (smallIrr.any fun p => Nat.beq p.1 n) == !(smallIrr.any fun p => !(Nat.beq p.1 n) && Nat.beq (rem p.1 p.2 n) 0)) && smallCheck n

theorem smallCheck_true : smallCheck 256 = true := by decide +kernel

def lowCheck : Bool := Nat.beq (tableMask nbChunks % 2 ^ 256) (smallIrr.foldr (fun p acc => 1 <<< p.1 ||| acc) 0)

set_option maxRecDepth 100000 in
theorem lowCheck_true : lowCheck = true := by decide +kernel

/-- Ascending. -/
def incLoop : (count c : Nat) → Bool
  | 0, _ => true
  | k + 1, c => Nat.blt (c % 65536) (c / 65536 % 65536) && incLoop k (c / 65536)

def incChunks : List Nat → Bool
  | [] => true
  | [c] => incLoop 79 c
  | c :: c' :: cs => (incLoop 79 c && Nat.blt (c / 65536 ^ 79 % 65536) (c' % 65536)) && incChunks (c' :: cs)

set_option maxRecDepth 100000 in
theorem incChunks_true : incChunks nbChunks = true := by decide +kernel

theorem smallIrr_degree : ∀ p ∈ smallIrr, p.1 ≠ 0 ∧ p.1.log2 = p.2 ∧ 1 ≤ p.2 ∧ p.2 ≤ 7 := by decide +kernel

/-! ## Remainders -/

theorem remLoop_spec {d e : Nat} (hd : d ≠ 0) (he : d.log2 = e) : ∀ (c a : Nat), a < 2 ^ (e + c) →
    remLoop c (2 ^ (e + c) / 2) ((d <<< c) / 2) a < 2 ^ e ∧ ofNat d ∣ ofNat a + ofNat (remLoop c (2 ^ (e + c) / 2) ((d <<< c) / 2) a) := by
  intro c
  induction c with
  | zero => intro a ha; exact ⟨ha, by rw [remLoop, add_self]; exact dvd_zero _⟩
  | succ c ih =>
    intro a ha
    have hK : 2 ^ (e + (c + 1)) / 2 = 2 ^ (e + c) := by rw [← Nat.add_assoc, Nat.pow_succ]; omega
    have hD : (d <<< (c + 1)) / 2 = d <<< c := by rw [Nat.shiftLeft_eq, Nat.shiftLeft_eq, Nat.pow_succ, ← Nat.mul_assoc]; omega
    rw [remLoop, hK, hD]
    obtain ⟨a', ha'⟩ : ∃ a', a' = bif Nat.ble (2 ^ (e + c)) a then a ^^^ d <<< c else a := ⟨_, rfl⟩
    rw [← ha']
    have hstep : a' < 2 ^ (e + c) ∧ ofNat d ∣ ofNat a + ofNat a' := by
      by_cases hle : 2 ^ (e + c) ≤ a
      · have hb : Nat.ble (2 ^ (e + c)) a = true := Nat.ble_eq_true_of_le hle
        rw [hb, cond_true] at ha'
        have hdlt : d <<< c < 2 ^ (e + c + 1) := by
          rw [Nat.shiftLeft_eq, show e + c + 1 = (e + 1) + c by omega, Nat.pow_add]
          exact Nat.mul_lt_mul_of_pos_right (by rw [← he]; exact Nat.lt_log2_self) (Nat.two_pow_pos _)
        refine ⟨?_, ?_⟩
        · rw [ha']
          have h1 : a ^^^ d <<< c < 2 ^ (e + c + 1) := Nat.xor_lt_two_pow (by rwa [← Nat.add_assoc] at ha) hdlt
          have hbit : (a ^^^ d <<< c).testBit (e + c) = false := by
            have h2 : a.testBit (e + c) = true := by
              have h3 : a = 2 ^ (e + c) + (a - 2 ^ (e + c)) := by omega
              rw [h3, Nat.testBit_two_pow_add_eq, Nat.testBit_lt_two_pow (by rw [← Nat.add_assoc, Nat.pow_succ] at ha; omega)]
              rfl
            have h4 : (d <<< c).testBit (e + c) = true := by
              rw [Nat.testBit_shiftLeft, Nat.add_sub_cancel, ← he, Nat.testBit_log2 hd]
              simp
            rw [Nat.testBit_xor, h2, h4]; rfl
          refine Nat.lt_pow_two_of_testBit _ fun i hi => ?_
          by_cases hie : i = e + c
          · rw [hie]; exact hbit
          · exact Nat.testBit_lt_two_pow (lt_of_lt_of_le h1 (Nat.pow_le_pow_right (by decide) (by omega)))
        · rw [ha', ofNat_xor, ← add_assoc, add_self, zero_add, ofNat_shiftLeft]
          exact Dvd.intro_left _ rfl
      · have hb : Nat.ble (2 ^ (e + c)) a = false := by rw [Bool.eq_false_iff]; intro h; exact hle (Nat.le_of_ble_eq_true h)
        rw [hb, cond_false] at ha'
        rw [ha']
        exact ⟨by omega, by rw [add_self]; exact dvd_zero _⟩
    obtain ⟨h1, h2⟩ := ih a' hstep.1
    refine ⟨h1, ?_⟩
    have := dvd_add hstep.2 h2
    rwa [add_assoc, ← add_assoc (ofNat a'), add_self, zero_add] at this

theorem rem_spec {d e n : Nat} (hd : d ≠ 0) (he : d.log2 = e) (hle : e ≤ 15) (hn : n < 65536) :
    rem d e n < 2 ^ e ∧ ofNat d ∣ ofNat n + ofNat (rem d e n) := by
  have h := remLoop_spec hd he (16 - e) n (by rw [show e + (16 - e) = 16 by omega]; exact hn)
  have h1 : (d <<< (16 - e)) / 2 = d <<< (15 - e) := by
    rw [Nat.shiftLeft_eq, Nat.shiftLeft_eq, show 16 - e = 15 - e + 1 by omega, Nat.pow_succ, ← Nat.mul_assoc]; omega
  rw [h1, show e + (16 - e) = 16 by omega] at h
  exact h

theorem eq_zero_of_dvd {d e r : Nat} (hd : d ≠ 0) (he : d.log2 = e) (hr : r < 2 ^ e) (h : ofNat d ∣ ofNat r) : r = 0 := by
  by_contra hne
  have h1 := natDegree_le_of_dvd h (fun h0 => hne (ofNat_inj (h0.trans ofNat_zero.symm)))
  rw [(natDegree_ofNat hd).1, (natDegree_ofNat hne).1, he] at h1
  have := (Nat.log2_lt hne).2 hr
  omega

theorem rem_eq_iff {d e m n : Nat} (hd : d ≠ 0) (he : d.log2 = e) (hle : e ≤ 15) (hm : m < 65536) (hn : n < 65536) :
    rem d e m = rem d e n ↔ ofNat d ∣ ofNat (m ^^^ n) := by
  obtain ⟨a1, a2⟩ := rem_spec hd he hle hm
  obtain ⟨b1, b2⟩ := rem_spec hd he hle hn
  rw [ofNat_xor]
  constructor
  · intro h
    have := dvd_add a2 b2
    rw [h] at this
    have e1 : ofNat m + ofNat (rem d e n) + (ofNat n + ofNat (rem d e n)) = ofNat m + ofNat n + (ofNat (rem d e n) + ofNat (rem d e n)) := by ring
    rwa [e1, add_self, add_zero] at this
  · intro h
    have h1 : ofNat d ∣ ofNat (rem d e m ^^^ rem d e n) := by
      have := dvd_add (dvd_add a2 b2) h
      have e1 : ofNat m + ofNat (rem d e m) + (ofNat n + ofNat (rem d e n)) + (ofNat m + ofNat n) =
        (ofNat (rem d e m) + ofNat (rem d e n)) + (ofNat m + ofNat m) + (ofNat n + ofNat n) := by ring
      rwa [e1, add_self, add_self, add_zero, add_zero, ← ofNat_xor] at this
    have h2 := eq_zero_of_dvd hd he (Nat.xor_lt_two_pow a1 b1) h1
    have : rem d e m ^^^ (rem d e m ^^^ rem d e n) = rem d e m ^^^ 0 := by rw [h2]
    rw [← Nat.xor_assoc, Nat.xor_self, Nat.zero_xor, Nat.xor_zero] at this
    exact this.symm

theorem rem_zero_iff {d e n : Nat} (hd : d ≠ 0) (he : d.log2 = e) (hle : e ≤ 15) (hn : n < 65536) : rem d e n = 0 ↔ ofNat d ∣ ofNat n := by
  obtain ⟨b1, b2⟩ := rem_spec hd he hle hn
  constructor
  · intro h; rwa [h, ofNat_zero, add_zero] at b2
  · intro h
    have := dvd_add h b2
    rw [← add_assoc, add_self, zero_add] at this
    exact eq_zero_of_dvd hd he b1 this

/-! ## The masks -/

theorem classTab_testBit (d e : Nat) : ∀ n, n ≤ 256 → ∀ c i, i < 256 → (classTab d e n).testBit (256 * c + i) = decide (i < n ∧ rem d e i = c) := by
  intro n
  induction n with
  | zero => intro _ c i _; simp [classTab]
  | succ n ih =>
    intro hn c i hi
    rw [classTab, Nat.testBit_or, ih (by omega) c i hi, Nat.one_shiftLeft, Nat.testBit_two_pow, ← Bool.decide_or, decide_eq_decide]
    constructor
    · rintro (h | h)
      · exact ⟨by omega, h.2⟩
      · obtain rfl : n = i := by omega
        exact ⟨by omega, by omega⟩
    · rintro ⟨h1, h2⟩
      by_cases h : i = n
      · subst h; right; rw [h2]
      · left; exact ⟨by omega, h2⟩

theorem multiples_testBit (tab d e : Nat) : ∀ k h i, i < 256 →
    (multiples tab d e k).testBit (256 * h + i) = (decide (h < k) && tab.testBit (256 * rem d e (256 * h) + i)) := by
  intro k
  induction k with
  | zero => intro h i _; simp [multiples]
  | succ k ih =>
    intro h i hi
    rw [multiples, Nat.testBit_or, ih h i hi, Nat.testBit_shiftLeft, Nat.testBit_mod_two_pow, Nat.testBit_shiftRight]
    rcases Nat.lt_trichotomy h k with hlt | rfl | hgt
    · rw [decide_eq_true hlt, decide_eq_true (show h < k + 1 by omega), decide_eq_false (show ¬ 256 * h + i ≥ 256 * k by omega)]
      simp
    · rw [decide_eq_false (lt_irrefl _), decide_eq_true (show 256 * h + i ≥ 256 * h by omega), show 256 * h + i - 256 * h = i by omega, decide_eq_true hi]
      simp
    · rw [decide_eq_false (show ¬ h < k by omega), decide_eq_false (show ¬ h < k + 1 by omega), decide_eq_false (show ¬ 256 * h + i - 256 * k < 256 by omega)]
      simp

theorem split_xor {h i : Nat} (hi : i < 256) : 256 * h + i = i ^^^ 256 * h := by
  apply Nat.eq_of_testBit_eq
  intro k
  rw [Nat.testBit_xor, show 256 * h + i = 2 ^ 8 * h + i by rfl, Nat.testBit_two_pow_mul_add h (by exact hi), show 256 * h = 2 ^ 8 * h by rfl, Nat.testBit_two_pow_mul]
  by_cases hk : k < 8
  · simp [hk, Nat.not_le.2 hk]
  · rw [if_neg hk, Nat.testBit_lt_two_pow (lt_of_lt_of_le (show i < 2 ^ 8 from hi) (Nat.pow_le_pow_right (by decide) (by omega)))]
    simp [Nat.le_of_not_lt hk]

theorem multiples_iff {d e n : Nat} (hd : d ≠ 0) (he : d.log2 = e) (hle : e ≤ 15) (hn : n < 65536) :
    (multiples (classTab d e 256) d e 256).testBit n = true ↔ ofNat d ∣ ofNat n := by
  have hi : n % 256 < 256 := Nat.mod_lt _ (by decide)
  have hn' : n = 256 * (n / 256) + n % 256 := by omega
  rw [hn', multiples_testBit _ _ _ _ _ _ hi, classTab_testBit _ _ _ (le_refl _) _ _ hi, decide_eq_true (show n / 256 < 256 by omega), Bool.true_and,
    decide_eq_true_iff, split_xor hi, ← rem_eq_iff hd he hle (by omega) (by omega)]
  exact ⟨fun h => h.2, fun h => ⟨hi, h⟩⟩

theorem sieve_iff (L : List (Nat × Nat)) (hL : ∀ p ∈ L, p.1 ≠ 0 ∧ p.1.log2 = p.2 ∧ 1 ≤ p.2 ∧ p.2 ≤ 7) {n : Nat} (hn : n < 65536) :
    (sieve L).testBit n = true ↔ ∃ p ∈ L, ofNat p.1 ∣ ofNat n := by
  induction L with
  | nil => simp [sieve]
  | cons p ps ih =>
    obtain ⟨h1, h2, h3, h4⟩ := hL p (by simp)
    rw [sieve, Nat.testBit_or, Bool.or_eq_true, multiples_iff h1 h2 (by omega) hn, ih (fun q hq => hL q (by simp [hq]))]
    simp

theorem chunkMask_iff : ∀ (k c n : Nat), (chunkMask k c).testBit n = true ↔ ∃ i < k, (c >>> (16 * i)) % 2 ^ 16 = n := by
  intro k
  induction k with
  | zero => intro c n; simp [chunkMask]
  | succ k ih =>
    intro c n
    rw [chunkMask, Nat.testBit_or, Bool.or_eq_true, ih, Nat.one_shiftLeft, Nat.testBit_two_pow, decide_eq_true_iff]
    have hs : ∀ i, (c / 65536) >>> (16 * i) = c >>> (16 * (i + 1)) := by
      intro i
      rw [show c / 65536 = c >>> 16 by rw [Nat.shiftRight_eq_div_pow], ← Nat.shiftRight_add]
      congr 1; omega
    constructor
    · rintro (h | ⟨i, hi, h⟩)
      · exact ⟨0, by omega, h⟩
      · exact ⟨i + 1, by omega, by rw [← hs]; exact h⟩
    · rintro ⟨i, hi, h⟩
      cases i with
      | zero => left; exact h
      | succ i => right; exact ⟨i, by omega, by rw [hs]; exact h⟩

theorem tableMask_iff (L : List Nat) (n : Nat) : (tableMask L).testBit n = true ↔ ∃ i < 80 * L.length, (L.getD (i / 80) 0 >>> (16 * (i % 80))) % 2 ^ 16 = n := by
  induction L with
  | nil => simp [tableMask]
  | cons c cs ih =>
    rw [tableMask, Nat.testBit_or, Bool.or_eq_true, chunkMask_iff, ih]
    constructor
    · rintro (⟨i, hi, h⟩ | ⟨i, hi, h⟩)
      · refine ⟨i, by rw [List.length_cons]; omega, ?_⟩
        rw [show i / 80 = 0 by omega, show i % 80 = i by omega]
        exact h
      · refine ⟨i + 80, by rw [List.length_cons]; omega, ?_⟩
        rw [show (i + 80) / 80 = i / 80 + 1 by omega, show (i + 80) % 80 = i % 80 by omega]
        exact h
    · rintro ⟨i, hi, h⟩
      rw [List.length_cons] at hi
      by_cases h80 : i < 80
      · left
        rw [show i / 80 = 0 by omega, show i % 80 = i by omega] at h
        exact ⟨i, h80, h⟩
      · right
        rw [show i / 80 = (i - 80) / 80 + 1 by omega, show i % 80 = (i - 80) % 80 by omega] at h
        exact ⟨i - 80, by omega, h⟩

/-! ## Irreducible polynomials -/

theorem eq_of_dvd {d n : Nat} (hn : Irreducible (ofNat n)) (hd : d ≠ 0) (h1 : 1 ≤ d.log2) (h : ofNat d ∣ ofNat n) : d = n := by
  obtain ⟨g1, g2⟩ := natDegree_ofNat hd
  have hnu : ¬ IsUnit (ofNat d) := by
    intro hu
    have := natDegree_eq_zero_of_isUnit hu
    omega
  have hassoc := (hn.dvd_iff.1 h).resolve_left hnu
  exact ofNat_inj (eq_of_monic_of_associated g2 (natDegree_ofNat (ofNat_poly hn).1).2 hassoc.symm)

theorem exists_factor {n : Nat} (h2 : 2 ≤ n) (hn : n < 65536) (h : ¬ Irreducible (ofNat n)) : ∃ d, 2 ≤ d ∧ d < 256 ∧ d ≠ n ∧ Irreducible (ofNat d) ∧ ofNat d ∣ ofNat n := by
  have hn0 : n ≠ 0 := by omega
  obtain ⟨g1, g2⟩ := natDegree_ofNat hn0
  have hlog1 : 1 ≤ n.log2 := (Nat.le_log2 hn0).2 (by simpa using h2)
  have hlog : n.log2 < 16 := (Nat.log2_lt hn0).2 hn
  have hne1 : ofNat n ≠ 1 := by
    intro h1
    rw [h1, natDegree_one] at g1
    omega
  rw [g2.irreducible_iff_lt_natDegree_lt hne1] at h
  push Not at h
  obtain ⟨q, hq1, hq2, hq3⟩ := h
  rw [Finset.mem_Ioc, g1] at hq2
  obtain ⟨r, hr1, hr2⟩ := WfDvdMonoid.exists_irreducible_factor (a := q) (fun hu => by have := natDegree_eq_zero_of_isUnit hu; omega) hq1.ne_zero
  obtain ⟨d, rfl⟩ := exists_number r
  have hd0 := ofNat_poly hr1
  have hdeg := natDegree_le_of_dvd hr2 hq1.ne_zero
  rw [(natDegree_ofNat hd0.1).1] at hdeg
  refine ⟨d, ?_, ?_, ?_, hr1, hr2.trans hq3⟩
  · have := (Nat.le_log2 hd0.1).1 hd0.2
    simpa using this
  · exact (Nat.log2_lt hd0.1 (k := 8)).1 (by omega)
  · rintro rfl
    omega

theorem smallCheck_get : ∀ {k n : Nat}, smallCheck k = true → n < k → 2 ≤ n →
    ((∃ p ∈ smallIrr, p.1 = n) ↔ ¬ ∃ p ∈ smallIrr, p.1 ≠ n ∧ rem p.1 p.2 n = 0) := by
  intro k
  induction k with
  | zero => intro n _ h; omega
  | succ k ih =>
    intro n h hn h2
    rw [smallCheck, Bool.and_eq_true] at h
    by_cases he : n = k
    · subst he
      have h1 := h.1
      rw [Bool.or_eq_true, decide_eq_true_iff] at h1
      have h3 := h1.resolve_left (by omega)
      rw [beq_iff_eq, Bool.eq_iff_iff, Bool.not_eq_true', Bool.eq_false_iff, List.any_eq_true, ne_eq, List.any_eq_true] at h3
      simp only [Nat.beq_eq, Bool.and_eq_true, Bool.not_eq_true', Bool.eq_false_iff, ne_eq] at h3
      exact h3
    · exact ih h.2 (by omega) h2

theorem small_iff {n : Nat} (h2 : 2 ≤ n) (hn : n < 256) : Irreducible (ofNat n) ↔ ∃ p ∈ smallIrr, p.1 = n := by
  have hto : ∀ m, 2 ≤ m → m < 256 → Irreducible (ofNat m) → ∃ p ∈ smallIrr, p.1 = m := by
    intro m hm2 hm hirr
    rw [smallCheck_get smallCheck_true hm hm2]
    rintro ⟨p, hp, hne, h0⟩
    obtain ⟨g1, g2, g3, g4⟩ := smallIrr_degree p hp
    rw [rem_zero_iff g1 g2 (by omega) (by omega)] at h0
    exact hne (eq_of_dvd hirr g1 (by omega) h0)
  refine ⟨hto n h2 hn, fun hs => ?_⟩
  by_contra hirr
  obtain ⟨d, d1, d2, d3, d4, d5⟩ := exists_factor h2 (by omega) hirr
  obtain ⟨p, hp, rfl⟩ := hto d d1 d2 d4
  obtain ⟨g1, g2, g3, g4⟩ := smallIrr_degree p hp
  exact (smallCheck_get smallCheck_true hn h2).1 hs ⟨p, hp, d3, (rem_zero_iff g1 g2 (by omega) (by omega)).2 d5⟩

theorem large_iff {n : Nat} (h : 256 ≤ n) (hn : n < 65536) : Irreducible (ofNat n) ↔ ¬ ∃ p ∈ smallIrr, ofNat p.1 ∣ ofNat n := by
  constructor
  · rintro hirr ⟨p, hp, hd⟩
    obtain ⟨g1, g2, g3, g4⟩ := smallIrr_degree p hp
    have he := eq_of_dvd hirr g1 (by omega) hd
    have : p.1 < 256 := (Nat.log2_lt g1 (k := 8)).1 (by omega)
    omega
  · intro h1
    by_contra hirr
    obtain ⟨d, d1, d2, d3, d4, d5⟩ := exists_factor (by omega) hn hirr
    obtain ⟨p, hp, rfl⟩ := (small_iff d1 d2).1 d4
    exact h1 ⟨p, hp, d5⟩

theorem lowMask_iff (L : List (Nat × Nat)) (n : Nat) : (L.foldr (fun p acc => 1 <<< p.1 ||| acc) 0).testBit n = true ↔ ∃ p ∈ L, p.1 = n := by
  induction L with
  | nil => simp
  | cons p ps ih =>
    rw [List.foldr_cons, Nat.testBit_or, Bool.or_eq_true, ih, Nat.one_shiftLeft, Nat.testBit_two_pow, decide_eq_true_iff]
    simp

/-- The table holds exactly the irreducible polynomials with at most 16 bits. -/
theorem table_iff {n : Nat} (hn : n < 65536) : (∃ i < 4720, defaultNbTable.polynomial i = n) ↔ Irreducible (ofNat n) := by
  have hmask : (∃ i < 4720, defaultNbTable.polynomial i = n) ↔ (tableMask nbChunks).testBit n = true := (tableMask_iff nbChunks n).symm
  rw [hmask]
  by_cases h : n < 256
  · have h1 := lowCheck_true
    unfold lowCheck at h1
    rw [Nat.beq_eq] at h1
    have h2 := congrArg (·.testBit n) h1
    simp only [Nat.testBit_mod_two_pow, h, decide_true, Bool.true_and] at h2
    rw [h2, lowMask_iff]
    by_cases hn2 : 2 ≤ n
    · exact (small_iff hn2 h).symm
    · constructor
      · rintro ⟨p, hp, rfl⟩
        obtain ⟨g1, g2, g3, g4⟩ := smallIrr_degree p hp
        have := (Nat.le_log2 g1).1 (by omega : 1 ≤ p.1.log2)
        omega
      · intro hirr
        have := ofNat_poly hirr
        have h3 := (Nat.le_log2 this.1).1 this.2
        omega
  · have h1 := sieveCheck_true
    unfold sieveCheck at h1
    rw [Nat.beq_eq] at h1
    have h2 := congrArg (·.testBit (n - 256)) h1
    simp only [Nat.testBit_shiftRight, show 256 + (n - 256) = n by omega, Nat.testBit_xor, Nat.testBit_two_pow_sub_one] at h2
    rw [decide_eq_true (by omega : n - 256 < 65280)] at h2
    rw [large_iff (by omega) hn, ← sieve_iff smallIrr smallIrr_degree hn]
    cases h3 : (tableMask nbChunks).testBit n <;> cases h4 : (sieve smallIrr).testBit n <;> rw [h3, h4] at h2 <;> simp at h2 ⊢

/-! ## The table is ascending -/

theorem incLoop_get : ∀ (k c i : Nat), incLoop k c = true → i < k → (c >>> (16 * i)) % 2 ^ 16 < (c >>> (16 * (i + 1))) % 2 ^ 16 := by
  intro k
  induction k with
  | zero => intro c i _ h; omega
  | succ k ih =>
    intro c i h hi
    rw [incLoop, Bool.and_eq_true] at h
    have hs : ∀ i, (c / 65536) >>> (16 * i) = c >>> (16 * (i + 1)) := by
      intro i
      rw [show c / 65536 = c >>> 16 by rw [Nat.shiftRight_eq_div_pow], ← Nat.shiftRight_add]
      congr 1; omega
    cases i with
    | zero =>
      have h1 := Nat.le_of_ble_eq_true h.1
      rw [show c / 65536 = c >>> 16 by rw [Nat.shiftRight_eq_div_pow]] at h1
      exact h1
    | succ i =>
      have := ih (c / 65536) i h.2 (by omega)
      rwa [hs, hs] at this

theorem incChunks_get : ∀ (L : List Nat), incChunks L = true → ∀ i, i + 1 < 80 * L.length →
    (L.getD (i / 80) 0 >>> (16 * (i % 80))) % 2 ^ 16 < (L.getD ((i + 1) / 80) 0 >>> (16 * ((i + 1) % 80))) % 2 ^ 16 := by
  intro L
  induction L with
  | nil => intro _ i hi; simp at hi
  | cons c cs ih =>
    intro h i hi
    rw [List.length_cons] at hi
    have hc : incLoop 79 c = true := by
      cases cs with
      | nil => exact h
      | cons c' cs => rw [incChunks, Bool.and_eq_true, Bool.and_eq_true] at h; exact h.1.1
    by_cases h79 : i < 79
    · rw [show i / 80 = 0 by omega, show (i + 1) / 80 = 0 by omega, show i % 80 = i by omega, show (i + 1) % 80 = i + 1 by omega]
      exact incLoop_get 79 c i hc h79
    · cases cs with
      | nil => simp at hi; omega
      | cons c' cs =>
        rw [incChunks, Bool.and_eq_true, Bool.and_eq_true] at h
        by_cases he : i = 79
        · subst he
          have h1 := Nat.le_of_ble_eq_true h.1.2
          show (c >>> (16 * 79)) % 2 ^ 16 < (c' >>> 0) % 2 ^ 16
          rw [Nat.shiftRight_eq_div_pow, Nat.shiftRight_zero]
          rw [show (65536 : Nat) ^ 79 = 2 ^ (16 * 79) by rw [Nat.pow_mul]] at h1
          exact h1
        · have := ih h.2 (i - 80) (by omega)
          rw [show i / 80 = (i - 80) / 80 + 1 by omega, show (i + 1) / 80 = (i - 80 + 1) / 80 + 1 by omega, show i % 80 = (i - 80) % 80 by omega,
            show (i + 1) % 80 = (i - 80 + 1) % 80 by omega]
          exact this

theorem table_ascending {i j : Nat} (h : i < j) (hj : j < 4720) : defaultNbTable.polynomial i < defaultNbTable.polynomial j := by
  induction j with
  | zero => omega
  | succ j ih =>
    have hs : defaultNbTable.polynomial j < defaultNbTable.polynomial (j + 1) := incChunks_get nbChunks incChunks_true j (by
      show j + 1 < 80 * 59
      omega)
    by_cases he : i = j
    · rw [he]; exact hs
    · exact lt_trans (ih (by omega) (by omega)) hs

theorem table_lt (i : Nat) : defaultNbTable.polynomial i < 65536 := Nat.mod_lt _ (by decide)

end Nb
end Boost.Random
