import Verif.Proofs.FaureNet
import Verif.Spec.RealDist
import Mathlib.Data.Nat.Prime.Basic
import Mathlib.Data.Nat.Sqrt

/-!
# Faure engine: the table of primes, the states
-/

namespace Boost.Random
namespace Faure
open Qrng Spec

/-! ## The table -/

/-- The table has the numbers up to 1117 that have no divisor from 2 to 33 but themselves. -/
def tableCheck : Bool := (List.range 1118).all fun n =>
  (faurePrimes.contains n) == (decide (2 ≤ n) && (List.range' 2 32).all fun d => decide (n ≤ d) || decide (n % d ≠ 0))

theorem tableCheck_true : tableCheck = true := by decide +kernel

theorem mem_table {n : Nat} (hn : n ≤ 1117) : n ∈ faurePrimes ↔ n.Prime := by
  have h := tableCheck_true
  unfold tableCheck at h
  rw [List.all_eq_true] at h
  have h1 := h n (List.mem_range.2 (by omega))
  rw [beq_iff_eq] at h1
  rw [← List.contains_iff_mem, h1, Bool.and_eq_true, decide_eq_true_iff, List.all_eq_true, Nat.prime_def_le_sqrt]
  refine and_congr_right fun h2 => ⟨fun h3 m hm hs hd => ?_, fun h3 d hd => ?_⟩
  · have hs' := Nat.le_sqrt.1 hs
    have hm33 : m < 34 := by
      by_contra hge
      have : 34 * 34 ≤ m * m := Nat.mul_le_mul (by omega) (by omega)
      omega
    have h4 := h3 m (List.mem_range'_1.2 ⟨hm, by omega⟩)
    rw [Bool.or_eq_true, decide_eq_true_iff, decide_eq_true_iff] at h4
    rcases h4 with h4 | h4
    · have : m * 2 ≤ m * m := Nat.mul_le_mul_left _ hm
      omega
    · exact h4 (Nat.mod_eq_zero_of_dvd hd)
  · rw [List.mem_range'_1] at hd
    rw [Bool.or_eq_true, decide_eq_true_iff, decide_eq_true_iff]
    by_cases hle : n ≤ d
    · exact Or.inl hle
    · refine Or.inr fun h4 => ?_
      have hdvd := Nat.dvd_of_mod_eq_zero h4
      have hprime : n.Prime := Nat.prime_def_le_sqrt.2 ⟨h2, h3⟩
      rcases (Nat.dvd_prime hprime).1 hdvd with h5 | h5 <;> omega

theorem table_sorted : faurePrimes.Pairwise (· < ·) := by decide +kernel

theorem table_le {p : Nat} (h : p ∈ faurePrimes) : p ≤ 1117 := by
  have : faurePrimes.all (fun p => decide (p ≤ 1117)) = true := by decide +kernel
  rw [List.all_eq_true] at this
  exact of_decide_eq_true (this p h)

theorem table_last : faurePrimes.getLastD 0 = 1117 := by decide +kernel

theorem faurePrime_throw {n : Nat} : faurePrime n = .throw ↔ n = 0 ∨ 1117 < n := by
  unfold faurePrime
  rw [table_last]
  by_cases h : n = 0 ∨ n > 1117
  · rw [if_pos h]; exact ⟨fun _ => h, fun _ => rfl⟩
  · rw [if_neg h]
    refine ⟨fun h' => ?_, fun h' => absurd h' h⟩
    split at h' <;> simp at h'

theorem faurePrime_ok {n : Nat} (h0 : 0 < n) (hn : n ≤ 1117) : ∃ p, faurePrime n = .ok p ∧ IsLeastPrime n p ∧ p ≤ 1117 := by
  unfold faurePrime
  rw [table_last, if_neg (by omega)]
  match hf : faurePrimes.find? fun p => ¬ p < n with
  | none =>
    rw [List.find?_eq_none] at hf
    have := hf 1117 (by decide +kernel)
    simp at this
    omega
  | some p =>
    obtain ⟨hp, as, bs, hs, ha⟩ := List.find?_eq_some_iff_append.1 hf
    have hmem : p ∈ faurePrimes := by rw [hs]; simp
    have hle := table_le hmem
    refine ⟨p, rfl, ⟨(mem_table hle).1 hmem, by simpa using hp, fun q hq hnq => ?_⟩, hle⟩
    by_cases hq' : q ≤ 1117
    · have hqm := (mem_table hq').2 hq
      have hsort := table_sorted
      rw [hs] at hqm hsort
      rw [List.mem_append, List.mem_cons] at hqm
      rcases hqm with h | h | h
      · have := ha q h
        simp at this
        omega
      · omega
      · rw [List.pairwise_append] at hsort
        have := (List.pairwise_cons.1 hsort.2.1).1 q h
        omega
    · omega

theorem faurePrime_inv {n p : Nat} (h : faurePrime n = .ok p) : 0 < n ∧ n ≤ 1117 ∧ IsLeastPrime n p ∧ p ≤ 1117 := by
  have hr : ¬ (n = 0 ∨ 1117 < n) := fun hc => by rw [faurePrime_throw.2 hc] at h; simp at h
  obtain ⟨p', h1, h2, h3⟩ := faurePrime_ok (n := n) (by omega) (by omega)
  rw [h1] at h
  obtain rfl : p' = p := Res.ok.inj h
  exact ⟨by omega, by omega, h2, h3⟩

theorem faurePrime_ub (n : Nat) : faurePrime n ≠ .ub := by
  by_cases hr : n = 0 ∨ 1117 < n
  · rw [faurePrime_throw.2 hr]; simp
  · obtain ⟨p', h1, _⟩ := faurePrime_ok (n := n) (by omega) (by omega)
    rw [h1]; simp

theorem faurePrime_table : TableOk faurePrime := fun _ _ h => by
  obtain ⟨h1, _, h2, _⟩ := faurePrime_inv h
  exact ⟨h1, h2.1.two_le⟩

/-! ## The states -/

/-- The invariant of the engine with the default table. -/
abbrev FInv (fl : ℚ → ℚ) (digits dim : Nat) (q : Q Binom ℚ) : Prop :=
  Inv (LOk faurePrime) (fun dim => point fl (baseOf faurePrime dim) dim) (2 ^ digits) dim q

section
variable (fl : ℚ → ℚ) {digits : Nat} (hd : 1 ≤ digits) (h64 : digits ≤ 64)
include hd h64

theorem lawful : Lawful (faure fl digits faurePrime) (LOk faurePrime) (fun dim => point fl (baseOf faurePrime dim) dim) (2 ^ digits) :=
  faure_lawful fl faurePrime_table hd h64

omit h64 in
theorem seedAny : SeedAny (faure fl digits faurePrime) (LOk faurePrime) (fun dim => point fl (baseOf faurePrime dim) dim) (2 ^ digits) :=
  fun _ _ _ _ _ hl hq hi => faureCompute_eq fl faurePrime_table hd hl hq hi

omit hd h64 in
theorem resize_dim {dim : Nat} {l : Binom} (h : (faure fl digits faurePrime).resize dim = .ok l) : 0 < dim ∧ dim ≤ 1117 := by
  unfold faure binomResize at h
  simp only at h
  match hb : faurePrime dim with
  | .ok b =>
    obtain ⟨h1, h2, _⟩ := faurePrime_inv hb
    exact ⟨h1, h2⟩
  | .throw => rw [hb] at h; exact absurd h (by simp [Res.bind])
  | .ub => rw [hb] at h; exact absurd h (by simp [Res.bind])

omit hd h64 in
theorem resize_ub (dim : Nat) : (faure fl digits faurePrime).resize dim ≠ .ub := by
  unfold faure binomResize
  simp only
  match hb : faurePrime dim with
  | .ok b => simp [Res.bind]
  | .throw => simp [Res.bind]
  | .ub => exact absurd hb (faurePrime_ub dim)

omit hd h64 in
theorem FInv.dim {dim : Nat} {q : Q Binom ℚ} (I : FInv fl digits dim q) : dim ≤ 1117 ∧ faurePrime dim = .ok (baseOf faurePrime dim) := by
  have := I.lat.cache.2
  exact ⟨(faurePrime_inv this).2.1, this⟩

theorem read_inv {dim : Nat} {t : Q Binom ℚ} (I : FInv fl digits dim t) (s : IStream) :
    (∃ dim' t' s', read (faure fl digits faurePrime) s t = .ok t' s' ∧ FInv fl digits dim' t') ∨
    (∃ dim' t', read (faure fl digits faurePrime) s t = .threw t' ∧ FInv fl digits dim' t') :=
  read_any (lawful fl hd h64) (seedAny fl hd) rfl (fun _ _ h => by have := resize_dim fl h; omega) (resize_ub fl) I s

/-- Every state reached satisfies the invariant. -/
theorem reach_inv {q : Q Binom ℚ} (h : QReach (faure fl digits faurePrime) q) : FInv fl digits q.quasi.length q := by
  have H := lawful fl hd h64
  suffices ∃ dim, FInv fl digits dim q by
    obtain ⟨dim, I⟩ := this
    rwa [I.length H]
  induction h with
  | @make dim q h =>
    have h0 : 0 < dim := by
      by_contra hc
      unfold make at h
      rw [if_pos (by omega)] at h
      simp at h
    match hr : (faure fl digits faurePrime).resize dim with
    | .ok l =>
      obtain ⟨q', k1, k2, _⟩ := make_ok H h0 (by have := resize_dim fl hr; omega) hr
      rw [h] at k1
      obtain rfl : q = q' := Res.ok.inj k1
      exact ⟨dim, k2⟩
    | .throw =>
      unfold make at h
      rw [if_neg (by omega), hr] at h
      simp [Res.bind] at h
    | .ub => exact absurd hr (resize_ub fl dim)
  | @next q v q' _ h ih =>
    obtain ⟨dim, I⟩ := ih
    by_cases hl : qPosition q / dim < 2 ^ digits
    · obtain ⟨v', q'', g1, _, g3, _⟩ := next_ok H I hl
      rw [h] at g1
      have := (Prod.mk.inj (Res.ok.inj g1)).2
      subst this
      exact ⟨dim, g3⟩
    · rw [next_throw H I hl] at h; simp at h
  | @seed0 q q' _ h ih =>
    obtain ⟨dim, I⟩ := ih
    obtain ⟨q'', g1, g2, _⟩ := seed0_ok H I
    rw [h] at g1
    obtain rfl : q' = q'' := Res.ok.inj g1
    exact ⟨dim, g2⟩
  | @seed q n q' _ hn h ih =>
    obtain ⟨dim, I⟩ := ih
    obtain ⟨q'', g1, g2, _⟩ := seed_inv H I hn
    rw [h] at g1
    obtain rfl : q' = q'' := Res.ok.inj g1
    exact ⟨dim, g2⟩
  | @discard q z q' _ _ h ih =>
    obtain ⟨dim, I⟩ := ih
    rcases discard_inv H I z with g | ⟨q'', g1, g2⟩
    · rw [g] at h; simp at h
    · rw [h] at g1
      obtain rfl : q' = q'' := Res.ok.inj g1
      exact ⟨dim, g2⟩
  | @read q s q' s' _ h ih =>
    obtain ⟨dim, I⟩ := ih
    rcases read_inv fl hd h64 I s with ⟨dim', t', s'', g1, g2⟩ | ⟨dim', t', g1, g2⟩
    · rw [h] at g1
      obtain ⟨rfl, _⟩ := ReadRes.ok.inj g1
      exact ⟨dim', g2⟩
    · rw [h] at g1; simp at g1
  | @readThrew q s q' _ h ih =>
    obtain ⟨dim, I⟩ := ih
    rcases read_inv fl hd h64 I s with ⟨dim', t', s'', g1, g2⟩ | ⟨dim', t', g1, g2⟩
    · rw [h] at g1; simp at g1
    · rw [h] at g1
      obtain rfl : q' = t' := ReadRes.threw.inj g1
      exact ⟨dim', g2⟩

theorem make_inv {dim : Nat} (h0 : 0 < dim) (hn : dim ≤ 1117) : ∃ q, make (faure fl digits faurePrime) dim = .ok q ∧ FInv fl digits dim q ∧ qPosition q = 0 := by
  obtain ⟨p, h1, _⟩ := faurePrime_ok h0 hn
  have hr : (faure fl digits faurePrime).resize dim = .ok ⟨p, [], [], none⟩ := by
    unfold faure binomResize
    simp only [h1]
    rfl
  obtain ⟨q, k1, k2, k3, k4⟩ := make_ok (lawful fl hd h64) h0 (by omega) hr
  exact ⟨q, k1, k2, by rw [qPosition, k3, k4]; simp⟩

end

/-! ## Rounded coordinates -/

theorem faureSum_eq (fl : ℚ → ℚ) (b n d k : Nat) : faureSum fl b n d k = (accum fl b (faureDigit b (len b n) n d) k, rr fl b k) := by
  induction k with
  | zero => rfl
  | succ k ih =>
    rw [faureSum, ih]
    rfl

theorem faureFirst_eq {fl : ℚ → ℚ} {b : Nat} (hb : 2 ≤ b) (hfl : Ex fl b) (n : Nat) : firstCoord fl b n (len b n) = faureFirst fl b n := by
  unfold firstCoord faureFirst digs
  rw [List.foldl_reverse, List.foldr_map]
  apply congrFun
  apply congrFun
  apply congrArg
  funext j r
  unfold recipStep
  rw [hfl b (le_refl _), hfl _ (by have := Nat.mod_lt (n / b ^ j) (by omega : 0 < b); omega)]

theorem computed_eq {fl : ℚ → ℚ} {b : Nat} (hb : 2 ≤ b) (hfl : Ex fl b) (n d : Nat) : computed fl b n d = faureRounded fl b n d := by
  unfold computed faureRounded
  split
  · exact faureFirst_eq hb hfl n
  · rw [faureSum_eq]; rfl

/-- For the primes of the table and 64-bit counters all sums of digits are exact with 24 bits. -/
theorem sum_small {b n : Nat} (hb : 2 ≤ b) (hb' : b ≤ 1117) (hn : n < 2 ^ 64) : len b n * ((b - 1) * (b - 1)) < 2 ^ 24 ∧ b < 2 ^ 24 := by
  refine ⟨?_, by omega⟩
  have hpow : b ^ Nat.log b n < 2 ^ 64 := by
    by_cases h0 : n = 0
    · subst h0; simp
    · exact lt_of_le_of_lt (Nat.pow_log_le_self b h0) hn
  have key : ∀ k c, c ^ k ≥ 2 ^ 64 → k ≤ Nat.log b n → b < c := by
    intro k c hc hk
    by_contra hge
    have h1 : c ^ k ≤ b ^ k := Nat.pow_le_pow_left (by omega) k
    have h2 : b ^ k ≤ b ^ Nat.log b n := Nat.pow_le_pow_right (by omega) hk
    omega
  have hl : Nat.log b n < 64 := by
    by_contra hge
    have := key 64 2 (by norm_num) (by omega)
    omega
  unfold len
  by_cases h1 : Nat.log b n ≤ 6
  · calc (Nat.log b n + 1) * ((b - 1) * (b - 1)) ≤ 7 * (1116 * 1116) := Nat.mul_le_mul (by omega) (Nat.mul_le_mul (by omega) (by omega))
      _ < 2 ^ 24 := by norm_num
  · have h2 := key 7 566 (by norm_num) (by omega)
    by_cases h3 : Nat.log b n ≤ 7
    · calc (Nat.log b n + 1) * ((b - 1) * (b - 1)) ≤ 8 * (564 * 564) := Nat.mul_le_mul (by omega) (Nat.mul_le_mul (by omega) (by omega))
        _ < 2 ^ 24 := by norm_num
    · have h4 := key 8 256 (by norm_num) (by omega)
      calc (Nat.log b n + 1) * ((b - 1) * (b - 1)) ≤ 64 * (254 * 254) := Nat.mul_le_mul (by omega) (Nat.mul_le_mul (by omega) (by omega))
        _ < 2 ^ 24 := by norm_num

theorem ex_of_rounding {p : Nat} {fl : ℚ → ℚ} (R : Rounding p fl) {B : Nat} (hB : B < 2 ^ p) : Ex fl B := fun n hn =>
  R.exact _ ⟨n, 0, by rw [abs_of_nonneg (by omega)]; exact_mod_cast lt_of_le_of_lt hn hB, by simp⟩

end Faure
end Boost.Random
