import Verif.Proofs.FaureEngine
import Verif.Spec.Faure
import Mathlib.Algebra.Polynomial.Taylor
import Mathlib.Algebra.Polynomial.RingDivision
import Mathlib.Algebra.Field.ZMod
import Mathlib.Data.ZMod.Basic
import Mathlib.Data.Fintype.Pi
import Mathlib.Data.Fintype.BigOperators
import Mathlib.Algebra.Polynomial.AlgebraMap
import Mathlib.Tactic.Positivity
import Mathlib.Algebra.BigOperators.Field
import Mathlib.Tactic.FieldSimp

/-!
# Faure engine: the digits of the coordinates
-/

namespace Boost.Random
namespace Faure
open Qrng Spec

/-- Natural numbers up to `B` are exact. -/
def Ex (fl : ℚ → ℚ) (B : Nat) : Prop := ∀ n : Nat, n ≤ B → fl n = n

/-- A vector of natural numbers. -/
def vec (h : Nat) (Y : Nat → Nat) : List ℚ := (List.range h).map fun j => (Y j : ℚ)

/-- The sum of which the new digit is the remainder. -/
def stepSum (b h : Nat) (Y : Nat → Nat) (i : Nat) : Nat := ∑ j ∈ Finset.Ico i h, Y j * (j.choose i % b)

/-- The digits of the next coordinate. -/
def step (b h : Nat) (Y : Nat → Nat) (i : Nat) : Nat := stepSum b h Y i % b

theorem vec_get {h : Nat} (Y : Nat → Nat) {i : Nat} (hi : i < h) : (vec h Y)[i]? = some (Y i : ℚ) := by
  unfold vec; rw [List.getElem?_map, List.getElem?_range hi]; rfl

theorem vec_congr {h : Nat} {Y Z : Nat → Nat} (e : ∀ i < h, Y i = Z i) : vec h Y = vec h Z := by
  unfold vec
  apply List.map_congr_left
  intro i hi
  rw [e i (List.mem_range.1 hi)]

theorem sum_le {b h : Nat} {Y : Nat → Nat} (hb : 2 ≤ b) (hY : ∀ j < h, Y j < b) {i k : Nat} (hk : k ≤ h) :
    ∑ j ∈ Finset.Ico i k, Y j * (j.choose i % b) ≤ h * ((b - 1) * (b - 1)) := by
  calc ∑ j ∈ Finset.Ico i k, Y j * (j.choose i % b) ≤ ∑ _j ∈ Finset.Ico i k, (b - 1) * (b - 1) := by
        apply Finset.sum_le_sum
        intro j hj
        rw [Finset.mem_Ico] at hj
        have h1 := hY j (by omega)
        have h2 := Nat.mod_lt (j.choose i) (by omega : 0 < b)
        exact Nat.mul_le_mul (by omega) (by omega)
    _ = (k - i) * ((b - 1) * (b - 1)) := by rw [Finset.sum_const, Nat.card_Ico, smul_eq_mul]
    _ ≤ h * ((b - 1) * (b - 1)) := Nat.mul_le_mul_right _ (by omega)

section
variable {fl : ℚ → ℚ} {b h B : Nat} (hb : 2 ≤ b) (hfl : Ex fl B) (hB : h * ((b - 1) * (b - 1)) ≤ B) (hB' : b ≤ B)
include hb hfl hB hB'

theorem ztemp_eq {c : List Nat} (T : Tab h c (fun i j => j.choose i % b)) {Y : Nat → Nat} (hY : ∀ j < h, Y j < b) {i : Nat} (hi : i < h) :
    ztemp fl c (vec h Y) i h = some ((stepSum b h Y i : Nat) : ℚ) := by
  have hterm : ∀ j < h, Y j * (j.choose i % b) ≤ B := by
    intro j hj
    have h1 := hY j hj
    have h2 := Nat.mod_lt (j.choose i) (by omega : 0 < b)
    calc Y j * (j.choose i % b) ≤ (b - 1) * (b - 1) := Nat.mul_le_mul (by omega) (by omega)
      _ = 1 * ((b - 1) * (b - 1)) := by rw [Nat.one_mul]
      _ ≤ h * ((b - 1) * (b - 1)) := Nat.mul_le_mul_right _ (by omega)
      _ ≤ B := hB
  unfold ztemp
  rw [vec_get Y hi, T.getUpper (le_refl i) hi]
  simp only [Option.bind_some]
  obtain ⟨a, e1, e2⟩ := foldlM_inv (fun (z : ℚ) j => (vec h Y)[j]?.bind fun y => (getUpper c i j h).map fun u => fl (z + fl (y * u)))
    (fun k z => z = ((∑ j ∈ Finset.Ico i k, Y j * (j.choose i % b) : Nat) : ℚ)) (h - (i + 1)) (i + 1) (fl ((Y i : ℚ) * ((i.choose i % b : Nat) : ℚ)))
    (by
      have hx := hterm i hi
      rw [← Nat.cast_mul, hfl _ hx, show Finset.Ico i (i + 1) = {i} by simp, Finset.sum_singleton])
    (by
      rintro k z hk hk' rfl
      rw [vec_get Y (by omega), T.getUpper (by omega) (by omega)]
      refine ⟨_, rfl, ?_⟩
      beta_reduce
      have hx := hterm k (by omega)
      have hs := le_trans (sum_le hb hY (i := i) (k := k + 1) (by omega)) hB
      rw [Finset.sum_Ico_succ_top (by omega)] at hs
      rw [← Nat.cast_mul, hfl _ hx, ← Nat.cast_add, hfl _ hs, Finset.sum_Ico_succ_top (by omega)])
  rw [e1, e2, show i + 1 + (h - (i + 1)) = h by omega]
  rfl

omit hB hB' hfl in
theorem fmod_eq (z : Nat) : fmod (z : ℚ) (b : ℚ) = ((z % b : Nat) : ℚ) := by
  unfold fmod
  rw [Rat.floor_natCast_div_natCast]
  have h1 := Nat.div_add_mod z b
  have h2 : (z : ℚ) = (b : ℚ) * ((z / b : Nat) : ℚ) + ((z % b : Nat) : ℚ) := by exact_mod_cast h1.symm
  rw [h2]
  have h3 : ((((z : ℤ) / (b : ℤ) : ℤ)) : ℚ) = ((z / b : Nat) : ℚ) := by
    rw [← Int.natCast_ediv]; rfl
  rw [h3]
  ring

/-- The power in `r` after `i` rounds. -/
def rr (fl : ℚ → ℚ) (b : Nat) : Nat → ℚ
  | 0 => 1
  | i + 1 => fl (rr fl b i * b)

/-- The coordinate after `i` rounds. -/
def accum (fl : ℚ → ℚ) (b : Nat) (Z : Nat → Nat) : Nat → ℚ
  | 0 => 0
  | i + 1 => fl (accum fl b Z i + fl ((Z i : ℚ) / rr fl b (i + 1)))

theorem faureCoord_eq {c : List Nat} (T : Tab h c (fun i j => j.choose i % b)) {Y : Nat → Nat} (hY : ∀ j < h, Y j < b) :
    faureCoord fl b c h (vec h Y) = some (accum fl b (step b h Y) h, vec h (step b h Y)) := by
  unfold faureCoord
  rw [List.range_eq_range']
  have hflb : fl (b : ℚ) = b := hfl b hB'
  have hfl1 : fl (1 : ℚ) = 1 := by exact_mod_cast hfl 1 (by omega)
  obtain ⟨a, e1, e2⟩ := foldlM_inv (fun (s : ℚ × ℚ × List ℚ) i =>
    (ztemp fl c s.2.2 i h).map fun z => (fl (s.1 + fl (fmod z (fl b) / fl (s.2.1 * fl b))), fl (s.2.1 * fl b), s.2.2.set i (fmod z (fl b))))
    (fun k s => s = (accum fl b (step b h Y) k, rr fl b k, vec h (fun j => if j < k then step b h Y j else Y j))) h 0 (0, fl 1, vec h Y)
    (by rw [hfl1]; simp [accum, rr]) (by
      rintro k s _ hk rfl
      have hk : k < h := by omega
      have hlt : ∀ j < h, (fun j => if j < k then step b h Y j else Y j) j < b := by
        intro j hj
        simp only
        split
        · exact Nat.mod_lt _ (by omega)
        · exact hY j hj
      have hs : stepSum b h (fun j => if j < k then step b h Y j else Y j) k = stepSum b h Y k := by
        unfold stepSum
        apply Finset.sum_congr rfl
        intro j hj
        rw [Finset.mem_Ico] at hj
        beta_reduce
        rw [if_neg (by omega)]
      simp only
      rw [ztemp_eq hb hfl hB hB' T hlt hk, hs, Option.map_some, hflb, fmod_eq hb]
      refine ⟨_, rfl, ?_⟩
      refine Prod.ext rfl (Prod.ext rfl ?_)
      simp only
      apply List.ext_getElem?
      intro m
      by_cases hm : m < h
      · rw [vec_get _ hm]
        by_cases hmk : m = k
        · subst hmk
          rw [List.getElem?_set_self (by unfold vec; simpa using hm), if_pos (by omega)]
          rfl
        · rw [List.getElem?_set_ne (by omega), vec_get _ hm]
          by_cases h1 : m < k
          · rw [if_pos h1, if_pos (by omega)]
          · rw [if_neg h1, if_neg (by omega)]
      · rw [List.getElem?_eq_none (by unfold vec; simpa using hm), List.getElem?_eq_none (by unfold vec; simpa using hm)])
  rw [e1, e2]
  simp only [Option.map_some, Nat.zero_add]
  congr 2
  apply vec_congr
  intro i hi
  rw [if_pos hi]

omit hfl hB hB' in
theorem step_lt (Y : Nat → Nat) (i : Nat) : step b h Y i < b := Nat.mod_lt _ (by omega)

theorem faureCoords_eq {c : List Nat} (T : Tab h c (fun i j => j.choose i % b)) (count : Nat) : ∀ {Y : Nat → Nat}, (∀ j < h, Y j < b) →
    ∃ y', faureCoords fl b c h count (vec h Y) = some ((List.range count).map fun d => accum fl b ((step b h)^[d + 1] Y) h, y') := by
  induction count with
  | zero => intro Y _; exact ⟨_, rfl⟩
  | succ k ih =>
    intro Y hY
    obtain ⟨y', hy⟩ := ih (Y := step b h Y) (fun j _ => step_lt hb Y j)
    refine ⟨y', ?_⟩
    rw [faureCoords, faureCoord_eq hb hfl hB hB' T hY]
    simp only [Option.bind_some, hy, Option.map_some]
    rw [List.range_succ_eq_map, List.map_cons, List.map_map]
    rfl

end

/-! ## The digits in closed form -/

open Polynomial

/-- The polynomial with the coefficients `Y j`, `j < h`. -/
noncomputable def pol (b h : Nat) (Y : Nat → Nat) : (ZMod b)[X] := ∑ j ∈ Finset.range h, monomial j (Y j : ZMod b)

theorem pol_coeff (b h : Nat) (Y : Nat → Nat) (i : Nat) : (pol b h Y).coeff i = if i < h then (Y i : ZMod b) else 0 := by
  unfold pol
  rw [finsetSum_coeff]
  simp only [coeff_monomial]
  rw [Finset.sum_ite_eq' (Finset.range h) i]
  simp only [Finset.mem_range]

theorem taylor_pol (b h : Nat) (Y : Nat → Nat) (r : ZMod b) (i : Nat) :
    (taylor r (pol b h Y)).coeff i = ∑ j ∈ Finset.range h, ((j.choose i : Nat) : ZMod b) * r ^ (j - i) * (Y j : ZMod b) := by
  unfold pol
  rw [map_sum, finsetSum_coeff]
  apply Finset.sum_congr rfl
  intro j _
  rw [taylor_monomial, coeff_C_mul, coeff_X_add_C_pow]
  ring

theorem pol_step {b h : Nat} (Y : Nat → Nat) : pol b h (step b h Y) = taylor 1 (pol b h Y) := by
  ext i
  rw [pol_coeff, taylor_pol]
  by_cases hi : i < h
  · rw [if_pos hi]
    unfold step stepSum
    rw [ZMod.natCast_mod, Finset.range_eq_Ico, ← Finset.sum_Ico_consecutive _ (Nat.zero_le i) (by omega : i ≤ h)]
    have hz : ∑ j ∈ Finset.Ico 0 i, ((j.choose i : Nat) : ZMod b) * 1 ^ (j - i) * (Y j : ZMod b) = 0 := by
      apply Finset.sum_eq_zero
      intro j hj
      rw [Finset.mem_Ico] at hj
      rw [Nat.choose_eq_zero_of_lt (by omega)]
      simp
    rw [hz, zero_add, Nat.cast_sum]
    apply Finset.sum_congr rfl
    intro j _
    rw [Nat.cast_mul, ZMod.natCast_mod, one_pow, mul_one, mul_comm]
  · rw [if_neg hi]
    symm
    apply Finset.sum_eq_zero
    intro j hj
    rw [Finset.mem_range] at hj
    rw [Nat.choose_eq_zero_of_lt (by omega)]
    simp

theorem pol_iterate {b h : Nat} (d : Nat) : ∀ Y : Nat → Nat, pol b h ((step b h)^[d] Y) = taylor (d : ZMod b) (pol b h Y) := by
  induction d with
  | zero => intro Y; simp
  | succ d ih =>
    intro Y
    rw [Function.iterate_succ_apply, ih, pol_step, taylor_taylor, Nat.cast_succ]

/-- The digits of coordinate `d` are those of Faure's sequence. -/
theorem iterate_eq {b h : Nat} (hb : 2 ≤ b) (d n : Nat) {i : Nat} (hi : i < h) : (step b h)^[d] (fun j => n / b ^ j % b) i = faureDigit b h n d i := by
  have hlt : (step b h)^[d] (fun j => n / b ^ j % b) i < b := by
    cases d with
    | zero => exact Nat.mod_lt _ (by omega)
    | succ d => rw [Function.iterate_succ_apply']; exact Nat.mod_lt _ (by omega)
  have h1 := congrArg (fun p => Polynomial.coeff p i) (pol_iterate (b := b) (h := h) d (fun j => n / b ^ j % b))
  rw [pol_coeff, if_pos hi, taylor_pol] at h1
  have h2 : (((step b h)^[d] (fun j => n / b ^ j % b) i : Nat) : ZMod b) =
      ((∑ j ∈ Finset.range h, j.choose i * d ^ (j - i) * (n / b ^ j % b) : Nat) : ZMod b) := by
    rw [h1]
    push_cast
    rfl
  rw [ZMod.natCast_eq_natCast_iff'] at h2
  rw [Nat.mod_eq_of_lt hlt] at h2
  exact h2

theorem accum_congr {fl : ℚ → ℚ} {b : Nat} {Y Z : Nat → Nat} {k : Nat} (e : ∀ i < k, Y i = Z i) : accum fl b Y k = accum fl b Z k := by
  induction k with
  | zero => rfl
  | succ k ih => rw [accum, accum, ih (fun i hi => e i (by omega)), e k (by omega)]

/-- What the engine computes as coordinate `d` of point `n`. -/
def computed (fl : ℚ → ℚ) (b n d : Nat) : ℚ :=
  if d = 0 then firstCoord fl b n (len b n) else accum fl b (faureDigit b (len b n) n d) (len b n)

theorem point_computed {fl : ℚ → ℚ} {b n B : Nat} (hb : 2 ≤ b) (hfl : Ex fl B) (hB : len b n * ((b - 1) * (b - 1)) ≤ B) (hB' : b ≤ B) (dim : Nat) :
    point fl b dim n = (List.range dim).map (computed fl b n) := by
  cases dim with
  | zero => rfl
  | succ count =>
    obtain ⟨c, vs, y', T, g1, g2, g3⟩ := point_eq fl hb count n
    have hd : digs fl b n (len b n) = vec (len b n) (fun j => n / b ^ j % b) := by
      unfold digs vec
      apply List.map_congr_left
      intro j _
      exact hfl _ (by have := Nat.mod_lt (n / b ^ j) (by omega : 0 < b); omega)
    rw [hd] at g1
    obtain ⟨y'', g4⟩ := faureCoords_eq hb hfl hB hB' T count (Y := fun j => n / b ^ j % b) (fun j _ => Nat.mod_lt _ (by omega))
    rw [g4] at g1
    have g5 := (Prod.mk.inj (Option.some.inj g1)).1
    rw [g3, ← g5, List.range_succ_eq_map, List.map_cons, List.map_map]
    congr 1
    apply List.map_congr_left
    intro d _
    show accum fl b ((step b (len b n))^[d + 1] _) (len b n) = computed fl b n (d + 1)
    unfold computed
    rw [if_neg (by omega)]
    exact accum_congr fun i hi => iterate_eq hb (d + 1) n hi

/-! ## Exact arithmetic -/

theorem rr_id (b i : Nat) : rr id b i = (b : ℚ) ^ i := by
  induction i with
  | zero => simp [rr]
  | succ i ih => rw [rr, ih, pow_succ]; rfl

theorem accum_id (b : Nat) (Z : Nat → Nat) (k : Nat) : accum id b Z k = ∑ i ∈ Finset.range k, (Z i : ℚ) / (b : ℚ) ^ (i + 1) := by
  induction k with
  | zero => rfl
  | succ k ih => rw [accum, ih, rr_id, Finset.sum_range_succ]; rfl

theorem recip_foldl {b : Nat} (hb : 2 ≤ b) (l : List ℚ) : l.reverse.foldl (recipStep id b) 0 = ∑ i ∈ Finset.range l.length, l.getD i 0 / (b : ℚ) ^ (i + 1) := by
  have hb0 : (b : ℚ) ≠ 0 := by exact_mod_cast (by omega : b ≠ 0)
  induction l with
  | nil => rfl
  | cons a l ih =>
    rw [List.reverse_cons, List.foldl_append, ih, List.length_cons, Finset.sum_range_succ']
    show (_ + a) / (b : ℚ) = _
    rw [add_div, Finset.sum_div]
    congr 1
    · apply Finset.sum_congr rfl
      intro i _
      rw [List.getD_cons_succ, pow_succ (b : ℚ) (i + 1)]
      field_simp
    · simp

theorem faureDigit_zero {b h n i : Nat} (hi : i < h) : faureDigit b h n 0 i = n / b ^ i % b := by
  unfold faureDigit
  rw [Finset.sum_eq_single i]
  · simp
  · intro j _ hj
    by_cases hlt : j < i
    · rw [Nat.choose_eq_zero_of_lt hlt]; simp
    · rw [Nat.zero_pow (by omega)]; simp
  · intro h; exact absurd (Finset.mem_range.2 hi) h

/-- In exact arithmetic the engine computes Faure's sequence. -/
theorem computed_id {b : Nat} (hb : 2 ≤ b) (n d : Nat) : computed id b n d = faureValue b n d := by
  unfold computed faureValue
  by_cases hd : d = 0
  · rw [if_pos hd, hd]
    unfold firstCoord
    rw [recip_foldl hb, digs_length]
    apply Finset.sum_congr rfl
    intro i hi
    rw [Finset.mem_range] at hi
    rw [faureDigit_zero (h := Nat.log b n + 1) hi]
    unfold digs
    rw [List.getD_eq_getElem?_getD, List.getElem?_map, List.getElem?_range hi]
    rfl
  · rw [if_neg hd, accum_id]
    rfl

end Faure
end Boost.Random
