import Verif.Props.Mixmax
import Verif.Proofs.PrimRoot
import Verif.Spec.MixmaxEqui
import Mathlib.Algebra.Field.ZMod
import Mathlib.Data.Fintype.Pi
import Mathlib.Data.ZMod.Basic

/-!
# Consecutive values of MIXMAX determine the vector
-/

namespace Boost.Random.Mixmax
open Spec

theorem mixP_prime : Nat.Prime mixP :=
  prime_of_rootCheck [2, 3, 3, 5, 5, 7, 11, 13, 31, 41, 61, 151, 331, 1321] 37 (by norm_num [mixP]) (by norm_num [mixP])
    (by norm_num [mixP]) (by norm_num) (by decide +kernel)

instance : Fact (Nat.Prime mixP) := ⟨mixP_prime⟩

variable {N : Nat} (x : Fin N → ZMod mixP)

/-- `x_1 + ... + x_i`. -/
def partialSum (i : Nat) : ZMod mixP := ∑ j : Fin N, if 1 ≤ (j : Nat) ∧ (j : Nat) ≤ i then x j else 0

theorem partialSum_zero : partialSum x 0 = 0 := by
  unfold partialSum
  refine Finset.sum_eq_zero fun j _ => if_neg (by omega)

theorem partialSum_succ (i : Nat) (hi : i + 1 < N) : partialSum x (i + 1) = partialSum x i + x ⟨i + 1, hi⟩ := by
  unfold partialSum
  have e : x ⟨i + 1, hi⟩ = ∑ j : Fin N, if j = ⟨i + 1, hi⟩ then x j else 0 := by simp
  rw [e, ← Finset.sum_add_distrib]
  refine Finset.sum_congr rfl fun j _ => ?_
  by_cases h : j = ⟨i + 1, hi⟩
  · subst h
    simp
  · have h' : (j : Nat) ≠ i + 1 := fun e => h (Fin.ext e)
    rw [if_neg h, add_zero]
    congr 1
    apply propext
    omega

theorem row_diff (m i : Nat) (hi : i + 1 < N) : ((mixMatrix N m).mulVec x) ⟨i + 1, hi⟩ =
    ((mixMatrix N m).mulVec x) ⟨i, by omega⟩ + m * partialSum x i + x ⟨i + 1, hi⟩ := by
  unfold partialSum
  have e : x ⟨i + 1, hi⟩ = ∑ j : Fin N, if j = ⟨i + 1, hi⟩ then x j else 0 := by simp
  rw [e, Finset.mul_sum, Matrix.mulVec, Matrix.mulVec, dotProduct, dotProduct, ← Finset.sum_add_distrib,
    ← Finset.sum_add_distrib]
  refine Finset.sum_congr rfl fun j _ => ?_
  show ((mixEntry m (i + 1) j : Nat) : ZMod mixP) * x j = ((mixEntry m i j : Nat) : ZMod mixP) * x j + _ + _
  unfold mixEntry
  by_cases h : j = ⟨i + 1, hi⟩
  · subst h
    simp
    ring
  · have h' : (j : Nat) ≠ i + 1 := fun e => h (Fin.ext e)
    rw [if_neg h, add_zero]
    by_cases h0 : (j : Nat) = 0
    · rw [if_pos (Or.inl h0), if_pos (Or.inl h0), if_neg (by omega), mul_zero, add_zero]
    · by_cases h1 : (j : Nat) ≤ i
      · rw [if_neg (by omega), if_neg (by omega), if_pos (by omega),
          show i + 1 - (j : Nat) = i - j + 1 by omega]
        push_cast
        ring
      · rw [if_pos (by omega), if_pos (by omega), if_neg (by omega), mul_zero, add_zero]

/-- The vector is zero if its elements behind place `s` are, and elements `1 .. s + 1` of its image. -/
theorem window_zero (c : Nat) (hc : ((c : Nat) : ZMod mixP) ≠ 0) (hc1 : ((c + 1 : Nat) : ZMod mixP) ≠ 0) (s : Nat) (hs : s + 1 < N)
    (h1 : ∀ l (hl : l < N), s < l → x ⟨l, hl⟩ = 0)
    (h2 : ∀ l (hl : l < N), 1 ≤ l → l ≤ s + 1 → ((mixMatrix N (c + 1)).mulVec x) ⟨l, hl⟩ = 0) : x = 0 := by
  have hP : ∀ d i, i + d = s → partialSum x i = 0 := by
    intro d
    induction d with
    | zero =>
      intro i hi
      by_cases h0 : i = 0
      · rw [h0, partialSum_zero]
      · have h := row_diff x (c + 1) i (by omega)
        rw [h2 _ _ (by omega) (by omega), h2 _ _ (by omega) (by omega), h1 _ _ (by omega), zero_add, add_zero] at h
        exact (mul_eq_zero.1 h.symm).resolve_left hc1
    | succ d ih =>
      intro i hi
      by_cases h0 : i = 0
      · rw [h0, partialSum_zero]
      · have h := row_diff x (c + 1) i (by omega)
        have h3 := partialSum_succ x i (by omega)
        rw [ih (i + 1) (by omega)] at h3
        rw [h2 _ _ (by omega) (by omega), h2 _ _ (by omega) (by omega), zero_add] at h
        have h4 : (c : ZMod mixP) * partialSum x i = 0 := by
          rw [Nat.cast_add, Nat.cast_one] at h
          linear_combination h3 - h
        exact (mul_eq_zero.1 h4).resolve_left hc
  have hx : ∀ l (hl : l < N), 1 ≤ l → x ⟨l, hl⟩ = 0 := by
    intro l hl hl1
    by_cases h : s < l
    · exact h1 l hl h
    · obtain ⟨i, rfl⟩ : ∃ i, l = i + 1 := ⟨l - 1, by omega⟩
      have h3 := partialSum_succ x i hl
      rw [hP (s - i) i (by omega), hP (s - (i + 1)) (i + 1) (by omega), zero_add] at h3
      exact h3.symm
  have h0 : x ⟨0, by omega⟩ = 0 := by
    have h := h2 1 (by omega) (le_refl _) (by omega)
    rw [Matrix.mulVec, dotProduct, Finset.sum_eq_single ⟨0, by omega⟩] at h
    · have e : mixMatrix N (c + 1) ⟨1, by omega⟩ ⟨0, by omega⟩ = 1 := by
        show ((mixEntry (c + 1) 1 0 : Nat) : ZMod mixP) = 1
        rw [mixEntry, if_pos (Or.inl rfl), Nat.cast_one]
      rwa [e, one_mul] at h
    · intro b _ hb
      have hb0 : (b : Nat) ≠ 0 := fun e => hb (Fin.ext e)
      rw [show x b = 0 from hx b b.2 (by omega), mul_zero]
    · intro h; exact absurd (Finset.mem_univ _) h
  funext l
  by_cases h : (l : Nat) = 0
  · rw [show l = ⟨0, by omega⟩ from Fin.ext h, h0]; rfl
  · exact hx l l.2 (by omega)

theorem cast_pow_ne (mul : Nat) (hm' : mul ≤ 60) : ((2 ^ mul : Nat) : ZMod mixP) ≠ 0 ∧ ((2 ^ mul + 1 : Nat) : ZMod mixP) ≠ 0 := by
  have h60 : 2 ^ mul ≤ 2 ^ 60 := Nat.pow_le_pow_right (by omega) hm'
  have hpos : 0 < 2 ^ mul := Nat.two_pow_pos _
  constructor
  · rw [Ne, ZMod.natCast_eq_zero_iff]
    exact Nat.not_dvd_of_pos_of_lt hpos (by show 2 ^ mul < 2 ^ 61 - 1; omega)
  · rw [Ne, ZMod.natCast_eq_zero_iff]
    exact Nat.not_dvd_of_pos_of_lt (by omega) (by show 2 ^ mul + 1 < 2 ^ 61 - 1; omega)

/-- Value number `n` from the vector `x`. -/
def mixOut (mul : Nat) (hN : 2 ≤ N) (x : Fin N → ZMod mixP) (n : Nat) : ZMod mixP :=
  ((mixMatrix N (2 ^ mul + 1) ^ (n / (N - 1))).mulVec x)
    ⟨1 + n % (N - 1), by have := Nat.mod_lt n (show 0 < N - 1 by omega); omega⟩

theorem mixOut_sub (mul : Nat) (hN : 2 ≤ N) (x y : Fin N → ZMod mixP) (n : Nat) :
    mixOut mul hN (x - y) n = mixOut mul hN x n - mixOut mul hN y n := by
  rw [mixOut, Matrix.mulVec_sub]; rfl

theorem mat_pow_inj (mul : Nat) (hm : 1 ≤ mul) (hm' : mul ≤ 60) (hN : 1 ≤ N) (hN' : N < 2 ^ 31) (k : Nat) (x : Fin N → ZMod mixP)
    (h : (mixMatrix N (2 ^ mul + 1) ^ k).mulVec x = 0) : x = 0 := by
  induction k with
  | zero => simpa using h
  | succ k ih =>
    rw [pow_succ', ← Matrix.mulVec_mulVec] at h
    exact ih (matrix_inj mul hm hm' N hN hN' _ h)

/-- `N` values in a row determine the vector. -/
theorem window_bij (mul : Nat) (hm : 1 ≤ mul) (hm' : mul ≤ 60) (hN : 2 ≤ N) (hN' : N < 2 ^ 31) (n : Nat) :
    Function.Bijective fun (x : Fin N → ZMod mixP) (k : Fin N) => mixOut mul hN x (n + k) := by
  rw [← Finite.injective_iff_bijective]
  intro x y hxy
  have h0 : ∀ k : Fin N, mixOut mul hN (x - y) (n + k) = 0 := fun k => by
    rw [mixOut_sub, sub_eq_zero]; exact congrFun hxy k
  rw [← sub_eq_zero]
  refine mat_pow_inj mul hm hm' (by omega) hN' (n / (N - 1)) _ ?_
  obtain ⟨c1, c2⟩ := cast_pow_ne mul hm'
  have hs := Nat.mod_lt n (show 0 < N - 1 by omega)
  have hn := Nat.div_add_mod n (N - 1)
  have key : ∀ q r, r < N - 1 → ((N - 1) * q + r) / (N - 1) = q ∧ ((N - 1) * q + r) % (N - 1) = r := by
    intro q r hr
    rw [Nat.mul_add_div (by omega), Nat.mul_add_mod, Nat.div_eq_of_lt hr, Nat.mod_eq_of_lt hr]
    exact ⟨rfl, rfl⟩
  have val : ∀ q r (hr : r < N - 1), mixOut mul hN (x - y) ((N - 1) * q + r) =
      ((mixMatrix N (2 ^ mul + 1) ^ q).mulVec (x - y)) ⟨1 + r, by omega⟩ := by
    intro q r hr
    obtain ⟨k1, k2⟩ := key q r hr
    rw [mixOut, k1]
    congr 1
    exact Fin.ext (congrArg (1 + ·) k2)
  refine window_zero _ (2 ^ mul) c1 c2 (n % (N - 1)) (by omega) ?_ ?_
  · intro l hl h
    have := h0 ⟨l - 1 - n % (N - 1), by omega⟩
    rw [show n + (l - 1 - n % (N - 1)) = (N - 1) * (n / (N - 1)) + (l - 1) by omega, val _ _ (by omega)] at this
    rw [← this]
    congr 1
    exact Fin.ext (show l = 1 + (l - 1) by omega)
  · intro l hl h h'
    have := h0 ⟨l - 1 + (N - 1) - n % (N - 1), by omega⟩
    rw [show n + (l - 1 + (N - 1) - n % (N - 1)) = (N - 1) * (n / (N - 1) + 1) + (l - 1) by rw [Nat.mul_add]; omega,
      val _ _ (by omega)] at this
    rw [Matrix.mulVec_mulVec, ← pow_succ', ← this]
    congr 1
    exact Fin.ext (show l = 1 + (l - 1) by omega)

/-- A well-formed state for every vector. -/
theorem exists_state (hN : 1 ≤ N) (x : Fin N → ZMod mixP) : ∃ S, MixOK N S ∧ S.counter = 1 ∧ mixVec N S.V = x := by
  refine ⟨⟨List.ofFn fun i => (x i).val, (List.ofFn fun i => (x i).val).sum % mixP, 1⟩,
    ⟨by simp, ?_, ?_, ?_, le_refl _, hN⟩, rfl, ?_⟩
  · intro v hv
    obtain ⟨i, rfl⟩ := (List.mem_ofFn' _ _).1 hv
    have := ZMod.val_lt (x i)
    show (x i).val ≤ 2 ^ 61 + 1
    have e : mixP = 2 ^ 61 - 1 := rfl
    omega
  · have := Nat.mod_lt ((List.ofFn fun i => (x i).val).sum) (show 0 < mixP by decide)
    exact le_of_lt (lt_of_lt_of_le this (by decide))
  · exact ZMod.natCast_mod _ _
  · funext i
    simp [mixVec]

theorem card_prefix (N k : Nat) (t : Nat → ZMod mixP) :
    Set.ncard { f : Fin N → ZMod mixP | ∀ i : Fin N, (i : Nat) < k → f i = t i } = mixP ^ (N - k) := by
  have e : { f : Fin N → ZMod mixP | ∀ i : Fin N, (i : Nat) < k → f i = t i } =
      ↑(Fintype.piFinset fun i : Fin N => if (i : Nat) < k then ({t i} : Finset (ZMod mixP)) else Finset.univ) := by
    ext f
    simp only [Set.mem_ofPred_eq, Finset.mem_coe, Fintype.mem_piFinset]
    refine forall_congr' fun i => ?_
    by_cases h : (i : Nat) < k <;> simp [h]
  rw [e, Set.ncard_coe_finset, Fintype.card_piFinset]
  have e2 : ∀ i : Fin N, (if (i : Nat) < k then ({t i} : Finset (ZMod mixP)) else Finset.univ).card =
      if (i : Nat) < k then 1 else mixP := by
    intro i
    by_cases h : (i : Nat) < k <;> simp [h]
  rw [Finset.prod_congr rfl fun i _ => e2 i]
  rw [Fin.prod_univ_eq_prod_range (fun i => if i < k then 1 else mixP) N, Finset.prod_ite, Finset.prod_const_one, one_mul,
    Finset.prod_const]
  congr 1
  rw [show (Finset.range N).filter (fun i => ¬ i < k) = Finset.Ico k N by
    ext i; simp only [Finset.mem_filter, Finset.mem_range, Finset.mem_Ico]; omega, Nat.card_Ico]

/-- What is returned, in terms of the vector. -/
theorem hits_main (mul N : Nat) (hm : 1 ≤ mul) (hm' : mul ≤ 60) (hN : 2 ≤ N) (hN' : N < 2 ^ 31) (n k : Nat)
    (x : Fin N → ZMod mixP) (S : State) (hS : MixOK N S) (hc : S.counter = 1) (hx : mixVec N S.V = x) :
    ∃ vs S', run (Mixmax.next mul) (n + k) S = some (vs, S') ∧
      ∀ i, i < k → ((vs.getD (n + i) 0 : Nat) : ZMod mixP) = mixOut mul hN x (n + i) := by
  obtain ⟨V, St, hrun, hV⟩ := c36_sequence mul N hm hm' hN hN' S hS hc
  refine ⟨_, _, hrun (n + k), fun i hi => ?_⟩
  have : ((List.range (n + k)).map V).getD (n + i) 0 = V (n + i) := by
    rw [List.getD_eq_getElem?_getD, List.getElem?_map, List.getElem?_range (by omega)]
    rfl
  rw [this, (hV (n + i)).2, hx]
  rfl

theorem mem_hits (mul N : Nat) (hm : 1 ≤ mul) (hm' : mul ≤ 60) (hN : 2 ≤ N) (hN' : N < 2 ^ 31) (n k : Nat)
    (t : Nat → ZMod mixP) (x : Fin N → ZMod mixP) :
    x ∈ mixHits (Mixmax.next mul) N n k t ↔ ∀ i, i < k → mixOut mul hN x (n + i) = t i := by
  constructor
  · rintro ⟨S, hS, hc, hx, vs, S', hr, h⟩ i hi
    obtain ⟨ws, T, hr', h'⟩ := hits_main mul N hm hm' hN hN' n k x S hS hc hx
    rw [hr'] at hr
    cases hr
    exact (h' i hi).symm.trans (h i hi)
  · intro h
    obtain ⟨S, hS, hc, hx⟩ := exists_state (by omega) x
    obtain ⟨ws, T, hr', h'⟩ := hits_main mul N hm hm' hN hN' n k x S hS hc hx
    exact ⟨S, hS, hc, hx, ws, T, hr', fun i hi => by rw [h' i hi]; exact h i hi⟩

end Boost.Random.Mixmax
