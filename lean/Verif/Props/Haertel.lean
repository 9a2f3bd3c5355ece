import Verif.Proofs.Haertel
import Verif.Proofs.PrimRoot

/-!
# C158: the generators of `extra/haertel.hpp`
-/

namespace Boost.Random
namespace Haertel
open Spec

/-! ## ACORN -/

/-- **C158 (ACORN).** If the sum of two residues fits in the type and the seeds are residues, then after `n` calls element
`i` is `sum over j <= i of C(n + i - j - 1, i - j) * y_j` modulo `m`, for every order, and the values returned are these numbers
for `i = k`. No operation overflows. -/
theorem c158_acorn_partial (A : Acorn) (h : SumOK A.T A.m) (start ys : List Nat) (hs : A.seed start = some ys)
    (hy : ∀ y ∈ ys, y < modulus A.T A.m) (n : Nat) :
    ∃ zs, run A.next n ys = some ((List.range n).map (fun j => acornValue ys (j + 1) A.k % modulus A.T A.m), zs) ∧
      zs.length = A.k + 1 ∧ ∀ i ≤ A.k, zs.getD i 0 = acornValue ys n i % modulus A.T A.m := by
  have hl : ys.length = A.k + 1 := by
    unfold Acorn.seed at hs
    split at hs
    · next h1 => rw [Option.some.injEq] at hs; rw [← hs, List.length_take]; omega
    · simp at hs
  have hv : A.Valid ys := ⟨hl, hy⟩
  obtain ⟨zs, e1, e2, e3⟩ := Acorn.run_spec A h ys hv n 0 ys hv (fun i hi => by
    rw [Acorn.value_zero, Nat.mod_eq_of_lt]
    rw [List.getD_eq_getElem _ _ (by omega)]
    exact hy _ (List.getElem_mem _))
  refine ⟨zs, by simpa using e1, e2.1, fun i hi => by simpa using e3 i hi⟩

example : SumOK mrgAcorn7.T mrgAcorn7.m ∧ mrgAcorn7.seed [123456789, 0, 0, 0, 0, 0, 0, 5] = some [123456789, 0, 0, 0, 0, 0, 0] ∧
    (run mrgAcorn7.next 3 [123456789, 0, 0, 0, 0, 0, 0]).map Prod.fst = some [123456789, 864197523, 235564725] ∧
    acornValue [123456789, 0, 0, 0, 0, 0, 0] 3 6 % (2 ^ 30 - 35) = 235564725 := by
  refine ⟨⟨⟨by decide, by decide⟩, Or.inr (by decide)⟩, by decide, by decide, by
    simp [acornValue, Finset.sum_range_succ, Nat.multichoose_eq, Nat.choose]⟩

/-- **C158 (period of ACORN).** If the first seed is prime to `m`, which is not 0, and the order is at least 1, no state comes
back unless the number of calls is a multiple of `m`. -/
theorem c158_acorn_period_ge (A : Acorn) (h : SumOK A.T A.m) (hk : 1 ≤ A.k) (ys : List Nat) (hl : ys.length = A.k + 1)
    (hy : ∀ y ∈ ys, y < modulus A.T A.m) (hc : Nat.Coprime (ys.getD 0 0) (modulus A.T A.m)) (n : Nat)
    (hn : (run A.next n ys).map Prod.snd = some ys) : modulus A.T A.m ∣ n := by
  have hs : A.seed ys = some ys := by
    unfold Acorn.seed; rw [if_pos (by omega), List.take_of_length_le (by omega)]
  obtain ⟨zs, e1, _, e3⟩ := c158_acorn_partial A h ys ys hs hy n
  rw [e1] at hn
  simp only [Option.map_some, Option.some.injEq] at hn
  subst hn
  have h1 := e3 1 hk
  rw [Acorn.value_one] at h1
  have hlt : zs.getD 1 0 < modulus A.T A.m := by
    rw [List.getD_eq_getElem _ _ (by omega)]; exact hy _ (List.getElem_mem _)
  have h2 : (n * zs.getD 0 0 + zs.getD 1 0) ≡ 0 + zs.getD 1 0 [MOD modulus A.T A.m] := by
    unfold Nat.ModEq
    rw [← h1, Nat.zero_add, Nat.mod_eq_of_lt hlt]
  have h3 := Nat.ModEq.add_right_cancel' _ h2
  exact (Nat.Coprime.dvd_of_dvd_mul_right hc.symm ((Nat.modEq_zero_iff_dvd).1 h3))

example : SumOK mrgAcorn7.T mrgAcorn7.m ∧ 1 ≤ mrgAcorn7.k ∧ Nat.Coprime ([1, 0, 0, 0, 0, 0, 0].getD 0 0) (modulus mrgAcorn7.T mrgAcorn7.m) := by
  refine ⟨⟨⟨by decide, by decide⟩, Or.inr (by decide)⟩, by decide, Nat.coprime_one_left _⟩

/-- **C158 (exact period for primes).** If `m` is a prime above the order and the first seed is not 0, a state comes back
exactly after the multiples of `m`: a higher order does not make the period longer. -/
theorem c158_acorn_period (A : Acorn) (h : SumOK A.T A.m) (hp : A.m.Prime) (hk : 1 ≤ A.k) (hkm : A.k < A.m) (ys : List Nat)
    (hl : ys.length = A.k + 1) (hy : ∀ y ∈ ys, y < A.m) (h0 : ys.getD 0 0 ≠ 0) (n : Nat) :
    (run A.next n ys).map Prod.snd = some ys ↔ A.m ∣ n := by
  have hmod : modulus A.T A.m = A.m := by unfold modulus; rw [if_neg hp.ne_zero]
  have hget : ∀ i ≤ A.k, ys.getD i 0 < A.m := fun i hi => by
    rw [List.getD_eq_getElem _ _ (by omega)]; exact hy _ (List.getElem_mem _)
  have hs : A.seed ys = some ys := by
    unfold Acorn.seed; rw [if_pos (by omega), List.take_of_length_le (by omega)]
  constructor
  · intro hn
    have := c158_acorn_period_ge A h hk ys hl (by rwa [hmod]) (by
      rw [hmod, Nat.coprime_comm]
      exact (Nat.Prime.coprime_iff_not_dvd hp).2 (Nat.not_dvd_of_pos_of_lt (Nat.pos_of_ne_zero h0) (hget 0 (Nat.zero_le _)))) n hn
    rwa [hmod] at this
  · intro hd
    obtain ⟨zs, e1, e2, e3⟩ := c158_acorn_partial A h ys ys hs (by rwa [hmod]) n
    rw [e1]
    simp only [Option.map_some, Option.some.injEq]
    apply List.ext_getElem (by omega)
    intro i h1 h2
    have := e3 i (by omega)
    rw [hmod, Acorn.value_prime ys A.m n i hp (by omega) hd, Nat.mod_eq_of_lt (hget i (by omega))] at this
    rwa [List.getD_eq_getElem _ _ h1, List.getD_eq_getElem _ _ h2] at this

/-- The modulus of `MRG_Acorn7` is prime. -/
theorem acorn7_prime : Nat.Prime 1073741789 :=
  prime_of_rootCheck [2, 2, 7, 2341, 16381] 2 (by norm_num) (by norm_num) (by norm_num)
    (by intro q hq; simp only [List.mem_cons, List.not_mem_nil, or_false] at hq; rcases hq with rfl | rfl | rfl | rfl | rfl <;> norm_num)
    (by decide +kernel)

/-- C158: `MRG_Acorn7` has the period `2^30 - 35` from every state whose first element is not 0, although its state has seven
numbers. -/
theorem c158_acorn7 (ys : List Nat) (hl : ys.length = 7) (hy : ∀ y ∈ ys, y < 2 ^ 30 - 35) (h0 : ys.getD 0 0 ≠ 0) (n : Nat) :
    (run mrgAcorn7.next n ys).map Prod.snd = some ys ↔ 1073741789 ∣ n :=
  c158_acorn_period mrgAcorn7 ⟨⟨by decide, by decide⟩, Or.inr (by decide)⟩ acorn7_prime (by decide) (by decide) ys hl hy h0 n

example : ([1, 2, 3, 4, 5, 6, 7] : List Nat).length = 7 ∧ ∀ y ∈ ([1, 2, 3, 4, 5, 6, 7] : List Nat), y < 2 ^ 30 - 35 := by decide

/-- C158 is false for larger moduli: the sum overflows `int` (undefined), or wraps around in an unsigned type, which gives a wrong
element. -/
theorem c158_acorn_overflow_false :
    Acorn.next ⟨⟨32, true⟩, 1, 2147483647⟩ [2147483646, 2147483646] = none ∧
    Acorn.next ⟨⟨32, false⟩, 1, 4294967291⟩ [4294967290, 4294967290] = some (4294967284, [4294967290, 4294967284]) ∧
    acornValue [4294967290, 4294967290] 1 1 % 4294967291 = 4294967289 := by
  refine ⟨by decide, by decide, ?_⟩
  simp [acornValue, Finset.sum_range_succ, Nat.multichoose_eq]

/-- C158 is false for seeds that are not residues, which `seed` takes as they are: the values can be `m` itself. -/
theorem c158_acorn_seed_false :
    mrgAcorn7.seed (List.replicate 7 (2 ^ 30 - 35)) = some (List.replicate 7 1073741789) ∧
    (mrgAcorn7.next (List.replicate 7 1073741789)).map Prod.fst = some 1073741789 := by decide

/-! ## Lagged Fibonacci -/

/-- **C158 (lagged Fibonacci).** With the 607 elements that `seed` assigns, and a generator that returns residues, the values
returned are those of the recurrence `x_n = x_(n-607) + x_(n-s)` modulo `m` (`2^bits` for `m = 0`) with the seeds as first
elements. -/
theorem c158_fib_partial {σ : Type} (L : LagInt) (h : SumOK L.T L.m) (hr : L.r = 607) (h1 : 1 ≤ L.s) (h2 : L.s < 607)
    (gen : σ → Option (Nat × σ)) (s : σ) (vs : List Nat) (hg : (run gen 607 s).map Prod.fst = some vs)
    (hv : ∀ v ∈ vs, v < modulus L.T L.m) :
    ∃ st, L.seedGen gen s = some st ∧ ∀ k, ∃ st',
      run L.next k st = some ((List.range k).map (fun j => lagSeq 607 L.s (modulus L.T L.m) vs (j + 607)), st') := by
  have htake : ∀ n s, LagInt.take gen n s = (run gen n s).map Prod.fst := by
    intro n
    induction n with
    | zero => intro s; rfl
    | succ n ih =>
      intro s
      simp only [LagInt.take, run, Option.bind_eq_bind]
      cases gen s with
      | none => rfl
      | some p =>
        simp only [Option.bind_some, ih]
        cases run gen n p.2 with
        | none => rfl
        | some q => rfl
  rw [← htake] at hg
  have hlen := LagInt.take_length gen 607 s vs hg
  refine ⟨⟨vs.map some, 0, 607 - L.s⟩, ?_, fun k => ?_⟩
  · unfold LagInt.seedGen
    rw [if_pos (by omega), hg, hr]
    simp
  · have hring : LagInt.Ring L vs 0 ⟨vs.map some, 0, 607 - L.s⟩ := by
      refine ⟨by simp [hlen, hr], fun i _ hi => ?_, by simp, ?_⟩
      · rw [Nat.mod_eq_of_lt (by omega)]
        unfold lagSeq
        rw [if_pos (Or.inl (by omega)), List.getElem?_map, List.getElem?_eq_getElem (by omega),
          List.getD_eq_getElem _ _ (by omega)]
        rfl
      · simp only
        rw [hr, Nat.mod_eq_of_lt (by omega), Nat.zero_add]
    obtain ⟨st', e⟩ := LagInt.run_spec L h h1 (by omega) vs hv k 0 _ hring
    refine ⟨st', ?_⟩
    rw [e, hr]
    simp

example : SumOK mrgFib2.T mrgFib2.m ∧ mrgFib2.r = 607 ∧ 1 ≤ mrgFib2.s ∧ mrgFib2.s < 607 ∧
    ((mrgFib2.seed 5).bind fun st => (run mrgFib2.next 3 st).map Prod.fst) = some [922783634, 381005722, 1922834114] := by
  refine ⟨⟨⟨by decide, by decide⟩, Or.inl (by decide)⟩, by decide, by decide, by decide, by decide +kernel⟩

/-- C158 is false for all other sizes: `seed` assigns 607 elements whatever `r` is. A smaller array is overrun, in a larger one
an element that was never assigned is read, at the 608th call at the latest. -/
theorem c158_fib_size_false {σ : Type} (L : LagInt) (gen : σ → Option (Nat × σ)) (s : σ) :
    (L.r < 607 → L.seedGen gen s = none) ∧
    (607 < L.r → ∀ st, L.seedGen gen s = some st → run L.next 608 st = none) := by
  refine ⟨fun h => ?_, fun h st hst => ?_⟩
  · unfold LagInt.seedGen; rw [if_neg (by omega)]
  · unfold LagInt.seedGen at hst
    split at hst
    · simp only [Option.map_eq_some_iff] at hst
      obtain ⟨vs, hv, rfl⟩ := hst
      have hlen := LagInt.take_length gen 607 s vs hv
      apply LagInt.run_unassigned L 607 h 607 _ _ (by simp)
      simp only
      rw [List.getElem?_append_right (by simp [hlen])]
      simp only [List.length_map, hlen, Nat.sub_self]
      rw [List.getElem?_replicate, if_pos (by omega)]
    · simp at hst

example : (LagInt.seedGen ⟨⟨32, false⟩, 608, 273, 0⟩ (fun x : Nat => some (x, x + 1)) 0).isSome = true := by decide +kernel

/-- C158: the seed is ignored: `lagged_fibonacci_int` is in the same state for all seeds. -/
theorem c158_fib_seed_false (L : LagInt) (a b : Nat) : L.seed a = L.seed b := rfl

example : mrgFib2.seed 1 = mrgFib2.seed 2 ∧ (mrgFib2.seed 1).isSome = true := by
  refine ⟨rfl, by decide +kernel⟩

end Haertel
end Boost.Random
