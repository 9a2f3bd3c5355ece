import Verif.Proofs.MixmaxEqui

/-!
# Equidistribution of mixmax (C160)
-/

namespace Boost.Random
open Spec Mixmax

/-- C160: for every size `N` of the vector and every `m = 2^mul + 1`, wherever one looks in the sequence, every
sequence of `k ≤ N` values modulo `p` in a row is returned from exactly `p^(N - k)` of the `p^N` vectors: all
sequences of up to `N` values are equally likely for a random vector. -/
theorem c160_equidistributed (mul N : Nat) (hm : 1 ≤ mul) (hm' : mul ≤ 60) (hN : 2 ≤ N) (hN' : N < 2 ^ 31) (n k : Nat)
    (hk : k ≤ N) (t : Nat → ZMod mixP) : (mixHits (Mixmax.next mul) N n k t).ncard = mixP ^ (N - k) := by
  have e : mixHits (Mixmax.next mul) N n k t =
      (fun (x : Fin N → ZMod mixP) (i : Fin N) => mixOut mul hN x (n + i)) ⁻¹'
        { f : Fin N → ZMod mixP | ∀ i : Fin N, (i : Nat) < k → f i = t i } := by
    ext x
    rw [mem_hits mul N hm hm' hN hN']
    exact ⟨fun h i hi => h i hi, fun h i hi => h ⟨i, by omega⟩ hi⟩
  rw [e, Set.ncard_preimage_of_injective_subset_range (window_bij mul hm hm' hN hN' n).1
    (by rw [(window_bij mul hm hm' hN hN' n).2.range_eq]; exact Set.subset_univ _), card_prefix]

/-- For `mixmax` every sequence of 17 values comes from exactly one vector. -/
example (n : Nat) (t : Nat → ZMod mixP) : (mixHits (Mixmax.next 36) 17 n 17 t).ncard = 1 :=
  c160_equidistributed 36 17 (by decide) (by decide) (by decide) (by decide) n 17 (le_refl _) t

/-- C160: more than `N` values in a row are not: the zeros followed by a one are never returned. -/
theorem c160_sharp (mul N : Nat) (hm : 1 ≤ mul) (hm' : mul ≤ 60) (hN : 2 ≤ N) (hN' : N < 2 ^ 31) (n : Nat) :
    mixHits (Mixmax.next mul) N n (N + 1) (fun i => if i = N then 1 else 0) = ∅ := by
  rw [Set.eq_empty_iff_forall_notMem]
  intro x hx
  rw [mem_hits mul N hm hm' hN hN'] at hx
  have h0 : x = 0 := by
    refine (window_bij mul hm hm' hN hN' n).1 ?_
    funext i
    have hi := i.2
    show mixOut mul hN x (n + i) = mixOut mul hN 0 (n + i)
    rw [hx i (by omega), if_neg (by omega), mixOut, Matrix.mulVec_zero]
    rfl
  have h1 := hx N (by omega)
  rw [h0, if_pos rfl, mixOut, Matrix.mulVec_zero, Pi.zero_apply] at h1
  exact zero_ne_one h1

example : (mixHits (Mixmax.next 36) 17 5 18 (fun i => if i = 17 then 1 else 0)) = ∅ :=
  c160_sharp 36 17 (by decide) (by decide) (by decide) (by decide) 5

end Boost.Random
