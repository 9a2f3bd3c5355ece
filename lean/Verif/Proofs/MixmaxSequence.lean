import Verif.Props.MixmaxSkip
import Verif.Proofs.MixmaxPeriod

/-!
# From the values of `mixmax` back to its vector
-/

namespace Boost.Random
open Spec Mixmax

theorem pow_mulVec_inj (k : Nat) : Function.Injective (mixA17 ^ k).mulVec := by
  have hinj := c61_matrix_injective 36 17 (by decide) (by decide) (by decide) (by decide)
  induction k with
  | zero => intro x y h; simpa using h
  | succ k ih =>
    intro x y h
    rw [pow_succ, ← Matrix.mulVec_mulVec, ← Matrix.mulVec_mulVec] at h
    exact hinj (ih h)

/-- Vectors whose elements after the first agree, and whose images do too, are equal. -/
theorem eq_of_tail (x y : Fin 17 → ZMod mixP) (h0 : ∀ i : Fin 17, 1 ≤ (i : Nat) → x i = y i)
    (h1 : (mixA17.mulVec x) 1 = (mixA17.mulVec y) 1) : x = y := by
  have hz : ∀ i : Fin 17, 1 ≤ (i : Nat) → (x - y) i = 0 := fun i hi => by rw [Pi.sub_apply, h0 i hi, sub_self]
  have h2 : (mixA17.mulVec (x - y)) 1 = 0 := by rw [Matrix.mulVec_sub, Pi.sub_apply, h1, sub_self]
  have h3 : (x - y) 0 = 0 := by
    rw [Matrix.mulVec, dotProduct, Finset.sum_eq_single 0] at h2
    · have e : mixA17 1 0 = 1 := by
        show ((mixEntry (2 ^ 36 + 1) 1 0 : Nat) : ZMod mixP) = 1
        rw [show mixEntry (2 ^ 36 + 1) 1 0 = 1 by decide, Nat.cast_one]
      rwa [e, one_mul] at h2
    · intro b _ hb
      rw [hz b (Nat.one_le_iff_ne_zero.2 fun h => hb (Fin.ext h)), mul_zero]
    · intro h; exact absurd (Finset.mem_univ _) h
  rw [← sub_eq_zero]
  funext i
  by_cases hi : 1 ≤ (i : Nat)
  · exact hz i hi
  · rw [show i = 0 from Fin.ext (by simpa using hi), h3]; rfl

/-- The sequence from any well-formed state, in terms of its vector. -/
theorem mix_values (S : State) (h : MixOK 17 S) : ∃ V : Nat → Nat,
    (∀ n, ∃ S', run (Mixmax.next 36) n S = some ((List.range n).map V, S')) ∧
    ∀ n, (V n : ZMod mixP) = ((mixA17 ^ ((n + (S.counter - 1)) / 16)).mulVec (mixVec 17 S.V))
      ⟨1 + (n + (S.counter - 1)) % 16, by have := Nat.mod_lt (n + (S.counter - 1)) (show 0 < 16 by decide); omega⟩ := by
  have hc1 := h.counter_pos
  have hc2 := h.counter_le
  have hS1 : MixOK 17 { S with counter := 1 } := ⟨h.len, h.bound, h.sum_le, h.sum_eq, le_refl _, show 1 ≤ 17 by decide⟩
  have reach : ∀ k, k ≤ 16 → ∃ vs, run (Mixmax.next 36) k { S with counter := 1 } = some (vs, { S with counter := 1 + k }) ∧
      MixOK 17 { S with counter := 1 + k } := by
    intro k
    induction k with
    | zero => intro _; exact ⟨[], rfl, hS1⟩
    | succ k ih =>
      intro hk
      obtain ⟨vs, e, hOK⟩ := ih (by omega)
      obtain ⟨v, e', _, _, _, hOK'⟩ := next_mid 36 17 _ hOK (by simp; omega)
      exact ⟨vs ++ [v], by rw [run_add, e, Option.bind_some, run_one, e']; rfl, hOK'⟩
  obtain ⟨vs, e, _⟩ := reach (S.counter - 1) (by omega)
  rw [show ({ S with counter := 1 + (S.counter - 1) } : State) = S by
    rw [show 1 + (S.counter - 1) = S.counter by omega]] at e
  obtain ⟨V, St, hrun, hV⟩ := c36_sequence 36 17 (by decide) (by decide) (by decide) (by decide) _ hS1 rfl
  refine ⟨fun n => V (n + (S.counter - 1)), fun n => ⟨St (S.counter - 1 + n), ?_⟩, fun n => (hV _).2⟩
  have h1 := hrun (S.counter - 1 + n)
  have h2 := hrun (S.counter - 1)
  rw [run_add, e, Option.bind_some] at h1
  rw [e] at h2
  simp only [Option.some.injEq, Prod.mk.injEq] at h2
  obtain ⟨⟨ws, T⟩, h3, h4⟩ := Option.map_eq_some_iff.1 h1
  simp only [Prod.mk.injEq] at h4
  rw [h3, ← h4.2]
  congr 2
  have h5 := h4.1
  rw [h2.1, List.range_add, List.map_append] at h5
  rw [List.append_cancel_left h5, List.map_map]
  exact List.map_congr_left fun i _ => by simp [Nat.add_comm]

theorem mix_cast {a b : Nat} : a % mixP = b % mixP ↔ (a : ZMod mixP) = b :=
  (ZMod.natCast_eq_natCast_iff' a b mixP).symm

/-- Values at the 16 places of one vector. -/
theorem mix_at {S : State} {V : Nat → Nat} (h : S.counter ≤ 17)
    (hV : ∀ n, (V n : ZMod mixP) = ((mixA17 ^ ((n + (S.counter - 1)) / 16)).mulVec (mixVec 17 S.V))
      ⟨1 + (n + (S.counter - 1)) % 16, by have := Nat.mod_lt (n + (S.counter - 1)) (show 0 < 16 by decide); omega⟩)
    (k : Nat) (i : Fin 17) (hi : 1 ≤ (i : Nat)) (hk : 1 ≤ k) :
    (V (16 * k + (i - 1) - (S.counter - 1)) : ZMod mixP) = ((mixA17 ^ k).mulVec (mixVec 17 S.V)) i := by
  have hi2 := i.2
  rw [hV]
  have e : 16 * k + (i - 1) - (S.counter - 1) + (S.counter - 1) = 16 * k + (i - 1) := by omega
  have e1 : (16 * k + (i - 1)) / 16 = k := by omega
  have e2 : (16 * k + (i - 1)) % 16 = (i : Nat) - 1 := by omega
  rw [show (16 * k + (i - 1) - (S.counter - 1) + (S.counter - 1)) / 16 = k by rw [e, e1]]
  congr 1
  apply Fin.ext
  show 1 + (16 * k + (i - 1) - (S.counter - 1) + (S.counter - 1)) % 16 = i
  rw [e, e2]
  omega

/-- Vectors that give the same values from some call on are equal. -/
theorem vec_eq (x y : Fin 17 → ZMod mixP) (K : Nat)
    (h : ∀ k, K ≤ k → ∀ i : Fin 17, 1 ≤ (i : Nat) → ((mixA17 ^ k).mulVec x) i = ((mixA17 ^ k).mulVec y) i) : x = y := by
  refine pow_mulVec_inj K (eq_of_tail _ _ (h K (le_refl _)) ?_)
  have := h (K + 1) (by omega) 1 (le_refl _)
  rwa [pow_succ', ← Matrix.mulVec_mulVec, ← Matrix.mulVec_mulVec] at this

theorem repeats_mul {V : Nat → Nat} {P n0 : Nat} (h : ∀ n, n0 ≤ n → V (n + P) % mixP = V n % mixP) (j n : Nat) (hn : n0 ≤ n) :
    V (n + P * j) % mixP = V n % mixP := by
  induction j with
  | zero => rfl
  | succ j ih => rw [Nat.mul_succ, ← Nat.add_assoc, h _ (by omega), ih]

theorem mixE0_ne : mixE0 ≠ 0 := by
  intro h
  have := congrFun h 0
  revert this
  decide

/-- Different powers on the orbit of the unit vector. -/
theorem powers_ne (a b : Nat) (h : (mixA17 ^ (2 ^ 512 * a)).mulVec mixE0 = (mixA17 ^ (2 ^ 512 * b)).mulVec mixE0) :
    a ≡ b [MOD mixQ1 * mixQ2] := by
  have key : ∀ a b, a ≤ b → (mixA17 ^ (2 ^ 512 * a)).mulVec mixE0 = (mixA17 ^ (2 ^ 512 * b)).mulVec mixE0 →
      a ≡ b [MOD mixQ1 * mixQ2] := by
    intro a b hab h
    have e : mixA17 ^ (2 ^ 512 * b) = mixA17 ^ (2 ^ 512 * a) * mixA17 ^ (2 ^ 512 * (b - a)) := by
      rw [← pow_add, ← Nat.mul_add, Nat.add_sub_cancel' hab]
    rw [e, ← Matrix.mulVec_mulVec] at h
    have h1 := dvd_of_fixed mixE0 mixE0_ne _ (pow_mulVec_inj _ h).symm
    have hco : Nat.Coprime (mixQ1 * mixQ2) (2 ^ 512) := Nat.Coprime.pow_right 512 (by decide)
    exact (Nat.modEq_iff_dvd' hab).2 (hco.dvd_of_dvd_mul_left h1)
  rcases Nat.le_total a b with hab | hab
  · exact key a b hab h
  · exact (key b a hab h.symm).symm

end Boost.Random
