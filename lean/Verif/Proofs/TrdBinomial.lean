import Verif.Proofs.Trd
import Verif.Proofs.BinomialBtrd

/-!
# The pairs for which the binomial distribution returns a number
-/

namespace Boost.Random
open Spec Trd MeasureTheory Set

namespace Binomial

section
variable {bits t : Nat} {p : ℝ}

theorem candidate_exact (B : Btrd ℝ) (u : ℝ) : candidate exactOps B u (exactOps.fl (1 / 2 - |u|)) = point B.a B.b B.c u := rfl

/-- One round. -/
theorem round_iff (h0 : 0 ≤ p) (h1 : p ≤ 1 / 2) (hm : 11 ≤ (t + 1) * p) (ht : t < 2 ^ (bits - 1)) (m : Int) {k : Nat} (hk : k ≤ t) {f : ℝ}
    (hα : 0 < (btrd exactOps t p).alpha)
    (hacc : ∀ v, accept exactOps (btrd exactOps t p) t m.toNat k v = true ↔ v ≤ f)
    (hat : Hat (btrd exactOps t p).a (btrd exactOps t p).b (btrd exactOps t p).c (btrd exactOps t p).vr (f / (btrd exactOps t p).alpha) k)
    {x : ℝ × ℝ} (hx : x ∈ square) :
    (∃ rest, generate exactOps bits (btrd exactOps t p) t m [x.1, x.2] = .done (k : Int) rest) ↔
      pair (btrd exactOps t p).vr x ∈ region (btrd exactOps t p).a (btrd exactOps t p).b (btrd exactOps t p).c (f / (btrd exactOps t p).alpha) k := by
  obtain ⟨b1, b2, b3, ha, hb, _⟩ := btrd_facts h0 h1 hm
  generalize btrd exactOps t p = B at *
  obtain ⟨v, w⟩ := x
  simp only [square, mem_prod, mem_Ico] at hx
  obtain ⟨⟨hv0, hv1⟩, hw0, hw1⟩ := hx
  have hin : InSigned bits (k : Int) := by
    have : (t : Int) < 2 ^ (bits - 1) := by exact_mod_cast ht
    exact ⟨by have : (0 : Int) ≤ 2 ^ (bits - 1) := by positivity
              omega, by omega⟩
  rw [generate.eq_def]
  dsimp only
  by_cases hle : v ≤ B.urvr
  · rw [if_pos hle]
    rw [b3] at hle
    have hq1 : v / B.vr ≤ 86 / 100 := by rw [div_le_iff₀ b1]; exact hle
    have hq0 : 0 ≤ v / B.vr := div_nonneg hv0 b1.le
    have hu : |v / B.vr - 43 / 100| ≤ 43 / 100 := by rw [abs_le]; constructor <;> linarith
    rw [candidate_exact, castSigned_int, pair, if_pos hle]
    rw [show exactOps.fl (exactOps.fl (v / B.vr) - exactOps.fl (43 / 100)) = v / B.vr - 43 / 100 from rfl]
    simp only [region, cell, mem_ofPred_eq]
    constructor
    · rintro ⟨rest, h⟩
      split at h
      · cases h
      · rename_i k' hk'
        split at hk'
        · injection h with e _
          have e2 : ⌊point B.a B.b B.c (v / B.vr - 43 / 100)⌋ = k := by rw [← e]; exact Option.some.inj hk'
          refine ⟨⟨by linarith, e2⟩, by positivity, by nlinarith, ?_⟩
          exact le_trans (by nlinarith) ((hat _ (by linarith) e2).2 hu)
        · cases hk'
    · rintro ⟨⟨_, e2⟩, _⟩
      rw [e2, if_pos hin]
      exact ⟨_, rfl⟩
  · rw [if_neg hle]
    rw [b3] at hle
    have e : second exactOps B v w = pair B.vr (v, w) := by
      unfold second pair
      rw [if_neg hle]
      dsimp only [exactOps, id]
      split_ifs <;> rfl
    rw [e]
    have hp : |(pair B.vr (v, w)).1| ≤ 1 / 2 ∧ 0 ≤ (pair B.vr (v, w)).2 ∧ (pair B.vr (v, w)).2 < 1 := by
      unfold pair
      rw [if_neg hle]
      rw [not_le] at hle
      have hq1 : 86 / 100 < v / B.vr := by rw [lt_div_iff₀ b1]; exact hle
      split_ifs with h2 h3
      · exact ⟨abs_le.2 ⟨by linarith, by linarith⟩, hv0, hv1⟩
      · dsimp only at h3
        exact ⟨abs_le.2 ⟨by dsimp only; linarith, by dsimp only; linarith⟩, by positivity, by dsimp only; nlinarith⟩
      · dsimp only at h2 h3
        rw [not_le] at h2
        have hq2 : v / B.vr < 1 := by rw [div_lt_one b1]; exact h2
        exact ⟨abs_le.2 ⟨by dsimp only; linarith, by dsimp only; linarith⟩, by positivity, by dsimp only; nlinarith⟩
    generalize pair B.vr (v, w) = y at hp ⊢
    obtain ⟨u, V⟩ := y
    dsimp only at hp ⊢
    obtain ⟨hu, hV0, hV1⟩ := hp
    simp only [region, cell, mem_ofPred_eq]
    rw [show exactOps.fl (1 / 2 - |u|) = 1 / 2 - |u| from rfl]
    by_cases hz : 1 / 2 - |u| = 0
    · rw [if_pos hz]
      constructor
      · rintro ⟨_, h⟩; cases h
      · rintro ⟨⟨h, _⟩, _⟩; linarith
    · rw [if_neg hz]
      have hus : |u| < 1 / 2 := lt_of_le_of_ne hu (fun h => hz (by linarith))
      rw [show candidate exactOps B u (1 / 2 - |u|) = point B.a B.b B.c u from rfl, castSigned_int]
      have hs := slope_pos' ha hb u
      have hv : exactOps.fl (exactOps.fl (V * B.alpha) / exactOps.fl (exactOps.fl (B.a / exactOps.fl ((1 / 2 - |u|) * (1 / 2 - |u|))) + B.b)) =
          V * B.alpha / slope B.a B.b u := by
        simp only [exactOps, id, Trd.slope, pow_two]
      have hiff : V * B.alpha / slope B.a B.b u ≤ f ↔ V ≤ f / B.alpha * slope B.a B.b u := by
        rw [div_le_iff₀ hs, div_mul_eq_mul_div, le_div_iff₀ hα]
      rw [hv]
      by_cases hkk : ⌊point B.a B.b B.c u⌋ = k
      · rw [hkk, if_pos hin]
        dsimp only
        rw [if_neg (by omega), Int.toNat_natCast, Int.toNat_natCast]
        constructor
        · rintro ⟨rest, h⟩
          split at h
          · rename_i hac
            exact ⟨⟨hus, rfl⟩, hV0, hV1, hiff.1 ((hacc _).1 hac)⟩
          · simp only [generate] at h
            cases h
        · rintro ⟨_, _, _, h⟩
          rw [if_pos ((hacc _).2 (hiff.2 h))]
          exact ⟨_, rfl⟩
      · constructor
        · rintro ⟨rest, h⟩
          split at h
          · cases h
          · rename_i k' hk'
            split at hk'
            · have e2 := Option.some.inj hk'
              split at h
              · simp only [generate] at h
                cases h
              · split at h
                · injection h with e3 _
                  exact absurd (e2.trans e3) hkk
                · simp only [generate] at h
                  cases h
            · cases hk'
        · rintro ⟨⟨_, h⟩, _⟩
          exact absurd h hkk

end

end Binomial
end Boost.Random
