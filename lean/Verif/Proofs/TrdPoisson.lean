import Verif.Proofs.Trd
import Verif.Proofs.PoissonPtrd

/-!
# The pairs for which the Poisson distribution returns a number
-/

namespace Boost.Random
open Spec Trd MeasureTheory Set

namespace Poisson

section
variable {bits : Nat} {μ : ℝ}

/-- One round, when the quick rejection is correct. -/
theorem round_iff (hm : 10 ≤ μ) {k : Nat} (hk : k < 2 ^ (bits - 1)) {f g : ℝ} (hα : 0 < (ptrd exactOps μ).invAlpha) (hfg : f ≤ g)
    (hacc : ∀ v, 0 ≤ v → (accept exactOps (ptrd exactOps μ) μ k v = true → v ≤ g) ∧ (v ≤ f → accept exactOps (ptrd exactOps μ) μ k v = true))
    (hat : ∀ u, |u| < 1 / 2 → ⌊point (ptrd exactOps μ).a (ptrd exactOps μ).b (μ + 445 / 1000) u⌋ = k → |u| ≤ 43 / 100 →
      (ptrd exactOps μ).vr ≤ g / (ptrd exactOps μ).invAlpha * Trd.slope (ptrd exactOps μ).a (ptrd exactOps μ).b u)
    (hsq : ∀ u, |u| < 1 / 2 → ⌊point (ptrd exactOps μ).a (ptrd exactOps μ).b (μ + 445 / 1000) u⌋ = k → 1 / 2 - |u| < 13 / 1000 →
      f / (ptrd exactOps μ).invAlpha * Trd.slope (ptrd exactOps μ).a (ptrd exactOps μ).b u ≤ 1 / 2 - |u|)
    {x : ℝ × ℝ} (hx : x ∈ square) :
    ((∃ rest, generate exactOps bits (ptrd exactOps μ) μ [x.1, x.2] = .done (k : Int) rest) →
      pair (ptrd exactOps μ).vr x ∈ region (ptrd exactOps μ).a (ptrd exactOps μ).b (μ + 445 / 1000) (g / (ptrd exactOps μ).invAlpha) k) ∧
    (pair (ptrd exactOps μ).vr x ∈ region (ptrd exactOps μ).a (ptrd exactOps μ).b (μ + 445 / 1000) (f / (ptrd exactOps μ).invAlpha) k →
      ∃ rest, generate exactOps bits (ptrd exactOps μ) μ [x.1, x.2] = .done (k : Int) rest) := by
  obtain ⟨b1, b2, ha, hb, _⟩ := ptrd_facts hm
  have hcand : ∀ u, candidate exactOps (ptrd exactOps μ) μ u (1 / 2 - |u|) = point (ptrd exactOps μ).a (ptrd exactOps μ).b (μ + 445 / 1000) u := fun u => by
    simp only [candidate, point, exactOps, id]
    ring
  generalize ptrd exactOps μ = P at *
  obtain ⟨v, w⟩ := x
  simp only [square, mem_prod, mem_Ico] at hx
  obtain ⟨⟨hv0, hv1⟩, hw0, hw1⟩ := hx
  have hin : InSigned bits (k : Int) := by
    have : (k : Int) < 2 ^ (bits - 1) := by exact_mod_cast hk
    exact ⟨by have : (0 : Int) ≤ 2 ^ (bits - 1) := by positivity
              omega, by omega⟩
  rw [generate.eq_def]
  dsimp only
  by_cases hle : v ≤ 86 / 100 * P.vr
  · rw [if_pos (show v ≤ exactOps.fl (exactOps.fl (86 / 100) * P.vr) from hle)]
    have hq1 : v / P.vr ≤ 86 / 100 := by rw [div_le_iff₀ b1]; exact hle
    have hq0 : 0 ≤ v / P.vr := div_nonneg hv0 b1.le
    have hu : |v / P.vr - 43 / 100| ≤ 43 / 100 := by rw [abs_le]; constructor <;> linarith
    rw [show exactOps.fl (exactOps.fl (v / P.vr) - exactOps.fl (43 / 100)) = v / P.vr - 43 / 100 from rfl]
    rw [show exactOps.fl (1 / 2 - |v / P.vr - 43 / 100|) = 1 / 2 - |v / P.vr - 43 / 100| from rfl, hcand, castSigned_int, pair, if_pos hle]
    simp only [region, cell, mem_ofPred_eq]
    constructor
    · rintro ⟨rest, h⟩
      split at h
      · cases h
      · rename_i k' hk'
        split at hk'
        · injection h with e _
          have e2 : ⌊point P.a P.b (μ + 445 / 1000) (v / P.vr - 43 / 100)⌋ = k := by rw [← e]; exact Option.some.inj hk'
          refine ⟨⟨by linarith, e2⟩, by positivity, by nlinarith, ?_⟩
          exact le_trans (by nlinarith) (hat _ (by linarith) e2 hu)
        · cases hk'
    · rintro ⟨⟨_, e2⟩, _⟩
      rw [e2, if_pos hin]
      exact ⟨_, rfl⟩
  · rw [if_neg (show ¬ v ≤ exactOps.fl (exactOps.fl (86 / 100) * P.vr) from hle)]
    have e : second exactOps P v w = pair P.vr (v, w) := by
      unfold second pair
      rw [if_neg hle]
      dsimp only [exactOps, id]
      split_ifs <;> rfl
    rw [e]
    have hp : |(pair P.vr (v, w)).1| ≤ 1 / 2 ∧ 0 ≤ (pair P.vr (v, w)).2 ∧ (pair P.vr (v, w)).2 < 1 := by
      unfold pair
      rw [if_neg hle]
      rw [not_le] at hle
      have hq1 : 86 / 100 < v / P.vr := by rw [lt_div_iff₀ b1]; exact hle
      split_ifs with h2 h3
      · exact ⟨abs_le.2 ⟨by linarith, by linarith⟩, hv0, hv1⟩
      · dsimp only at h3
        exact ⟨abs_le.2 ⟨by dsimp only; linarith, by dsimp only; linarith⟩, by positivity, by dsimp only; nlinarith⟩
      · dsimp only at h2 h3
        rw [not_le] at h2
        have hq2 : v / P.vr < 1 := by rw [div_lt_one b1]; exact h2
        exact ⟨abs_le.2 ⟨by dsimp only; linarith, by dsimp only; linarith⟩, by positivity, by dsimp only; nlinarith⟩
    generalize pair P.vr (v, w) = y at hp ⊢
    obtain ⟨u, V⟩ := y
    dsimp only at hp ⊢
    obtain ⟨hu, hV0, hV1⟩ := hp
    simp only [region, cell, mem_ofPred_eq]
    rw [show exactOps.fl (1 / 2 - |u|) = 1 / 2 - |u| from rfl, show exactOps.fl (13 / 1000) = 13 / 1000 from rfl]
    by_cases hz : 1 / 2 - |u| = 0
    · rw [if_pos hz]
      constructor
      · rintro ⟨_, h⟩
        simp only [generate, ite_self] at h
        cases h
      · rintro ⟨⟨h, _⟩, _⟩; linarith
    · rw [if_neg hz]
      have hus : |u| < 1 / 2 := lt_of_le_of_ne hu (fun h => hz (by linarith))
      have hs := slope_pos' ha hb u
      have hv : exactOps.fl (exactOps.fl (V * P.invAlpha) / exactOps.fl (exactOps.fl (P.a / exactOps.fl ((1 / 2 - |u|) * (1 / 2 - |u|))) + P.b)) =
          V * P.invAlpha / Trd.slope P.a P.b u := by
        simp only [exactOps, id, Trd.slope, pow_two]
      have hiff : ∀ f, V * P.invAlpha / Trd.slope P.a P.b u ≤ f ↔ V ≤ f / P.invAlpha * Trd.slope P.a P.b u := fun f => by
        rw [div_le_iff₀ hs, div_mul_eq_mul_div, le_div_iff₀ hα]
      have hV : 0 ≤ V * P.invAlpha / Trd.slope P.a P.b u := by positivity
      rw [hv, hcand]
      constructor
      · rintro ⟨rest, h⟩
        split at h
        · simp only [generate] at h
          cases h
        · split at h
          · rename_i hac
            rw [castSigned_int] at h
            split at h
            · cases h
            · rename_i k' hk'
              split at hk'
              · injection h with e3 _
                have hkk : ⌊point P.a P.b (μ + 445 / 1000) u⌋ = k := (Option.some.inj hk').trans e3
                rw [hkk] at hac
                exact ⟨⟨hus, hkk⟩, hV0, hV1, (hiff g).1 ((hacc _ hV).1 hac)⟩
              · cases hk'
          · simp only [generate] at h
            cases h
      · rintro ⟨⟨_, hkk⟩, _, _, h⟩
        rw [if_neg, hkk, if_pos ((hacc _ hV).2 ((hiff f).2 h)), castSigned_int, if_pos hin]
        · exact ⟨_, rfl⟩
        · rintro ⟨h2, h3⟩
          exact absurd (h.trans (hsq u hus hkk h2)) (not_le.2 h3)

end

end Poisson
end Boost.Random
