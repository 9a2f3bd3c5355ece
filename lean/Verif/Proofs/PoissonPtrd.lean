import Verif.Proofs.BinomialFar
import Verif.Proofs.Poisson

/-!
# The Poisson distribution: transformed rejection in exact arithmetic
-/

namespace Boost.Random
open Spec

namespace Poisson

section
variable {μ : ℝ} (hm : 10 ≤ μ)
include hm

theorem ptrd_facts : let P := ptrd exactOps μ
    0 < P.vr ∧ P.vr < 93 / 100 ∧ 0 < P.a ∧ 0 < P.b ∧ P.smu = Real.sqrt μ ∧
      0 ≤ μ + 445 / 1000 - (2 * P.a / (7 / 100) + P.b) * (43 / 100) ∧ (2 * P.a / (7 / 100) + P.b) * (43 / 100) ≤ μ := by
  have hs : 3 ≤ Real.sqrt μ := Real.le_sqrt_of_sq_le (by norm_num; linarith)
  have hq : Real.sqrt μ ^ 2 = μ := Real.sq_sqrt (by linarith)
  simp only [ptrd, exactOps, id]
  generalize Real.sqrt μ = σ at *
  have hd : 36224 / 10000 / (931 / 1000 + 253 / 100 * σ - 2) ≤ 6 / 10 := by
    rw [div_le_iff₀ (by linarith)]; linarith
  have hd0 : 0 < 36224 / 10000 / (931 / 1000 + 253 / 100 * σ - 2) := div_pos (by norm_num) (by linarith)
  refine ⟨by linarith, by linarith, by linarith, by linarith, trivial, ?_, ?_⟩ <;> nlinarith

theorem immediate_range {u : ℝ} (hu : |u| ≤ 43 / 100) : let P := ptrd exactOps μ
    0 ≤ candidate exactOps P μ u (exactOps.fl (1 / 2 - |u|)) ∧ candidate exactOps P μ u (exactOps.fl (1 / 2 - |u|)) < 2 * μ + 1 := by
  obtain ⟨_, _, ha, hb, _, hlo, hhi⟩ := ptrd_facts hm
  generalize ptrd exactOps μ = P at *
  simp only [candidate, exactOps, id]
  have hus : 7 / 100 ≤ 1 / 2 - |u| := by linarith
  have hq : 2 * P.a / (1 / 2 - |u|) ≤ 2 * P.a / (7 / 100) := div_le_div_of_nonneg_left (by linarith) (by norm_num) hus
  have hq0 : 0 < 2 * P.a / (1 / 2 - |u|) := div_pos (by linarith) (by linarith)
  have habs : |(2 * P.a / (1 / 2 - |u|) + P.b) * u| ≤ (2 * P.a / (7 / 100) + P.b) * (43 / 100) := by
    rw [abs_mul, abs_of_pos (by linarith)]
    exact mul_le_mul (by linarith) hu (abs_nonneg u) (by linarith)
  rw [abs_le] at habs
  constructor <;> linarith [habs.1, habs.2]

theorem immediate_u {v : ℝ} (hv : 0 ≤ v) (hle : v ≤ 86 / 100 * (ptrd exactOps μ).vr) :
    |exactOps.fl (exactOps.fl (v / (ptrd exactOps μ).vr) - exactOps.fl (43 / 100))| ≤ 43 / 100 := by
  obtain ⟨b1, _⟩ := ptrd_facts hm
  have : v / (ptrd exactOps μ).vr ≤ 86 / 100 := by rw [div_le_iff₀ b1]; exact hle
  have h00 : 0 ≤ v / (ptrd exactOps μ).vr := div_nonneg hv b1.le
  simp only [exactOps, id] at this h00 ⊢
  rw [abs_le]
  constructor <;> linarith

end

theorem accept_nonneg {o : RealOps ℝ} {P : Ptrd ℝ} {μ v : ℝ} {k : Int} (h : accept o P μ k v = true) : 0 ≤ k := by
  unfold accept at h
  split at h
  · omega
  · split at h
    · assumption
    · cases h

/-- Every number that is returned is a number of events. -/
theorem generate_range {bits : Nat} {μ : ℝ} (hm : 10 ≤ μ) : ∀ vs : List ℝ, (∀ v ∈ vs, 0 ≤ v) →
    ∀ k rest, generate exactOps bits (ptrd exactOps μ) μ vs = .done k rest → 0 ≤ k ∧ k < 2 ^ (bits - 1) ∧ rest <:+ vs := by
  intro vs
  induction hl : vs.length using Nat.strongRecOn generalizing vs with
  | ind n ih =>
    intro hv k rest h
    cases vs with
    | nil => simp [generate] at h
    | cons v vs =>
      rw [generate.eq_def] at h
      dsimp only at h
      split at h
      · rename_i hvle
        rw [castSigned_int] at h
        split at h
        · cases h
        · rename_i k' hk'
          obtain ⟨h1', h2'⟩ : k' = k ∧ vs = rest := by simpa using h
          split at hk'
          · rename_i hin
            obtain ⟨r1, r2⟩ := immediate_range hm (immediate_u hm (hv v (by simp)) hvle)
            have hk'' := Option.some.inj hk'
            rw [hk''] at hin
            rw [← h1']
            refine ⟨?_, by have := hin.2; omega, ?_⟩
            · rw [← hk'']; exact Int.floor_nonneg.2 r1
            · rw [← h2']; exact List.suffix_cons _ _
          · cases hk'
      · split at h
        · cases h
        · rename_i w vs'
          have hsub : ∀ v ∈ vs', 0 ≤ v := fun v hv' => hv v (by simp [hv'])
          have rec_ : generate exactOps bits (ptrd exactOps μ) μ vs' = .done k rest → 0 ≤ k ∧ k < 2 ^ (bits - 1) ∧ rest <:+ (v :: w :: vs') := by
            intro h
            obtain ⟨a, b, c⟩ := ih vs'.length (by simp at hl; omega) vs' rfl hsub k rest h
            exact ⟨a, b, (c.trans (List.suffix_cons _ _)).trans (List.suffix_cons _ _)⟩
          split at h
          · exact rec_ h
          · split at h
            · exact rec_ h
            · split at h
              · rename_i hacc
                have := accept_nonneg hacc
                rw [castSigned_int] at h
                split at h
                · cases h
                · rename_i k' hk'
                  obtain ⟨h1', h2'⟩ : k' = k ∧ vs' = rest := by simpa using h
                  split at hk'
                  · rename_i hin
                    have hk'' := Option.some.inj hk'
                    rw [hk''] at hin this
                    rw [← h1']
                    refine ⟨this, by have := hin.2; omega, ?_⟩
                    rw [← h2']; exact (List.suffix_cons _ _).trans (List.suffix_cons _ _)
                  · cases hk'
              · exact rec_ h

/-- The first stage has no undefined behaviour. -/
theorem generate_immediate {bits : Nat} {μ : ℝ} (hm : 10 ≤ μ) (hb : 2 * μ + 1 ≤ 2 ^ (bits - 1)) {v : ℝ} (hv : 0 ≤ v)
    (hle : v ≤ 86 / 100 * (ptrd exactOps μ).vr) (vs : List ℝ) :
    ∃ k : Int, generate exactOps bits (ptrd exactOps μ) μ (v :: vs) = .done k vs ∧ 0 ≤ k ∧ (k : ℝ) ≤ 2 * μ + 1 := by
  rw [generate.eq_def]
  dsimp only
  rw [if_pos (show v ≤ exactOps.fl (exactOps.fl (86 / 100) * (ptrd exactOps μ).vr) from hle), castSigned_int]
  obtain ⟨r1, r2⟩ := immediate_range hm (immediate_u hm hv hle)
  generalize candidate exactOps (ptrd exactOps μ) μ _ _ = c at *
  have h1 : 0 ≤ ⌊c⌋ := Int.floor_nonneg.2 r1
  have h2 : (⌊c⌋ : ℝ) ≤ c := Int.floor_le c
  rw [if_pos]
  · exact ⟨_, rfl, h1, by linarith⟩
  · constructor
    · have : (0 : Int) < 2 ^ (bits - 1) := by positivity
      omega
    · have : (⌊c⌋ : ℝ) < 2 ^ (bits - 1) := by linarith
      exact_mod_cast this

/-- A candidate is accepted when `v` is at most its probability, up to the error of the approximation of the factorial. -/
theorem accept_value {μ : ℝ} (hm : 10 ≤ μ) (k : Nat) {v : ℝ} (hv : 0 < v) :
    (accept exactOps (ptrd exactOps μ) μ k v = true → v ≤ poissonPmf μ k * Real.exp (6 / 10 ^ 11)) ∧
    (v ≤ poissonPmf μ k * Real.exp (-(6 / 10 ^ 11)) → accept exactOps (ptrd exactOps μ) μ k v = true) := by
  have hμ : 0 < μ := by linarith
  have hp := poissonPmf_pos hμ k
  obtain ⟨_, _, _, _, hs, _⟩ := ptrd_facts hm
  have hsq : 0 < Real.sqrt μ := Real.sqrt_pos.2 hμ
  obtain ⟨b, e, hb⟩ : ∃ b, accept exactOps (ptrd exactOps μ) μ k v = decide (Real.log v ≤ b) ∧ |b - Real.log (poissonPmf μ k)| ≤ 6 / 10 ^ 11 := by
    unfold accept
    rw [if_neg hv.ne']
    rcases Nat.lt_or_ge k 10 with h | h
    · rw [if_neg (by omega), if_pos (by omega), if_neg hv.ne', Int.toNat_natCast]
      exact ⟨_, rfl, (smallBound_value hμ h).trans (by norm_num)⟩
    · rw [if_pos (by omega)]
      refine ⟨largeBound exactOps μ k - Real.log (Real.sqrt μ), ?_, largeBound_value hμ h⟩
      have : exactOps.fl (exactOps.log (exactOps.fl (v * (ptrd exactOps μ).smu))) = Real.log v + Real.log (Real.sqrt μ) := by
        rw [hs]
        exact Real.log_mul hv.ne' hsq.ne'
      rw [this]
      congr 1
      rw [Int.cast_natCast, le_sub_iff_add_le]
  rw [e, decide_eq_true_iff]
  rw [abs_le] at hb
  constructor
  · intro h
    rw [← Real.log_le_log_iff hv (by positivity), Real.log_mul hp.ne' (Real.exp_pos _).ne', Real.log_exp]
    linarith [hb.2]
  · intro h
    have := Real.log_le_log hv h
    rw [Real.log_mul hp.ne' (Real.exp_pos _).ne', Real.log_exp] at this
    linarith [hb.1]

end Poisson
end Boost.Random
