import Verif.Proofs.Binomial
import Mathlib.Analysis.Real.Sqrt

/-!
# The binomial distribution: transformed rejection in exact arithmetic
-/

namespace Boost.Random
open Spec Finset

theorem castSigned_int {K : Type} [Field K] [LinearOrder K] [IsStrictOrderedRing K] [FloorRing K] {bits : Nat} {n : Int} : castSigned bits (n : K) = if InSigned bits n then some n else none := by
  unfold castSigned
  simp only [Int.floor_intCast, Int.ceil_intCast, ite_self]

namespace Binomial

section
variable {t : Nat} {p : ℝ} (h0 : 0 ≤ p) (h1 : p ≤ 1 / 2) (hm : 11 ≤ (t + 1) * p)
include h0 h1 hm

/-- The standard deviation. -/
theorem sigma_facts : 2 ≤ Real.sqrt (t * p * (1 - p)) ∧ Real.sqrt (t * p * (1 - p)) ^ 2 ≤ t * p ∧ 2 * Real.sqrt (t * p * (1 - p)) ^ 2 ≤ t * (1 - p) := by
  have htp : 10.5 ≤ t * p := by nlinarith
  have ht0 : (0 : ℝ) ≤ t := by positivity
  have hn : 0 ≤ t * p * (1 - p) := by
    have : 0 ≤ 1 - p := by linarith
    positivity
  rw [Real.sq_sqrt hn]
  refine ⟨?_, by nlinarith, ?_⟩
  swap
  · have : 0 ≤ t * (1 - p) := mul_nonneg ht0 (by linarith)
    nlinarith
  apply Real.le_sqrt_of_sq_le
  nlinarith

theorem btrd_facts : let B := btrd exactOps t p
    0 < B.vr ∧ B.vr < 92 / 100 ∧ B.urvr = 86 / 100 * B.vr ∧ 0 < B.a ∧ 0 < B.b ∧ 0 < B.npq ∧
      0 ≤ B.c - (2 * B.a / (7 / 100) + B.b) * (43 / 100) ∧ B.c + (2 * B.a / (7 / 100) + B.b) * (43 / 100) < t + 1 := by
  obtain ⟨s1, s2, s3⟩ := sigma_facts h0 h1 hm
  have htp : 10.5 ≤ t * p := by nlinarith
  have ht0 : (0 : ℝ) ≤ t := by positivity
  have hn : 0 < t * p * (1 - p) := by nlinarith
  simp only [btrd, exactOps, id, Int.cast_natCast]
  generalize Real.sqrt (t * p * (1 - p)) = σ at *
  have hb : 6 ≤ 115 / 100 + 253 / 100 * σ := by linarith
  have hd : 42 / 10 / (115 / 100 + 253 / 100 * σ) ≤ 7 / 10 := by
    rw [div_le_iff₀ (by linarith)]; linarith
  have hd0 : 0 < 42 / 10 / (115 / 100 + 253 / 100 * σ) := div_pos (by norm_num) (by linarith)
  refine ⟨by linarith, by linarith, trivial, by linarith, by linarith, hn, ?_, ?_⟩
  · nlinarith
  · nlinarith [sq_nonneg (σ - 1 / 2)]

/-- The region of immediate acceptance. -/
theorem immediate_range {u : ℝ} (hu : |u| ≤ 43 / 100) : let B := btrd exactOps t p
    0 ≤ candidate exactOps B u (exactOps.fl (1 / 2 - |u|)) ∧ candidate exactOps B u (exactOps.fl (1 / 2 - |u|)) < t + 1 := by
  obtain ⟨_, _, _, ha, hb, _, hlo, hhi⟩ := btrd_facts h0 h1 hm
  generalize btrd exactOps t p = B at *
  simp only [candidate, exactOps, id]
  have hus : 7 / 100 ≤ 1 / 2 - |u| := by linarith
  have hq : 2 * B.a / (1 / 2 - |u|) ≤ 2 * B.a / (7 / 100) := div_le_div_of_nonneg_left (by linarith) (by norm_num) hus
  have hq0 : 0 < 2 * B.a / (1 / 2 - |u|) := div_pos (by linarith) (by linarith)
  have habs : |(2 * B.a / (1 / 2 - |u|) + B.b) * u| ≤ (2 * B.a / (7 / 100) + B.b) * (43 / 100) := by
    rw [abs_mul, abs_of_pos (by linarith)]
    exact mul_le_mul (by linarith) hu (abs_nonneg u) (by linarith)
  rw [abs_le] at habs
  constructor <;> linarith [habs.1, habs.2]

end

/-- Every candidate that is returned is a number of successes. -/
theorem generate_range {bits t : Nat} {p : ℝ} (h0 : 0 ≤ p) (h1 : p ≤ 1 / 2) (hm : 11 ≤ (t + 1) * p) (m : Int) : ∀ vs : List ℝ, (∀ v ∈ vs, 0 ≤ v) →
    ∀ k rest, generate exactOps bits (btrd exactOps t p) t m vs = .done k rest → 0 ≤ k ∧ k ≤ t := by
  intro vs
  induction hl : vs.length using Nat.strongRecOn generalizing vs with
  | ind n ih =>
    intro hv k rest h
    cases vs with
    | nil => simp [generate] at h
    | cons v vs =>
      rw [generate.eq_def] at h
      dsimp only at h
      split at h
      · rename_i hvle
        rw [castSigned_int] at h
        split at h
        · cases h
        · rename_i k' hk'
          obtain ⟨h1', h2'⟩ : k' = k ∧ vs = rest := by simpa using h
          split at hk'
          · obtain ⟨b1, b2, b3, _⟩ := btrd_facts h0 h1 hm
            have hu : |exactOps.fl (exactOps.fl (v / (btrd exactOps t p).vr) - exactOps.fl (43 / 100))| ≤ 43 / 100 := by
              rw [b3] at hvle
              have hv0 := hv v (by simp)
              have : v / (btrd exactOps t p).vr ≤ 86 / 100 := by rw [div_le_iff₀ b1]; exact hvle
              have h00 : 0 ≤ v / (btrd exactOps t p).vr := div_nonneg hv0 b1.le
              simp only [exactOps, id] at this h00 ⊢
              rw [abs_le]
              constructor <;> linarith
            obtain ⟨r1, r2⟩ := immediate_range h0 h1 hm hu
            have hk'' := Option.some.inj hk'
            rw [← h1', ← hk'']
            refine ⟨Int.floor_nonneg.2 r1, ?_⟩
            have : ⌊candidate exactOps (btrd exactOps t p) (exactOps.fl (exactOps.fl (v / (btrd exactOps t p).vr) - exactOps.fl (43 / 100)))
              (exactOps.fl (1 / 2 - |exactOps.fl (exactOps.fl (v / (btrd exactOps t p).vr) - exactOps.fl (43 / 100))|))⌋ < (t : Int) + 1 := by
              rw [Int.floor_lt]; push_cast; exact r2
            omega
          · cases hk'
      · split at h
        · cases h
        · rename_i w vs'
          have hsub : ∀ v ∈ vs', 0 ≤ v := fun v hv' => hv v (by simp [hv'])
          split at h
          · cases h
          · split at h
            · cases h
            · split at h
              · exact ih vs'.length (by simp at hl; omega) vs' rfl hsub k rest h
              · rename_i k' _ hk'
                split at h
                · obtain ⟨h1', h2'⟩ : k' = k ∧ vs' = rest := by simpa using h
                  push Not at hk'
                  exact h1' ▸ hk'
                · exact ih vs'.length (by simp at hl; omega) vs' rfl hsub k rest h

/-- The first stage has no undefined behaviour. -/
theorem generate_immediate {bits t : Nat} {p : ℝ} (h0 : 0 ≤ p) (h1 : p ≤ 1 / 2) (hm : 11 ≤ (t + 1) * p) (ht : t < 2 ^ (bits - 1)) (m : Int) {v : ℝ} (hv : 0 ≤ v)
    (hle : v ≤ (btrd exactOps t p).urvr) (vs : List ℝ) : ∃ k, generate exactOps bits (btrd exactOps t p) t m (v :: vs) = .done k vs := by
  rw [generate.eq_def]
  dsimp only
  rw [if_pos hle]
  rw [castSigned_int]
  obtain ⟨b1, b2, b3, _⟩ := btrd_facts h0 h1 hm
  have hu : |exactOps.fl (exactOps.fl (v / (btrd exactOps t p).vr) - exactOps.fl (43 / 100))| ≤ 43 / 100 := by
    rw [b3] at hle
    have : v / (btrd exactOps t p).vr ≤ 86 / 100 := by rw [div_le_iff₀ b1]; exact hle
    have h00 : 0 ≤ v / (btrd exactOps t p).vr := div_nonneg hv b1.le
    simp only [exactOps, id] at this h00 ⊢
    rw [abs_le]
    constructor <;> linarith
  obtain ⟨r1, r2⟩ := immediate_range h0 h1 hm hu
  generalize exactOps.fl (exactOps.fl (v / (btrd exactOps t p).vr) - exactOps.fl (43 / 100)) = u at *
  have f1 := Int.floor_nonneg.2 r1
  have f2 : ⌊candidate exactOps (btrd exactOps t p) u (exactOps.fl (1 / 2 - |u|))⌋ < (t : Int) + 1 := by
    rw [Int.floor_lt]; push_cast; exact r2
  rw [if_pos]
  · exact ⟨_, rfl⟩
  · have : (t : Int) < 2 ^ (bits - 1) := by exact_mod_cast ht
    constructor <;> omega

/-! ## The test near the mode -/

theorem binPmf_pos {t : Nat} {p : ℝ} (h0 : 0 < p) (h1 : p < 1) {k : Nat} (hk : k ≤ t) : 0 < binPmf t p k := by
  unfold binPmf
  have : 0 < 1 - p := by linarith
  have : 0 < (t.choose k : ℝ) := by exact_mod_cast Nat.choose_pos hk
  positivity

theorem ratioLoop_exact {t : Nat} {p : ℝ} (h0 : 0 < p) (h1 : p < 1) : ∀ (n i : Nat) (f : ℝ), i + n ≤ t →
    ratioLoop exactOps (btrd exactOps t p) n i f * binPmf t p i = f * binPmf t p (i + n) := by
  intro n
  induction n with
  | zero => intro i f _; rfl
  | succ n ih =>
    intro i f hi
    rw [ratioLoop]
    have hs := binPmf_succ (t := t) h1.ne i
    have hne := (binPmf_pos h0 h1 (show i ≤ t by omega)).ne'
    have hne' := (binPmf_pos h0 h1 (show i + 1 ≤ t by omega)).ne'
    have := ih (i + 1) (exactOps.fl (f * exactOps.fl (exactOps.fl ((btrd exactOps t p).nr / exactOps.fl ((i + 1 : Nat) : ℝ)) - (btrd exactOps t p).r))) (by omega)
    have e : exactOps.fl (f * exactOps.fl (exactOps.fl ((btrd exactOps t p).nr / exactOps.fl ((i + 1 : Nat) : ℝ)) - (btrd exactOps t p).r)) * binPmf t p i = f * binPmf t p (i + 1) := by
      rw [← hs]
      simp only [btrd, exactOps, id]
      push_cast
      ring
    apply mul_right_cancel₀ hne'
    rw [mul_right_comm, this, show i + (n + 1) = i + 1 + n by omega, mul_right_comm, e, mul_right_comm]

/-- Near the mode a candidate is accepted exactly when the value is at most the ratio of the probabilities. -/
theorem acceptNear_exact {t : Nat} {p : ℝ} (h0 : 0 < p) (h1 : p < 1) {m k : Nat} (hm : m ≤ t) (hk : k ≤ t) (v : ℝ) :
    acceptNear exactOps (btrd exactOps t p) m k v = decide (v ≤ binPmf t p k / binPmf t p m) := by
  have pm := binPmf_pos h0 h1 hm
  have pk := binPmf_pos h0 h1 hk
  unfold acceptNear
  split
  · rename_i h
    have := ratioLoop_exact (t := t) h0 h1 (k - m) m 1 (by omega)
    rw [show m + (k - m) = k by omega, one_mul] at this
    congr 1
    rw [← this, mul_div_assoc, div_self pm.ne', mul_one]
  · split
    · rename_i _ h
      have := ratioLoop_exact (t := t) h0 h1 (m - k) k v (by omega)
      rw [show k + (m - k) = m by omega] at this
      congr 1
      rw [eq_iff_iff, le_div_iff₀ pm, ← this]
      exact ⟨fun h => by nlinarith, fun h => by
        have : ratioLoop exactOps (btrd exactOps t p) (m - k) k v * binPmf t p k ≤ 1 * binPmf t p k := by linarith
        exact le_of_mul_le_mul_right this pk⟩
    · rename_i h h'
      have : k = m := by omega
      subst this
      rw [div_self pk.ne']

end Binomial
end Boost.Random
