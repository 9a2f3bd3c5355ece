import Verif.Proofs.TrdBinomial
import Verif.Proofs.TrdPoisson
import Verif.Proofs.PtrdHat
import Verif.Props.Binomial
import Verif.Props.Poisson

/-!
# Properties C128 and C129: the law of the transformed rejection methods

One round of the loops of `binomial_distribution::generate` and `poisson_distribution::generate` in exact arithmetic. The two values of
`uniform_01` are a point of the unit square; probabilities are areas.
-/

namespace Boost.Random
open Spec Trd MeasureTheory Set

/-! ## C128: the binomial distribution -/

section
variable {bits t : Nat} {p : ℝ}

/-- The constants are the published ones. -/
theorem btrd_constants (t : Nat) (p : ℝ) : let B := Binomial.btrd exactOps t p
    let σ := Real.sqrt (t * p * (1 - p))
    B.a = btrdA p σ ∧ B.b = btrdB σ ∧ B.c = t * p + 1 / 2 ∧ B.vr = btrdVr σ ∧ B.alpha = btrdAlpha σ := by
  simp only [Binomial.btrd, exactOps, id, btrdA, btrdB, btrdVr, btrdAlpha, Int.cast_natCast]
  norm_num

/-- The positions and heights from the two values of `uniform_01`, outside of the region of immediate acceptance, are uniform in the rectangle
without the rectangle of height `vr` in the middle. -/
theorem c128_uniform {B : Binomial.Btrd ℝ} (h0 : 0 < B.vr) (h1 : B.vr < 1) (hu : B.urvr = 86 / 100 * B.vr) {Q : Set (ℝ × ℝ)} (hQ : MeasurableSet Q)
    (hs : Q ⊆ Ioo (-(1 / 2)) (1 / 2) ×ˢ Ico 0 1) :
    volume {x : ℝ × ℝ | x ∈ Ico (0 : ℝ) 1 ×ˢ Ico (0 : ℝ) 1 ∧ ¬ x.1 ≤ B.urvr ∧ Binomial.second exactOps B x.1 x.2 ∈ Q} = volume (Q \ {y | |y.1| ≤ 43 / 100 ∧ y.2 < B.vr}) := by
  have hm1 : MeasurableSet {y : ℝ × ℝ | |y.1| ≤ 43 / 100} := measurableSet_le (by fun_prop) (by fun_prop)
  have hm2 : MeasurableSet {y : ℝ × ℝ | y.2 < B.vr} := measurableSet_lt (by fun_prop) (by fun_prop)
  have hm : MeasurableSet {y : ℝ × ℝ | |y.1| ≤ 43 / 100 ∧ y.2 < B.vr} := hm1.inter hm2
  rw [← volume_pair h0 h1 (hQ.diff hm) (sdiff_subset.trans hs)]
  congr 1
  ext ⟨v, w⟩
  simp only [mem_ofPred_eq, mem_sdiff, square]
  rw [hu]
  refine and_congr_right fun hx => ?_
  obtain ⟨⟨hv0, hv1⟩, hw0, hw1⟩ := hx
  dsimp only at hv0 hv1 hw0 hw1
  have e : ¬ v ≤ 86 / 100 * B.vr → Binomial.second exactOps B v w = pair B.vr (v, w) := fun hle => by
    unfold Binomial.second pair
    rw [if_neg hle]
    dsimp only [exactOps, id]
    split_ifs <;> rfl
  constructor
  · rintro ⟨hle, hp⟩
    rw [e hle] at hp
    refine ⟨hp, fun hc => ?_⟩
    rw [pair, if_neg hle] at hc
    rw [not_le] at hle
    have hq1 : 86 / 100 < v / B.vr := by rw [lt_div_iff₀ h0]; exact hle
    split_ifs at hc with h2 h3
    · exact absurd hc.2 (not_lt.2 h2)
    · have := (abs_le.1 hc.1).1
      dsimp only at this h3
      linarith
    · have := (abs_le.1 hc.1).2
      dsimp only at this h3 h2
      rw [not_le, ← div_lt_one h0] at h2
      linarith
  · rintro ⟨hp, hc⟩
    have hle : ¬ v ≤ 86 / 100 * B.vr := by
      intro hle
      apply hc
      rw [pair, if_pos hle]
      have hq1 : v / B.vr ≤ 86 / 100 := by rw [div_le_iff₀ h0]; exact hle
      have hq0 : 0 ≤ v / B.vr := div_nonneg hv0 h0.le
      exact ⟨abs_le.2 ⟨by dsimp only; linarith, by dsimp only; linarith⟩, by dsimp only; nlinarith⟩
    exact ⟨hle, by rw [e hle]; exact hp⟩

/-- The constants for a hundred throws of a coin. -/
example : ∃ B : Binomial.Btrd ℝ, B = Binomial.btrd exactOps (100 : Nat) (1 / 2) ∧ 0 < B.vr ∧ B.vr < 1 ∧ B.urvr = 86 / 100 * B.vr := by
  obtain ⟨h1, h2, h3, _⟩ := Binomial.btrd_facts (t := 100) (p := 1 / 2) (by norm_num) (by norm_num) (by norm_num)
  exact ⟨_, rfl, h1, by linarith, h3⟩

/-- The probability that one round returns `j` is that of `j` successes, divided by the constant `P(m) α`, for the numbers up to 15 from the mode `m`
whose part of the region lies between the two rectangles. -/
theorem c128_law_partial {eps : ℝ} (h0 : 0 ≤ p) (h1 : p ≤ 1) (ht : t + 1 < 2 ^ (bits - 1)) (hm : 11 ≤ (t + 1) * min p (1 - p)) {j : Nat} (hj : j ≤ t) :
    let q := min p (1 - p)
    let m := ⌊((t : ℝ) + 1) * q⌋.toNat
    let k := if 1 / 2 < p then t - j else j
    let σ := Real.sqrt (t * q * (1 - q))
    k ≤ m + 15 → m ≤ k + 15 → Hat (btrdA q σ) (btrdB σ) (t * q + 1 / 2) (btrdVr σ) (binPmf t q k / binPmf t q m / btrdAlpha σ) k →
    ∃ d, Binomial.init exactOps bits t p = some d ∧
      volume {x : ℝ × ℝ | x ∈ Ico (0 : ℝ) 1 ×ˢ Ico (0 : ℝ) 1 ∧ ∃ rest, Binomial.next exactOps bits eps d [x.1, x.2] = .done (j : Int) rest} =
        ENNReal.ofReal (binPmf t p j / (binPmf t q m * btrdAlpha σ)) := by
  intro q m k σ hk1 hk2 hat
  have hq0 : 0 ≤ q := le_min h0 (by linarith)
  have hqh : q ≤ 1 / 2 := min_half
  have hqpos : 0 < q := by
    rcases hq0.lt_or_eq with h | h
    · exact h
    · rw [show min p (1 - p) = q from rfl, ← h] at hm
      norm_num at hm
  have hkt : k ≤ t := by
    show (if 1 / 2 < p then t - j else j) ≤ t
    split <;> omega
  have hmt : m ≤ t := by
    have : ⌊((t : ℝ) + 1) * q⌋ < (t : Int) + 1 := by
      rw [Int.floor_lt]
      push_cast
      nlinarith [show (0 : ℝ) ≤ t by positivity]
    show ⌊((t : ℝ) + 1) * q⌋.toNat ≤ t
    omega
  obtain ⟨b1, b2, b3, ha, hb, _⟩ := Binomial.btrd_facts hq0 hqh hm
  obtain ⟨e1, e2, e3, e4, e5⟩ := btrd_constants t q
  have hσ : 2 ≤ σ := (Binomial.sigma_facts hq0 hqh hm).1
  have hα : 0 < (Binomial.btrd exactOps t q).alpha := by
    rw [e5]
    have hbb : 0 < btrdB σ := by unfold btrdB; linarith
    have : 0 < 5.1 / btrdB σ := by positivity
    show 0 < (2.83 + 5.1 / btrdB σ) * σ
    exact mul_pos (by linarith) (by linarith)
  have pk : 0 < binPmf t q k := Binomial.binPmf_pos hqpos (by linarith) hkt
  have pm : 0 < binPmf t q m := Binomial.binPmf_pos hqpos (by linarith) hmt
  rw [← e1, ← e2, ← e3, ← e4, ← e5] at hat
  refine ⟨_, init_btrd h0 h1 ht hm, ?_⟩
  have hset : {x : ℝ × ℝ | x ∈ Ico (0 : ℝ) 1 ×ˢ Ico (0 : ℝ) 1 ∧ ∃ rest, Binomial.next exactOps bits eps
      ⟨t, p, ⌊((t : ℝ) + 1) * q⌋, .inr (Binomial.btrd exactOps t q)⟩ [x.1, x.2] = .done (j : Int) rest} =
      {x ∈ square | pair (Binomial.btrd exactOps t q).vr x ∈ region (Binomial.btrd exactOps t q).a (Binomial.btrd exactOps t q).b
        (Binomial.btrd exactOps t q).c (binPmf t q k / binPmf t q m / (Binomial.btrd exactOps t q).alpha) k} := by
    ext x
    refine and_congr_right fun hx => ?_
    rw [← Binomial.round_iff (bits := bits) hq0 hqh hm (by omega) ⌊((t : ℝ) + 1) * q⌋ hkt hα (fun v => c76_near hqpos (by linarith) hmt hkt ⟨hk1, hk2⟩ v) hat hx]
    unfold Binomial.next
    dsimp only
    have ht' : (t : Int) + 1 < 2 ^ (bits - 1) := by exact_mod_cast ht
    have hnn : ∀ v ∈ [x.1, x.2], (0 : ℝ) ≤ v := by
      intro v hv
      simp only [List.mem_cons, List.not_mem_nil, or_false] at hv
      rcases hv with rfl | rfl
      · exact hx.1.1
      · exact hx.2.1
    cases hg : Binomial.generate exactOps bits (Binomial.btrd exactOps t q) t ⌊((t : ℝ) + 1) * q⌋ [x.1, x.2] with
    | more => simp only [Draws.bind, reduceCtorEq]
    | ub => simp only [Draws.bind, reduceCtorEq]
    | done k' rest' =>
      obtain ⟨r0, r1⟩ := Binomial.generate_range hq0 hqh hm _ _ hnn k' rest' hg
      simp only [Draws.bind]
      rw [if_pos]
      · simp only [Draws.done.injEq, exists_and_left, exists_eq', and_true]
        show (if 1 / 2 < p then (t : Int) - k' else k') = j ↔ k' = (if 1 / 2 < p then t - j else j : Nat)
        split <;> omega
      · constructor <;> split <;> omega
  rw [hset, volume_pair b1 (by linarith) (measurable_region ha hb _ _) region_subset, volume_region ha hb (by positivity) fun u hu => (hat u hu.1 hu.2).1, e5]
  congr 1
  rw [div_div]
  congr 1
  show binPmf t q (if 1 / 2 < p then t - j else j) = binPmf t p j
  split
  · rename_i hp
    have : q = 1 - p := min_eq_right (by linarith)
    rw [this]
    unfold binPmf
    rw [Nat.choose_symm hj, sub_sub_cancel, show t - (t - j) = j by omega]
    ring
  · rename_i hp
    have : q = p := min_eq_left (by linarith)
    rw [this]

/-- The hypotheses hold for 36 throws of a coin and all numbers up to 15 from the mode 18. -/
theorem hat_coin {k : Nat} (h1 : k ≤ 33) (h2 : 3 ≤ k) :
    Hat (btrdA (1 / 2) 3) (btrdB 3) (36 * (1 / 2) + 1 / 2) (btrdVr 3) (binPmf 36 (1 / 2) k / binPmf 36 (1 / 2) 18 / btrdAlpha 3) k := by
  have key : ∀ {U L : ℝ} (j : Nat), 0 ≤ L → L < 1 / 2 → 0 ≤ U → U < 1 / 2 → j + 1 / 2 ≤ (2 * 0.134452 / (1 / 2 - U) + 8.74) * U →
      (L = 0 ∨ (2 * 0.134452 / (1 / 2 - L) + 8.74) * L ≤ j - 1 / 2) →
      (Nat.choose 36 (18 + j) : ℝ) / Nat.choose 36 18 / ((2.83 + 5.1 / 8.74) * 3) * (0.134452 / (1 / 2 - U) ^ 2 + 8.74) ≤ 1 →
      (43 / 100 < L ∨ 0.92 - 4.2 / 8.74 ≤ (Nat.choose 36 (18 + j) : ℝ) / Nat.choose 36 18 / ((2.83 + 5.1 / 8.74) * 3) * (0.134452 / (1 / 2 - L) ^ 2 + 8.74)) →
      ∀ k : Nat, k ≤ 36 → (k = 18 + j ∨ k + j = 18) →
      Hat (btrdA (1 / 2) 3) (btrdB 3) (36 * (1 / 2) + 1 / 2) (btrdVr 3) (binPmf 36 (1 / 2) k / binPmf 36 (1 / 2) 18 / btrdAlpha 3) k := by
    intro U L j hL0 hL1 hU0 hU1 c1 c2 c3 c4 k hk36 hk
    have ea : btrdA (1 / 2) 3 = 0.134452 := by norm_num [btrdA, btrdB]
    have eb : btrdB 3 = 8.74 := by norm_num [btrdB]
    have ev : btrdVr 3 = 0.92 - 4.2 / 8.74 := by norm_num [btrdVr, btrdB]
    have eal : btrdAlpha 3 = (2.83 + 5.1 / 8.74) * 3 := by norm_num [btrdAlpha, btrdB]
    have ec : (Nat.choose 36 k : ℝ) = Nat.choose 36 (18 + j) := by
      rcases hk with rfl | hk
      · rfl
      · rw [← Nat.choose_symm (show 18 + j ≤ 36 by omega), show 36 - (18 + j) = k by omega]
    have er : binPmf 36 (1 / 2 : ℝ) k / binPmf 36 (1 / 2) 18 = (Nat.choose 36 (18 + j) : ℝ) / Nat.choose 36 18 := by
      unfold binPmf
      have : (1 - 1 / 2 : ℝ) = 1 / 2 := by norm_num
      rw [this, mul_assoc, mul_assoc, ← pow_add, ← pow_add, show k + (36 - k) = 36 by omega, show 18 + (36 - 18) = 36 by norm_num, ec,
        mul_div_mul_right _ _ (by positivity)]
    rw [er, eal, ea, eb, ev]
    have sU : Trd.slope 0.134452 8.74 U = 0.134452 / (1 / 2 - U) ^ 2 + 8.74 := by rw [Trd.slope, abs_of_nonneg hU0]
    have sL : Trd.slope 0.134452 8.74 L = 0.134452 / (1 / 2 - L) ^ 2 + 8.74 := by rw [Trd.slope, abs_of_nonneg hL0]
    have pU : point 0.134452 8.74 0 U = (2 * 0.134452 / (1 / 2 - U) + 8.74) * U := by rw [point_of_nonneg hU0, add_zero]
    have pL : point 0.134452 8.74 0 L = (2 * 0.134452 / (1 / 2 - L) + 8.74) * L := by rw [point_of_nonneg hL0, add_zero]
    have hkr : (k : ℝ) = 18 + j ∨ (k : ℝ) = 18 - j := by
      rcases hk with hk | hk
      · left; rw [hk]; push_cast; rfl
      · right
        have : (k : ℝ) + j = 18 := by exact_mod_cast hk
        linarith
    have hj0 : (0 : ℝ) ≤ j := by positivity
    refine hat_of_bounds (by norm_num) (by norm_num) (by positivity) hL0 hL1 hU0 hU1 ?_ ?_ ?_ (by rw [sU]; exact c3) (by rw [sL]; exact c4)
    · rw [pU, Int.cast_natCast]; rcases hkr with h | h <;> rw [h] <;> linarith
    · rw [pU, Int.cast_natCast]; rcases hkr with h | h <;> rw [h] <;> linarith
    · rw [pL, Int.cast_natCast]
      rcases c2 with h | h
      · exact Or.inl h
      · rcases hkr with h' | h' <;> rw [h']
        · right; left; linarith
        · right; right; linarith
  obtain ⟨j, hj, hkj⟩ : ∃ j ≤ 15, k = 18 + j ∨ k + j = 18 := by
    rcases Nat.le_total k 18 with h | h
    · exact ⟨18 - k, by omega, by omega⟩
    · exact ⟨k - 18, by omega, by omega⟩
  have hk36 : k ≤ 36 := by omega
  have c0 : Nat.choose 36 18 = 9075135300 := by decide +kernel
  interval_cases j
  · have cj : Nat.choose 36 (18 + 0) = 9075135300 := by decide +kernel
    refine key (U := 27/500) (L := 0) 0 (by norm_num) (by norm_num) (by norm_num) (by norm_num) (by norm_num) (Or.inl rfl) (by rw [cj]; (try rw [c0]); norm_num) (Or.inr (by rw [cj]; (try rw [c0]); norm_num)) k hk36 (by simpa using hkj)
  · have cj : Nat.choose 36 (18 + 1) = 8597496600 := by decide +kernel
    refine key (U := 79/500) (L := 53/1000) 1 (by norm_num) (by norm_num) (by norm_num) (by norm_num) (by norm_num) (Or.inr (by norm_num)) (by rw [cj]; (try rw [c0]); norm_num) (Or.inr (by rw [cj]; (try rw [c0]); norm_num)) k hk36 (by simpa using hkj)
  · have cj : Nat.choose 36 (18 + 2) = 7307872110 := by decide +kernel
    refine key (U := 51/200) (L := 157/1000) 2 (by norm_num) (by norm_num) (by norm_num) (by norm_num) (by norm_num) (Or.inr (by norm_num)) (by rw [cj]; (try rw [c0]); norm_num) (Or.inr (by rw [cj]; (try rw [c0]); norm_num)) k hk36 (by simpa using hkj)
  · have cj : Nat.choose 36 (18 + 3) = 5567902560 := by decide +kernel
    refine key (U := 337/1000) (L := 127/500) 3 (by norm_num) (by norm_num) (by norm_num) (by norm_num) (by norm_num) (Or.inr (by norm_num)) (by rw [cj]; (try rw [c0]); norm_num) (Or.inr (by rw [cj]; (try rw [c0]); norm_num)) k hk36 (by simpa using hkj)
  · have cj : Nat.choose 36 (18 + 4) = 3796297200 := by decide +kernel
    refine key (U := 397/1000) (L := 42/125) 4 (by norm_num) (by norm_num) (by norm_num) (by norm_num) (by norm_num) (Or.inr (by norm_num)) (by rw [cj]; (try rw [c0]); norm_num) (Or.inr (by rw [cj]; (try rw [c0]); norm_num)) k hk36 (by simpa using hkj)
  · have cj : Nat.choose 36 (18 + 5) = 2310789600 := by decide +kernel
    refine key (U := 433/1000) (L := 99/250) 5 (by norm_num) (by norm_num) (by norm_num) (by norm_num) (by norm_num) (Or.inr (by norm_num)) (by rw [cj]; (try rw [c0]); norm_num) (Or.inr (by rw [cj]; (try rw [c0]); norm_num)) k hk36 (by simpa using hkj)
  · have cj : Nat.choose 36 (18 + 6) = 1251677700 := by decide +kernel
    refine key (U := 453/1000) (L := 54/125) 6 (by norm_num) (by norm_num) (by norm_num) (by norm_num) (by norm_num) (Or.inr (by norm_num)) (by rw [cj]; (try rw [c0]); norm_num) (Or.inl (by norm_num)) k hk36 (by simpa using hkj)
  · have cj : Nat.choose 36 (18 + 7) = 600805296 := by decide +kernel
    refine key (U := 58/125) (L := 113/250) 7 (by norm_num) (by norm_num) (by norm_num) (by norm_num) (by norm_num) (Or.inr (by norm_num)) (by rw [cj]; (try rw [c0]); norm_num) (Or.inl (by norm_num)) k hk36 (by simpa using hkj)
  · have cj : Nat.choose 36 (18 + 8) = 254186856 := by decide +kernel
    refine key (U := 59/125) (L := 463/1000) 8 (by norm_num) (by norm_num) (by norm_num) (by norm_num) (by norm_num) (Or.inr (by norm_num)) (by rw [cj]; (try rw [c0]); norm_num) (Or.inl (by norm_num)) k hk36 (by simpa using hkj)
  · have cj : Nat.choose 36 (18 + 9) = 94143280 := by decide +kernel
    refine key (U := 477/1000) (L := 471/1000) 9 (by norm_num) (by norm_num) (by norm_num) (by norm_num) (by norm_num) (Or.inr (by norm_num)) (by rw [cj]; (try rw [c0]); norm_num) (Or.inl (by norm_num)) k hk36 (by simpa using hkj)
  · have cj : Nat.choose 36 (18 + 10) = 30260340 := by decide +kernel
    refine key (U := 12/25) (L := 119/250) 10 (by norm_num) (by norm_num) (by norm_num) (by norm_num) (by norm_num) (Or.inr (by norm_num)) (by rw [cj]; (try rw [c0]); norm_num) (Or.inl (by norm_num)) k hk36 (by simpa using hkj)
  · have cj : Nat.choose 36 (18 + 11) = 8347680 := by decide +kernel
    refine key (U := 483/1000) (L := 479/1000) 11 (by norm_num) (by norm_num) (by norm_num) (by norm_num) (by norm_num) (Or.inr (by norm_num)) (by rw [cj]; (try rw [c0]); norm_num) (Or.inl (by norm_num)) k hk36 (by simpa using hkj)
  · have cj : Nat.choose 36 (18 + 12) = 1947792 := by decide +kernel
    refine key (U := 97/200) (L := 241/500) 12 (by norm_num) (by norm_num) (by norm_num) (by norm_num) (by norm_num) (Or.inr (by norm_num)) (by rw [cj]; (try rw [c0]); norm_num) (Or.inl (by norm_num)) k hk36 (by simpa using hkj)
  · have cj : Nat.choose 36 (18 + 13) = 376992 := by decide +kernel
    refine key (U := 243/500) (L := 121/250) 13 (by norm_num) (by norm_num) (by norm_num) (by norm_num) (by norm_num) (Or.inr (by norm_num)) (by rw [cj]; (try rw [c0]); norm_num) (Or.inl (by norm_num)) k hk36 (by simpa using hkj)
  · have cj : Nat.choose 36 (18 + 14) = 58905 := by decide +kernel
    refine key (U := 61/125) (L := 97/200) 14 (by norm_num) (by norm_num) (by norm_num) (by norm_num) (by norm_num) (Or.inr (by norm_num)) (by rw [cj]; (try rw [c0]); norm_num) (Or.inl (by norm_num)) k hk36 (by simpa using hkj)
  · have cj : Nat.choose 36 (18 + 15) = 7140 := by decide +kernel
    refine key (U := 489/1000) (L := 487/1000) 15 (by norm_num) (by norm_num) (by norm_num) (by norm_num) (by norm_num) (Or.inr (by norm_num)) (by rw [cj]; (try rw [c0]); norm_num) (Or.inl (by norm_num)) k hk36 (by simpa using hkj)

/-- All numbers from 3 to 33, of 36 throws of a coin in `int`. -/
theorem c128_coin {eps : ℝ} {j : Nat} (h1 : 3 ≤ j) (h2 : j ≤ 33) : ∃ d, Binomial.init exactOps 32 (36 : Nat) (1 / 2) = some d ∧
    volume {x : ℝ × ℝ | x ∈ Ico (0 : ℝ) 1 ×ˢ Ico (0 : ℝ) 1 ∧ ∃ rest, Binomial.next exactOps 32 eps d [x.1, x.2] = .done (j : Int) rest} =
      ENNReal.ofReal (Nat.choose 36 j / (Nat.choose 36 18 * ((2.83 + 5.1 / 8.74) * 3))) := by
  have hmin : min (1 / 2 : ℝ) (1 - 1 / 2) = 1 / 2 := by norm_num
  have hs : Real.sqrt (((36 : Nat) : ℝ) * (1 / 2) * (1 - 1 / 2)) = 3 := by
    rw [show ((36 : Nat) : ℝ) * (1 / 2) * (1 - 1 / 2) = 3 ^ 2 by norm_num]
    exact Real.sqrt_sq (by norm_num)
  have hfl : ⌊(((36 : Nat) : ℝ) + 1) * (1 / 2)⌋.toNat = 18 := by
    have : ⌊(((36 : Nat) : ℝ) + 1) * (1 / 2)⌋ = 18 := by rw [Int.floor_eq_iff]; norm_num
    rw [this]; rfl
  have := c128_law_partial (bits := 32) (t := 36) (p := 1 / 2) (eps := eps) (by norm_num) (by norm_num) (by norm_num) (by rw [hmin]; norm_num) (j := j) (by omega)
  dsimp only at this
  rw [hmin, hs, hfl, if_neg (lt_irrefl _)] at this
  obtain ⟨d, hd, hv⟩ := this (by omega) (by omega) (by exact_mod_cast hat_coin h2 h1)
  refine ⟨d, hd, hv.trans ?_⟩
  congr 1
  have e1 : btrdAlpha 3 = (2.83 + 5.1 / 8.74) * 3 := by norm_num [btrdAlpha, btrdB]
  have e2 : ∀ i ≤ 36, binPmf 36 (1 / 2 : ℝ) i = Nat.choose 36 i * (1 / 2) ^ 36 := fun i hi => by
    unfold binPmf
    rw [show (1 - 1 / 2 : ℝ) = 1 / 2 by norm_num, mul_assoc, ← pow_add, show i + (36 - i) = 36 by omega]
  rw [e1, e2 j (by omega), e2 18 (by norm_num), mul_right_comm, mul_div_mul_right _ _ (by positivity)]

end

example : (3 ≤ 18 ∧ 18 ≤ 33) ∧ (Nat.choose 36 18 : ℝ) / (Nat.choose 36 18 * ((2.83 + 5.1 / 8.74) * 3)) < 0.1 := by norm_num [Nat.choose]

/-! ## C129: the Poisson distribution -/

section
variable {bits : Nat} {μ : ℝ}

theorem ptrd_constants (μ : ℝ) : let P := Poisson.ptrd exactOps μ
    P.a = ptrdA μ ∧ P.b = ptrdB μ ∧ P.vr = ptrdVr μ ∧ P.invAlpha = ptrdInvAlpha μ := by
  simp only [Poisson.ptrd, exactOps, id, ptrdA, ptrdB, ptrdVr, ptrdInvAlpha]
  norm_num

/-- The probability that one round returns `k` is that of `k` events, divided by the constant `1/α` of the method, up to a factor of `1 ± 6e-11`. This holds for
the numbers whose part of the region lies between the two rectangles and below the triangles of the quick rejection. -/
theorem law_of_hat (hm : 10 ≤ μ) {k : Nat} (hk : k < 2 ^ (bits - 1))
    (hat : Hat (ptrdA μ) (ptrdB μ) (μ + 0.445) (ptrdVr μ) (poissonPmf μ k / ptrdInvAlpha μ) k)
    (hsq : ∀ u, |u| < 1 / 2 → ⌊point (ptrdA μ) (ptrdB μ) (μ + 0.445) u⌋ = k → 1 / 2 - |u| < 0.013 →
      poissonPmf μ k / ptrdInvAlpha μ * Trd.slope (ptrdA μ) (ptrdB μ) u ≤ 1 / 2 - |u|) :
    let chance := volume {x : ℝ × ℝ | x ∈ Ico (0 : ℝ) 1 ×ˢ Ico (0 : ℝ) 1 ∧
      ∃ rest, Poisson.next exactOps bits (Poisson.init exactOps μ) [x.1, x.2] = .done (k : Int) rest}
    ENNReal.ofReal (poissonPmf μ k / ptrdInvAlpha μ * Real.exp (-(6 / 10 ^ 11))) ≤ chance ∧
      chance ≤ ENNReal.ofReal (poissonPmf μ k / ptrdInvAlpha μ * Real.exp (6 / 10 ^ 11)) := by
  intro chance
  obtain ⟨b1, b2, ha, hb, _⟩ := Poisson.ptrd_facts hm
  obtain ⟨e1, e2, e3, e4⟩ := ptrd_constants μ
  have hα : 0 < (Poisson.ptrd exactOps μ).invAlpha := by
    rw [e4]
    have hs : 3 ≤ Real.sqrt μ := Real.le_sqrt_of_sq_le (by norm_num; linarith)
    have : 0 < ptrdB μ - 3.4 := by unfold ptrdB; norm_num; linarith
    unfold ptrdInvAlpha
    positivity
  have hp : 0 < poissonPmf μ k := Poisson.poissonPmf_pos (by linarith) k
  rw [show (0.445 : ℝ) = 445 / 1000 by norm_num] at hat hsq
  rw [show (0.013 : ℝ) = 13 / 1000 by norm_num] at hsq
  rw [← e1, ← e2, ← e3, ← e4] at hat
  rw [← e1, ← e2, ← e4] at hsq
  rw [← e4]
  have hlo : Real.exp (-(6 / 10 ^ 11)) ≤ 1 := Real.exp_le_one_iff.2 (by norm_num)
  have hhi : 1 ≤ Real.exp (6 / 10 ^ 11) := Real.one_le_exp (by norm_num)
  have hround : ∀ x ∈ square, _ := fun x hx => Poisson.round_iff (bits := bits) hm hk (f := poissonPmf μ k * Real.exp (-(6 / 10 ^ 11)))
    (g := poissonPmf μ k * Real.exp (6 / 10 ^ 11)) hα (by nlinarith)
    (fun v hv => by
      rcases hv.lt_or_eq with h | h
      · exact Poisson.accept_value hm k h
      · subst h
        refine ⟨fun _ => by positivity, fun _ => ?_⟩
        unfold Poisson.accept
        split
        · rw [if_pos rfl]
        · rw [if_pos (by omega), if_pos rfl])
    (fun u hu hk hle => by
      refine ((hat u hu hk).2 hle).trans ?_
      have := slope_pos' ha hb u
      refine mul_le_mul_of_nonneg_right (div_le_div_of_nonneg_right ?_ hα.le) this.le
      nlinarith)
    (fun u hu hk hlt => by
      refine le_trans ?_ (hsq u hu hk hlt)
      have := slope_pos' ha hb u
      refine mul_le_mul_of_nonneg_right (div_le_div_of_nonneg_right ?_ hα.le) this.le
      nlinarith) hx
  have hnext : ∀ x : ℝ × ℝ, Poisson.next exactOps bits (Poisson.init exactOps μ) [x.1, x.2] = Poisson.generate exactOps bits (Poisson.ptrd exactOps μ) μ [x.1, x.2] := fun x => by
    unfold Poisson.next Poisson.init
    rw [if_neg (not_lt.2 hm)]
  constructor
  · rw [div_mul_eq_mul_div, ← volume_region ha hb (f := poissonPmf μ k * Real.exp (-(6 / 10 ^ 11)) / (Poisson.ptrd exactOps μ).invAlpha)
      (c := μ + 445 / 1000) (k := k) (by positivity), ← volume_pair b1 (by linarith) (measurable_region ha hb _ _) region_subset]
    · refine measure_mono fun x hx => ⟨hx.1, ?_⟩
      rw [hnext]
      exact (hround x hx.1).2 hx.2
    · intro u hu
      refine le_trans ?_ (hat u hu.1 hu.2).1
      have := slope_pos' ha hb u
      refine mul_le_mul_of_nonneg_right (div_le_div_of_nonneg_right ?_ hα.le) this.le
      nlinarith
  · rw [div_mul_eq_mul_div]
    refine le_trans ?_ (volume_region_le ha hb (c := μ + 445 / 1000) (k := k) (by positivity))
    rw [← volume_pair b1 (by linarith) (measurable_region ha hb _ _) region_subset]
    refine measure_mono fun x hx => ⟨hx.1, ?_⟩
    obtain ⟨h1, h2⟩ := hx
    rw [hnext] at h2
    exact (hround x h1).1 h2

/-- The probability that one round returns `k`. -/
noncomputable def ptrdChance (bits : Nat) (μ : ℝ) (k : Nat) : ENNReal :=
  volume {x : ℝ × ℝ | x ∈ Ico (0 : ℝ) 1 ×ˢ Ico (0 : ℝ) 1 ∧
    ∃ rest, Poisson.next exactOps bits (Poisson.init exactOps μ) [x.1, x.2] = .done (k : Int) rest}

/-- The probability that one round returns `k` is that of `k` events, divided by the constant `1/α` of the method, up to a factor of `1 ± 6e-11`, for all means
for which the method is used and all numbers. -/
theorem c129_law (hm : 10 ≤ μ) {k : Nat} (hk : k < 2 ^ (bits - 1)) :
    ENNReal.ofReal (poissonPmf μ k / ptrdInvAlpha μ * Real.exp (-(6 / 10 ^ 11))) ≤ ptrdChance bits μ k ∧
      ptrdChance bits μ k ≤ ENNReal.ofReal (poissonPmf μ k / ptrdInvAlpha μ * Real.exp (6 / 10 ^ 11)) :=
  law_of_hat hm hk (PtrdBox.hat_all hm k).1 (PtrdBox.hat_all hm k).2

/-- All numbers, of events with the mean 16, in `int`. -/
example {k : Nat} (hk : k < 2 ^ 31) : ptrdChance 32 16 k ≤ ENNReal.ofReal (poissonPmf 16 k / (1.1239 + 1.1328 / 7.651) * Real.exp (6 / 10 ^ 11)) := by
  have hs : Real.sqrt (16 : ℝ) = 4 := by
    rw [show (16 : ℝ) = 4 ^ 2 by norm_num]
    exact Real.sqrt_sq (by norm_num)
  have ei : ptrdInvAlpha 16 = 1.1239 + 1.1328 / 7.651 := by rw [ptrdInvAlpha, ptrdB, hs]; norm_num
  have := (c129_law (bits := 32) (μ := 16) (by norm_num) (k := k) hk).2
  rwa [ei] at this

/-- The numbers returned are in the proportions of the Poisson distribution, up to a factor of `1 ± 1.2e-10`: no number is preferred, and the constants of the
method have no influence on the law. -/
theorem c129_proportion (hm : 10 ≤ μ) {k l : Nat} (hk : k < 2 ^ (bits - 1)) (hl : l < 2 ^ (bits - 1)) :
    0 < ptrdChance bits μ l ∧
      ptrdChance bits μ k * ENNReal.ofReal (poissonPmf μ l) ≤ ptrdChance bits μ l * ENNReal.ofReal (poissonPmf μ k * Real.exp (12 / 10 ^ 11)) := by
  have hi : 0 < ptrdInvAlpha μ := by
    rw [(PtrdBox.consts hm).2.2.2]
    exact PtrdBox.IA_pos hm
  have hp : ∀ n, 0 < poissonPmf μ n := fun n => by unfold poissonPmf; have : 0 < μ := by linarith
                                                   positivity
  obtain ⟨_, h1⟩ := c129_law hm hk
  obtain ⟨h2, _⟩ := c129_law hm hl
  refine ⟨lt_of_lt_of_le (ENNReal.ofReal_pos.2 (by have := hp l; positivity)) h2, ?_⟩
  calc ptrdChance bits μ k * ENNReal.ofReal (poissonPmf μ l)
      ≤ ENNReal.ofReal (poissonPmf μ k / ptrdInvAlpha μ * Real.exp (6 / 10 ^ 11)) * ENNReal.ofReal (poissonPmf μ l) := by gcongr
    _ = ENNReal.ofReal (poissonPmf μ l / ptrdInvAlpha μ * Real.exp (-(6 / 10 ^ 11))) * ENNReal.ofReal (poissonPmf μ k * Real.exp (12 / 10 ^ 11)) := by
        have a := hp k
        have b := hp l
        rw [← ENNReal.ofReal_mul (by positivity), ← ENNReal.ofReal_mul (by positivity)]
        congr 1
        have e : Real.exp (6 / 10 ^ 11) = Real.exp (-(6 / 10 ^ 11)) * Real.exp (12 / 10 ^ 11) := by rw [← Real.exp_add]; norm_num
        rw [e]
        ring
    _ ≤ _ := by gcongr

/-- The mean and twice the mean, in `int`. -/
example : 0 < ptrdChance 32 1000 2000 ∧ ptrdChance 32 1000 1000 * ENNReal.ofReal (poissonPmf 1000 2000) ≤
    ptrdChance 32 1000 2000 * ENNReal.ofReal (poissonPmf 1000 1000 * Real.exp (12 / 10 ^ 11)) :=
  c129_proportion (by norm_num) (by norm_num) (by norm_num)

end

end Boost.Random
