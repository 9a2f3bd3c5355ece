import Verif.Proofs.NormalTail

/-!
# The law of the normal distribution
-/

namespace Boost.Random.Normal
open Spec Zig MeasureTheory Set
open scoped ENNReal

/-- The factor that is drawn with the layer. -/
noncomputable def sgn (b : Nat) : ℝ := if b % 2 = 1 then 1 else -1

theorem iter_ideal (u w : ℝ) (b : Fin 256) (n : Nat) (pd : Pending) (l : List (ℝ × Fin 256 × ℝ)) :
    (u * X (b / 2) < X (b / 2 + 1) → iter exactOps ideal n (pd, (u, b, w) :: l) = .done (some (u * X (b / 2) * sgn b)) (.unif w, l)) ∧
    (¬ u * X (b / 2) < X (b / 2 + 1) → (b : Nat) / 2 = 0 →
      iter exactOps ideal n (pd, (u, b, w) :: l) = (tail exactOps ideal n (.unif w, l)).bind fun v s => .done (some (v * sgn b)) s) ∧
    (¬ u * X (b / 2) < X (b / 2 + 1) → (b : Nat) / 2 ≠ 0 → acc (b / 2) (u * X (b / 2)) w →
      iter exactOps ideal n (pd, (u, b, w) :: l) = .done (some (u * X (b / 2) * sgn b)) (.none, l)) ∧
    (¬ u * X (b / 2) < X (b / 2 + 1) → (b : Nat) / 2 ≠ 0 → ¬ acc (b / 2) (u * X (b / 2)) w →
      iter exactOps ideal n (pd, (u, b, w) :: l) = .done none (.none, l)) := by
  have hi := b.isLt
  generalize hib : (b : Nat) / 2 = i
  have hi' : i < 128 := by omega
  have hfl : ∀ x : ℝ, exactOps.fl x = x := fun _ => rfl
  have h : iter exactOps ideal n (pd, (u, b, w) :: l) =
      if u * X i < X (i + 1) then .done (some (u * X i * sgn b)) (.unif w, l)
      else if i = 0 then (tail exactOps ideal n (.unif w, l)).bind fun v s => .done (some (v * sgn b)) s
      else if accept exactOps (X i) (X (i + 1)) (Y i) (Y (i + 1)) (u * X i) w then .done (some (u * X i * sgn b)) (.none, l) else .done none (.none, l) := by
    have hp : ideal.pair (pd, (u, b, w) :: l) = .done (u, (b : Nat)) (.unif w, l) := rfl
    have hu : ideal.unif (.unif w, l) = .done w (.none, l) := rfl
    simp only [iter, hp, hu, Run.bind, hib, entry_X (show i ≤ 128 by omega), entry_X (show i + 1 ≤ 128 by omega),
      entry_Y (show i ≤ 128 by omega), entry_Y (show i + 1 ≤ 128 by omega), hfl, sgn]
  rw [h]
  refine ⟨fun h1 => by rw [if_pos h1], fun h1 h2 => by rw [if_neg h1, if_pos h2], fun h1 h2 h3 => ?_, fun h1 h2 h3 => ?_⟩
  · rw [if_neg h1, if_neg h2, if_pos (show accept exactOps (X i) (X (i + 1)) (Y i) (Y (i + 1)) (u * X i) w = true from h3)]
  · rw [if_neg h1, if_neg h2, if_neg (show ¬ accept exactOps (X i) (X (i + 1)) (Y i) (Y (i + 1)) (u * X i) w = true from h3)]

section
variable (t : ℝ)

/-- The loop returns a value not above `t`. -/
def Q (n : Nat) (pd : Pending) (l : List (ℝ × Fin 256 × ℝ)) : Prop := Run.Le (unit exactOps ideal n (pd, l)) t

theorem Q_pending (n : Nat) (pd pd' : Pending) (l : List (ℝ × Fin 256 × ℝ)) : Q t n pd l ↔ Q t n pd' l := by
  cases n with
  | zero => rfl
  | succ n =>
    have : iter exactOps ideal n (pd, l) = iter exactOps ideal n (pd', l) := by
      cases l <;> rfl
    simp only [Q, unit, this]

/-- Its probability. -/
noncomputable def P (n : Nat) : ℝ := (prob n (Q t n .none)).toReal

theorem Q_succ {n : Nat} {pd : Pending} {l : List (ℝ × Fin 256 × ℝ)} {r : Option ℝ} {pd' : Pending} {l' : List (ℝ × Fin 256 × ℝ)}
    (h : iter exactOps ideal n (pd, l) = .done r (pd', l')) : Q t (n + 1) pd l ↔ match r with | some v => v ≤ t | none => Q t n .none l' := by
  cases r with
  | some v =>
    simp only [Q, unit, h, Run.bind]
    constructor
    · rintro ⟨v', s', e, hle⟩; cases e; exact hle
    · intro hle; exact ⟨_, _, rfl, hle⟩
  | none =>
    have : Q t (n + 1) pd l ↔ Q t n pd' l' := by simp only [Q, unit, h, Run.bind]
    rw [this]
    exact Q_pending t n pd' .none l'

theorem Q_tail {n : Nat} {pd : Pending} {l l' : List (ℝ × Fin 256 × ℝ)} {w c : ℝ}
    (h : iter exactOps ideal n (pd, l) = (tail exactOps ideal n (.unif w, l')).bind fun v s => .done (some (v * c)) s) :
    Q t (n + 1) pd l ↔ TQ (fun v => v * c ≤ t) n .none l' := by
  rw [← TQ_pending _ n (pd := .unif w) (by simp)]
  simp only [Q, unit, h, TQ]
  cases tail exactOps ideal n (.unif w, l') with
  | done v s =>
    simp only [Run.bind]
    constructor
    · rintro ⟨v', s', e, hle⟩; cases e; exact ⟨_, _, rfl, hle⟩
    · rintro ⟨v', s', e, hle⟩; cases e; exact ⟨_, _, rfl, hle⟩
  | more =>
    simp only [Run.bind]
    constructor <;> rintro ⟨v', s', e, _⟩ <;> cases e
  | ub =>
    simp only [Run.bind]
    constructor <;> rintro ⟨v', s', e, _⟩ <;> cases e

/-- What is returned in layer `i` without the tail. -/
def all (i : Nat) : Set (ℝ × ℝ) := {p | Ret X acc i (p.1 * X i) p.2}

/-- What is returned and not above `t`. -/
def ret (b : Nat) : Set (ℝ × ℝ) := all (b / 2) ∩ {p | p.1 * X (b / 2) * sgn b ≤ t}

/-- What is returned by the tail and not above `t`. -/
def tailRet (b : Nat) : Set (ℝ × ℝ) := tailAcc ∩ {a | (dist a.1 + X 1) * sgn b ≤ t}

theorem measurableSet_all (i : Nat) : MeasurableSet (all i) :=
  (measurable_fst.mul_const (X i) |>.prodMk measurable_snd) (measurableSet_ret measurableSet_acc i)

theorem measurableSet_ret' (b : Nat) : MeasurableSet (ret t b) :=
  (measurableSet_all _).inter (measurableSet_le ((measurable_fst.mul_const _).mul_const _) measurable_const)

theorem all_eq {i : Nat} (hi : i < 128) : sq ∩ all i = sq ∩ retSet X acc i (X 0) := by
  ext p
  simp only [mem_inter_iff, all, retSet, Set.mem_ofPred_eq]
  refine ⟨fun h => ⟨h.1, h.2, ?_⟩, fun h => ⟨h.1, h.2.1⟩⟩
  have h1 := h.1.1
  have h2 := table.xle (Nat.zero_le i) hi.le
  have h3 := (table.xpos hi)
  nlinarith [h1.1, h1.2]

theorem layer_prob (n : Nat) (b : Fin 256) :
    (∫⁻ a in sq, prob n fun l => Q t (n + 1) .none ((a.1, b, a.2) :: l)).toReal =
      volume.real (sq ∩ ret t b) + (if (b : Nat) / 2 = 0 then T (fun v => v * sgn b ≤ t) n else P t n) * (1 - volume.real (sq ∩ all (b / 2))) := by
  have hc : (if (b : Nat) / 2 = 0 then T (fun v => v * sgn b ≤ t) n else P t n) =
      (if (b : Nat) / 2 = 0 then prob n (TQ (fun v => v * sgn b ≤ t) n .none) else prob n (Q t n .none)).toReal := by
    split <;> rfl
  rw [hc]
  refine lintegral_three (measurableSet_ret' t b) (measurableSet_all _) (fun p hp => hp.1) (by split <;> exact prob_le_one n _) ?_ ?_ ?_
  · rintro ⟨u, w⟩ _ hr
    refine prob_true n fun l => ?_
    obtain ⟨hr1 | hr1, hr2⟩ := hr
    · exact (Q_succ t ((iter_ideal u w b n .none l).1 hr1)).2 hr2
    · by_cases hlt : u * X (b / 2) < X (b / 2 + 1)
      · exact (Q_succ t ((iter_ideal u w b n .none l).1 hlt)).2 hr2
      · exact (Q_succ t ((iter_ideal u w b n .none l).2.2.1 hlt hr1.1 hr1.2)).2 hr2
  · rintro ⟨u, w⟩ _ ha hr
    refine prob_false n fun l => ?_
    have hgt : ¬ u * X (b / 2) * sgn b ≤ t := fun hc => hr ⟨ha, hc⟩
    obtain hr1 | hr1 := ha
    · exact fun h => absurd ((Q_succ t ((iter_ideal u w b n .none l).1 hr1)).1 h) hgt
    · by_cases hlt : u * X (b / 2) < X (b / 2 + 1)
      · exact fun h => absurd ((Q_succ t ((iter_ideal u w b n .none l).1 hlt)).1 h) hgt
      · exact fun h => absurd ((Q_succ t ((iter_ideal u w b n .none l).2.2.1 hlt hr1.1 hr1.2)).1 h) hgt
  · rintro ⟨u, w⟩ _ ha
    have h1 : ¬ u * X (b / 2) < X (b / 2 + 1) := fun h => ha (Or.inl h)
    by_cases h0 : (b : Nat) / 2 = 0
    · rw [if_pos h0]
      exact prob_congr fun l => Q_tail t ((iter_ideal u w b n .none l).2.1 h1 h0)
    · rw [if_neg h0]
      have h2 : ¬ acc (b / 2) (u * X (b / 2)) w := fun h => ha (Or.inr ⟨h0, h⟩)
      exact prob_congr fun l => Q_succ t ((iter_ideal u w b n .none l).2.2.2 h1 h0 h2)

theorem sum_pairs (g : Nat → ℝ) (m : Nat) : ∑ b ∈ Finset.range (2 * m), g b = ∑ i ∈ Finset.range m, (g (2 * i) + g (2 * i + 1)) := by
  induction m with
  | zero => rfl
  | succ m ih => rw [Finset.sum_range_succ, ← ih, show 2 * (m + 1) = 2 * m + 1 + 1 by ring, Finset.sum_range_succ, Finset.sum_range_succ]; ring

theorem volume_all_zero : volume.real (sq ∩ all 0) = X 1 / X 0 := by
  rw [all_eq (by norm_num), volume_ret_zero table (by norm_num) (table.xpos (by norm_num)).le, min_eq_right (table.xdec 0 (by norm_num)).le]

/-- One iteration. -/
theorem P_succ (n : Nat) : P t (n + 1) * 256 = ∑ i ∈ Finset.range 128, (volume.real (sq ∩ ret t (2 * i)) + volume.real (sq ∩ ret t (2 * i + 1))) +
    (T (fun v => v * sgn 0 ≤ t) n + T (fun v => v * sgn 1 ≤ t) n) * (1 - X 1 / X 0) +
    P t n * (2 * (127 + X 1 / X 0 - ∑ i ∈ Finset.range 128, volume.real (sq ∩ all i))) := by
  rw [P, prob_succ_toReal, div_mul_cancel₀ _ (by norm_num : (256 : ℝ) ≠ 0), Finset.sum_congr rfl fun b _ => layer_prob t n b, Finset.sum_add_distrib,
    Fin.sum_univ_eq_sum_range (fun b => volume.real (sq ∩ ret t b)) 256,
    Fin.sum_univ_eq_sum_range (fun b => (if b / 2 = 0 then T (fun v => v * sgn b ≤ t) n else P t n) * (1 - volume.real (sq ∩ all (b / 2)))) 256,
    show 256 = 2 * 128 by norm_num, sum_pairs, sum_pairs]
  rw [Finset.sum_range_succ' (fun i => (if 2 * i / 2 = 0 then T (fun v => v * sgn (2 * i) ≤ t) n else P t n) * (1 - volume.real (sq ∩ all (2 * i / 2))) +
      (if (2 * i + 1) / 2 = 0 then T (fun v => v * sgn (2 * i + 1) ≤ t) n else P t n) * (1 - volume.real (sq ∩ all ((2 * i + 1) / 2)))),
    Finset.sum_range_succ' (fun i => volume.real (sq ∩ all i))]
  have h1 : ∀ i ∈ Finset.range 127, (if 2 * (i + 1) / 2 = 0 then T (fun v => v * sgn (2 * (i + 1)) ≤ t) n else P t n) * (1 - volume.real (sq ∩ all (2 * (i + 1) / 2))) +
      (if (2 * (i + 1) + 1) / 2 = 0 then T (fun v => v * sgn (2 * (i + 1) + 1) ≤ t) n else P t n) * (1 - volume.real (sq ∩ all ((2 * (i + 1) + 1) / 2))) =
      (P t n * 2) * (1 - volume.real (sq ∩ all (i + 1))) := by
    intro i _
    rw [show 2 * (i + 1) / 2 = i + 1 by omega, show (2 * (i + 1) + 1) / 2 = i + 1 by omega, if_neg (Nat.succ_ne_zero i), if_neg (Nat.succ_ne_zero i)]
    ring
  rw [Finset.sum_congr rfl h1, ← Finset.mul_sum, Finset.sum_sub_distrib]
  simp only [mul_zero, Nat.zero_div, if_true, zero_add, show 1 / 2 = 0 from rfl, volume_all_zero]
  simp
  ring

/-! ## The two signs -/

theorem null_line (c : ℝ) {R R' : Set (ℝ × ℝ)} (h : ∀ p ∈ sq, p.1 ≠ c → (p ∈ R ↔ p ∈ R')) : volume.real (sq ∩ R) = volume.real (sq ∩ R') := by
  have hn : volume ({c} ×ˢ (univ : Set ℝ)) = 0 := by
    rw [Measure.volume_eq_prod, Measure.prod_prod]; simp
  have : (sq ∩ R : Set (ℝ × ℝ)) =ᵐ[volume] (sq ∩ R' : Set (ℝ × ℝ)) := by
    have hae : ∀ᵐ p : ℝ × ℝ, p ∉ ({c} ×ˢ (univ : Set ℝ)) := measure_eq_zero_iff_ae_notMem.1 hn
    filter_upwards [hae] with p hp
    have hp' : p.1 ≠ c := fun e => hp ⟨e, mem_univ _⟩
    apply propext
    change p ∈ sq ∩ R ↔ p ∈ sq ∩ R'
    constructor
    · exact fun hh => ⟨hh.1, (h p hh.1 hp').1 hh.2⟩
    · exact fun hh => ⟨hh.1, (h p hh.1 hp').2 hh.2⟩
  exact measureReal_congr this

theorem real_compl {S C : Set (ℝ × ℝ)} (hC : MeasurableSet C) : volume.real (sq ∩ (S ∩ Cᶜ)) = volume.real (sq ∩ S) - volume.real (sq ∩ (S ∩ C)) := by
  have h := measureReal_inter_add_sdiff (μ := volume) (s := sq ∩ S) hC ((measure_mono inter_subset_left).trans_lt (by rw [volume_sq]; simp)).ne
  rw [sdiff_eq] at h
  rw [← inter_assoc, ← inter_assoc, ← h]
  change _ = _ + volume.real (sq ∩ S ∩ Cᶜ) - _
  ring

theorem real_congr {R R' : Set (ℝ × ℝ)} (h : ∀ p ∈ sq, (p ∈ R ↔ p ∈ R')) : volume.real (sq ∩ R) = volume.real (sq ∩ R') :=
  null_line 0 fun p hp _ => h p hp

theorem sgn_even (i : Nat) : sgn (2 * i) = -1 := if_neg (by omega)
theorem sgn_odd (i : Nat) : sgn (2 * i + 1) = 1 := if_pos (by omega)

theorem pair_pos (ht : 0 ≤ t) {i : Nat} (hi : i < 128) :
    volume.real (sq ∩ ret t (2 * i)) + volume.real (sq ∩ ret t (2 * i + 1)) = volume.real (sq ∩ all i) + volume.real (sq ∩ retSet X acc i t) := by
  have hX := table.xpos hi
  rw [ret, ret, show 2 * i / 2 = i by omega, show (2 * i + 1) / 2 = i by omega, sgn_even, sgn_odd]
  congr 1
  · refine real_congr fun p hp => ⟨fun h => h.1, fun h => ⟨h, ?_⟩⟩
    have := mul_nonneg hp.1.1 hX.le
    change p.1 * X i * -1 ≤ t
    linarith
  · refine real_congr fun p _ => ?_
    change _ ∧ p.1 * X i * 1 ≤ t ↔ _ ∧ p.1 * X i ≤ t
    rw [mul_one]
    rfl

theorem pair_neg (ht : t < 0) {i : Nat} (hi : i < 128) :
    volume.real (sq ∩ ret t (2 * i)) + volume.real (sq ∩ ret t (2 * i + 1)) = volume.real (sq ∩ all i) - volume.real (sq ∩ retSet X acc i (-t)) := by
  have hX := table.xpos hi
  rw [ret, ret, show 2 * i / 2 = i by omega, show (2 * i + 1) / 2 = i by omega, sgn_even, sgn_odd]
  have h0 : sq ∩ (all i ∩ {p | p.1 * X i * 1 ≤ t}) = ∅ := by
    ext p
    simp only [mem_inter_iff, mem_empty_iff_false, iff_false, not_and]
    intro h1 _ h2
    have h3 := mul_nonneg h1.1.1 hX.le
    have h4 : p.1 * X i * 1 ≤ t := h2
    linarith
  rw [h0, measureReal_empty, add_zero]
  have hC : MeasurableSet {p : ℝ × ℝ | p.1 * X i ≤ -t} := measurableSet_le (measurable_fst.mul_const _) measurable_const
  have h2 : volume.real (sq ∩ retSet X acc i (-t)) = volume.real (sq ∩ (all i ∩ {p | p.1 * X i ≤ -t})) := real_congr fun p _ => Iff.rfl
  rw [h2, ← real_compl hC]
  refine null_line (-t / X i) fun p _ hne => ?_
  change _ ∧ p.1 * X i * -1 ≤ t ↔ _ ∧ ¬ p.1 * X i ≤ -t
  refine and_congr_right fun _ => ⟨fun h hc => hne ?_, fun h => by linarith [not_le.1 h]⟩
  rw [eq_div_iff hX.ne']
  linarith

theorem measurableSet_dist (m : ℝ) : MeasurableSet {p : ℝ × ℝ | dist p.1 ≤ m} := measurableSet_le (measurable_dist.comp measurable_fst) measurable_const

/-- The tail up to `τ`. -/
theorem volume_tail_upto (τ : ℝ) : volume.real (sq ∩ (tailAcc ∩ {p | dist p.1 ≤ τ - X 1})) = κ * (I (max τ (X 1)) - I (X 1)) := by
  rcases le_or_gt (X 1) τ with h | h
  · rw [volume_tail_le (by linarith), max_eq_left h, add_sub_cancel]
  · rw [max_eq_right h.le, sub_self, mul_zero]
    have h0 : sq ∩ (tailAcc ∩ {p : ℝ × ℝ | dist p.1 ≤ τ - X 1}) = ∅ := by
      ext p
      simp only [mem_inter_iff, mem_empty_iff_false, iff_false, not_and]
      intro h1 _ h2
      have h3 := dist_nonneg h1.1.1 h1.1.2
      have h4 : dist p.1 ≤ τ - X 1 := h2
      linarith
    rw [h0, measureReal_empty]

theorem tail_pos (ht : 0 ≤ t) : volume.real (sq ∩ tailRet t 0) + volume.real (sq ∩ tailRet t 1) = κ * (H - I (X 1)) + κ * (I (max t (X 1)) - I (X 1)) := by
  rw [← volume_tail_upto, ← volume_tail, tailRet, tailRet, show sgn 0 = -1 from sgn_even 0, show sgn 1 = 1 from sgn_odd 0]
  congr 1
  · refine real_congr fun p hp => ⟨fun h => h.1, fun h => ⟨h, ?_⟩⟩
    have := dist_nonneg hp.1.1 hp.1.2
    have := X1_pos
    change (dist p.1 + X 1) * -1 ≤ t
    linarith
  · refine real_congr fun p _ => ?_
    change _ ∧ (dist p.1 + X 1) * 1 ≤ t ↔ _ ∧ dist p.1 ≤ t - X 1
    refine and_congr_right fun _ => ?_
    constructor <;> intro h <;> linarith

theorem tail_neg (ht : t < 0) : volume.real (sq ∩ tailRet t 0) + volume.real (sq ∩ tailRet t 1) = κ * (H - I (X 1)) - κ * (I (max (-t) (X 1)) - I (X 1)) := by
  rw [← volume_tail_upto, ← volume_tail, tailRet, tailRet, show sgn 0 = -1 from sgn_even 0, show sgn 1 = 1 from sgn_odd 0]
  have h0 : sq ∩ (tailAcc ∩ {a | (dist a.1 + X 1) * 1 ≤ t}) = ∅ := by
    ext p
    simp only [mem_inter_iff, mem_empty_iff_false, iff_false, not_and]
    intro h1 _ h2
    have h3 := dist_nonneg h1.1.1 h1.1.2
    have h4 : (dist p.1 + X 1) * 1 ≤ t := h2
    have := X1_pos
    linarith
  rw [h0, measureReal_empty, add_zero, ← real_compl (measurableSet_dist _)]
  refine null_line (1 - Real.exp (-(X 1 * (-t - X 1)))) fun p hp hne => ?_
  change _ ∧ (dist p.1 + X 1) * -1 ≤ t ↔ _ ∧ ¬ dist p.1 ≤ -t - X 1
  refine and_congr_right fun _ => ⟨fun h hc => hne ?_, fun h => by linarith [not_le.1 h]⟩
  have e : dist p.1 = -t - X 1 := by linarith
  have h1 : 0 < 1 - p.1 := by linarith [hp.1.2]
  rw [← e, dist, mul_div_cancel₀ _ X1_pos.ne', neg_neg, Real.exp_log h1]
  ring

/-! ## The equation -/

/-- The integral up to `t` with its sign. -/
noncomputable def J (t : ℝ) : ℝ := if 0 ≤ t then I t else -I (-t)

/-- The distribution function. -/
noncomputable def Φ (t : ℝ) : ℝ := (H + J t) / (2 * H)

theorem I_nonneg {x : ℝ} (hx : 0 ≤ x) : 0 ≤ I x := intervalIntegral.integral_nonneg hx fun s _ => (φ_pos s).le

theorem I_le {x : ℝ} (hx : 0 ≤ x) : I x ≤ H := by
  have h := I_add_tail hx
  have : 0 ≤ ∫ s in Ioi x, φ s := setIntegral_nonneg measurableSet_Ioi fun s _ => (φ_pos s).le
  linarith

theorem Φ_bounds : 0 ≤ Φ t ∧ Φ t ≤ 1 := by
  have hH : 0 < 2 * H := by have := H_bounds.1; norm_num at this; linarith
  rw [Φ, div_nonneg_iff, div_le_one hH, J]
  split
  · rename_i h
    have := I_nonneg h
    have := I_le h
    exact ⟨Or.inl ⟨by linarith, hH.le⟩, by linarith⟩
  · rename_i h
    have := I_nonneg (show 0 ≤ -t by linarith [not_le.1 h])
    have := I_le (show 0 ≤ -t by linarith [not_le.1 h])
    exact ⟨Or.inl ⟨by linarith, hH.le⟩, by linarith⟩

theorem small : (128 : ℕ) * (1 / 10 ^ 19 + 2 * (1 / 10 ^ 19) * X 0) ≤ 11 / 10 ^ 17 := by
  rw [X_0]; norm_num

theorem sum_all : |X 0 * Y 1 * ∑ i ∈ Finset.range 128, volume.real (sq ∩ all i) - I (X 1)| ≤ 11 / 10 ^ 17 := by
  have h := total table decides measurableSet_acc (by norm_num) (table.xpos (by norm_num : 0 < 128)).le
  rw [min_eq_right (table.xdec 0 (by norm_num)).le] at h
  rw [Finset.sum_congr rfl fun i hi => by rw [all_eq (Finset.mem_range.1 hi)]]
  exact h.trans small

theorem max_min (τ : ℝ) : I (max τ (X 1)) + I (min τ (X 1)) = I τ + I (X 1) := by
  rcases le_total τ (X 1) with h | h
  · rw [max_eq_right h, min_eq_left h]; ring
  · rw [max_eq_left h, min_eq_right h]

/-- What is returned with a bound `t` on one hand without, on the other hand by the tail. -/
theorem shares : ∃ a c : ℝ, |X 0 * Y 1 * ∑ i ∈ Finset.range 128, (volume.real (sq ∩ ret t (2 * i)) + volume.real (sq ∩ ret t (2 * i + 1))) - (I (X 1) + a)| ≤ 22 / 10 ^ 17 ∧
    volume.real (sq ∩ tailRet t 0) + volume.real (sq ∩ tailRet t 1) = κ * (H - I (X 1) + c) ∧ a + c = J t ∧ |c| ≤ H - I (X 1) := by
  have hX1 := X1_pos
  have hs := abs_le.1 sum_all
  have hc : ∀ τ : ℝ, |I (max τ (X 1)) - I (X 1)| ≤ H - I (X 1) := by
    intro τ
    have h1 := I_le (le_max_of_le_right hX1.le : 0 ≤ max τ (X 1))
    have h2 : I (X 1) ≤ I (max τ (X 1)) := by
      rw [I, I]
      refine intervalIntegral.integral_mono_interval le_rfl hX1.le (le_max_right _ _) (Filter.Eventually.of_forall fun s => (φ_pos s).le) (continuous_φ.intervalIntegrable _ _)
    rw [abs_le]; constructor <;> linarith
  rcases le_or_gt 0 t with ht | ht
  · have h1 := abs_le.1 ((total table decides measurableSet_acc (by norm_num) ht).trans small)
    refine ⟨I (min t (X 1)), I (max t (X 1)) - I (X 1), ?_, ?_, ?_, hc t⟩
    · rw [Finset.sum_congr rfl fun i hi => pair_pos t ht (Finset.mem_range.1 hi), Finset.sum_add_distrib, mul_add]
      change _ ∧ _ at h1
      change (_ ≤ _ - I (min t (X 1))) ∧ (_ - I (min t (X 1)) ≤ _) at h1
      rw [abs_le]; constructor <;> linarith [hs.1, hs.2, h1.1, h1.2]
    · rw [tail_pos t ht]; ring
    · rw [J, if_pos ht]; linarith [max_min t]
  · have ht' : 0 ≤ -t := by linarith
    have h1 := abs_le.1 ((total table decides measurableSet_acc (by norm_num) ht').trans small)
    refine ⟨-I (min (-t) (X 1)), -(I (max (-t) (X 1)) - I (X 1)), ?_, ?_, ?_, by rw [abs_neg]; exact hc _⟩
    · rw [Finset.sum_congr rfl fun i hi => pair_neg t ht (Finset.mem_range.1 hi), Finset.sum_sub_distrib, mul_sub]
      change (_ ≤ _ - I (min (-t) (X 1))) ∧ (_ - I (min (-t) (X 1)) ≤ _) at h1
      rw [abs_le]; constructor <;> linarith [hs.1, hs.2, h1.1, h1.2]
    · rw [tail_neg t ht]; ring
    · rw [J, if_neg (not_le.2 ht)]; linarith [max_min (-t)]

theorem measurableSet_tail (b : Nat) : MeasurableSet {v : ℝ | v * sgn b ≤ t} := measurableSet_le (measurable_id.mul_const _) measurable_const

theorem rejected : 0 ≤ 127 + X 1 / X 0 - ∑ i ∈ Finset.range 128, volume.real (sq ∩ all i) := by
  rw [Finset.sum_range_succ' (fun i => volume.real (sq ∩ all i)), volume_all_zero]
  have h1 : ∑ i ∈ Finset.range 127, volume.real (sq ∩ all (i + 1)) ≤ ∑ _i ∈ Finset.range 127, (1 : ℝ) := by
    refine Finset.sum_le_sum fun i _ => ?_
    rw [← real_sq]
    exact measureReal_mono inter_subset_left (by rw [volume_sq]; simp)
  simp at h1
  linarith

theorem law (n : Nat) : |P t n - Φ t| ≤ 1 / 10 ^ 15 + (1 / 10) ^ n := by
  induction n with
  | zero =>
    have h0 : P t 0 = 0 := by
      rw [P, prob_false 0 fun l h => by obtain ⟨v, s', e, _⟩ := h; cases e]; rfl
    rw [h0, abs_le]
    have := Φ_bounds t
    constructor <;> norm_num <;> linarith
  | succ n ih =>
    obtain ⟨a, c, h1, h2, h3, h4⟩ := shares t
    have h5 := P_succ t n
    have hq := tail_prob
    rw [T_eq (measurableSet_tail t 0), T_eq (measurableSet_tail t 1), ← add_mul, ← add_div] at h5
    change P t (n + 1) * 256 = _ + (volume.real (sq ∩ tailRet t 0) + volume.real (sq ∩ tailRet t 1)) / _ * _ * _ + _ at h5
    have hqv := volume_tail
    rw [h2, hqv, mul_div_mul_left _ _ κ_pos.ne'] at h5
    have h6 := tail_area
    have h7 := sum_all
    have h8 := rejected
    have hΦ := Φ_bounds t
    have hΦe : 2 * H * Φ t = H + J t := by
      rw [Φ]; have : H ≠ 0 := by have := H_bounds.1; norm_num at this; linarith
      field_simp
    have hA : 0.0099125 < X 0 * Y 1 ∧ X 0 * Y 1 < 0.0099126 := by rw [X_0, Y_1]; norm_num
    have hX0 : X 0 ≠ 0 := (table.xpos (by norm_num : 0 < 128)).ne'
    have hAh : X 0 * Y 1 * (1 - X 1 / X 0) = (X 0 - X 1) * Y 1 := by field_simp
    have hHb := H_bounds
    have hb : (X 0 - X 1) * Y 1 < 0.00073 := by rw [X_0, X_1, Y_1]; norm_num
    have hb' : 0.0007 < (X 0 - X 1) * Y 1 := by rw [X_0, X_1, Y_1]; norm_num
    rw [hqv] at hq
    generalize (X 0 - X 1) * Y 1 = g at *
    generalize ∑ i ∈ Finset.range 128, (volume.real (sq ∩ ret t (2 * i)) + volume.real (sq ∩ ret t (2 * i + 1))) = S at *
    generalize ∑ i ∈ Finset.range 128, volume.real (sq ∩ all i) = B at *
    generalize X 1 / X 0 = ρ at *
    generalize X 0 * Y 1 = A at *
    have hd : 0 ≤ (1 - κ * (H - I (X 1))) ^ n ∧ (1 - κ * (H - I (X 1))) ^ n ≤ (1 / 10 : ℝ) ^ n :=
      ⟨pow_nonneg (by linarith [hq.2]) n, pow_le_pow_left₀ (by linarith [hq.2]) (by have := hq.1; norm_num at this ⊢; linarith) n⟩
    have hh : 0 < H - I (X 1) := by
      have := (abs_le.1 h6).2
      norm_num at this hb' ⊢; linarith
    have hr : ∃ r, (H - I (X 1) + c) / (H - I (X 1)) = r ∧ 0 ≤ r ∧ r ≤ 2 ∧ r * (H - I (X 1)) = H - I (X 1) + c := by
      have h4' := abs_le.1 h4
      refine ⟨_, rfl, div_nonneg (by linarith) hh.le, (div_le_iff₀ hh).2 (by linarith), div_mul_cancel₀ _ hh.ne'⟩
    obtain ⟨r, hr, hr0, hr2, hre⟩ := hr
    rw [hr] at h5
    have hpow : ((1 : ℝ) / 10) ^ (n + 1) = (1 / 10) ^ n / 10 := by rw [pow_succ]; ring
    have hk : (0 : ℝ) ≤ (1 / 10) ^ n := by positivity
    rw [hpow]
    generalize ((1 : ℝ) / 10) ^ n = k at *
    generalize (1 - κ * (H - I (X 1))) ^ n = d at *
    generalize P t (n + 1) = p' at *
    generalize P t n = p at *
    generalize Φ t = f at *
    generalize J t = j at *
    generalize H = H at *
    generalize I (X 1) = i1 at *
    obtain ⟨e1, he1⟩ : ∃ e, e = A * S - (i1 + a) := ⟨_, rfl⟩
    obtain ⟨e2, he2⟩ : ∃ e, e = g - (H - i1) := ⟨_, rfl⟩
    obtain ⟨e3, he3⟩ : ∃ e, e = A * B - i1 := ⟨_, rfl⟩
    rw [← he1] at h1
    rw [← he2] at h6
    rw [← he3] at h7
    have key : 256 * A * (p' - f) = e1 + r * e2 - r * d * g - 2 * (e2 + e3) * f + 2 * (128 * A - H - e2 - e3) * (p - f) := by
      have w1 : A * (127 + ρ - B) = 128 * A - H - e2 - e3 := by rw [he2, he3, ← hAh]; ring
      linear_combination A * h5 + hre + h3 - hΦe + he1 * (-1) + (r * (1 - d)) * hAh + 2 * (p) * w1 - r * he2
    have hw : 0 ≤ 2 * (128 * A - H - e2 - e3) := by
      have w1 : A * (127 + ρ - B) = 128 * A - H - e2 - e3 := by rw [he2, he3, ← hAh]; ring
      rw [← w1]
      exact mul_nonneg (by norm_num) (mul_nonneg (by linarith) h8)
    have hw' : 2 * (128 * A - H - e2 - e3) ≤ 0.0323 := by
      have := (abs_le.1 h6).1
      have := (abs_le.1 h7).1
      norm_num at *
      linarith
    generalize 2 * (128 * A - H - e2 - e3) = W at *
    have b1 : |r * e2| ≤ 4 / 10 ^ 19 := by
      rw [abs_mul, abs_of_nonneg hr0]
      calc r * |e2| ≤ 2 * (2 / 10 ^ 19) := mul_le_mul hr2 h6 (abs_nonneg _) (by norm_num)
        _ = 4 / 10 ^ 19 := by norm_num
    have b2 : |r * d * g| ≤ 0.00146 * k := by
      have hg0 : 0 ≤ g := by norm_num at hb'; linarith
      rw [abs_of_nonneg (mul_nonneg (mul_nonneg hr0 hd.1) hg0)]
      calc r * d * g ≤ 2 * k * 0.00073 := mul_le_mul (mul_le_mul hr2 hd.2 hd.1 (by norm_num)) hb.le hg0 (by positivity)
        _ = 0.00146 * k := by ring
    have b3 : |2 * (e2 + e3) * f| ≤ 23 / 10 ^ 17 := by
      rw [abs_mul, abs_of_nonneg hΦ.1, abs_mul]
      have : |e2 + e3| ≤ 2 / 10 ^ 19 + 11 / 10 ^ 17 := (abs_add_le _ _).trans (add_le_add h6 h7)
      calc |2| * |e2 + e3| * f ≤ |2| * (2 / 10 ^ 19 + 11 / 10 ^ 17) * 1 := mul_le_mul (mul_le_mul_of_nonneg_left this (abs_nonneg _)) hΦ.2 hΦ.1 (by positivity)
        _ ≤ 23 / 10 ^ 17 := by rw [abs_of_pos (by norm_num : (0 : ℝ) < 2)]; norm_num
    have b4 : |W * (p - f)| ≤ 0.0323 * (1 / 10 ^ 15 + k) := by
      rw [abs_mul, abs_of_nonneg hw]
      exact mul_le_mul hw' ih (abs_nonneg _) (by norm_num)
    have b5 : |256 * A * (p' - f)| ≤ 22 / 10 ^ 17 + 4 / 10 ^ 19 + 0.00146 * k + 23 / 10 ^ 17 + 0.0323 * (1 / 10 ^ 15 + k) := by
      rw [key, abs_le]
      have a1 := abs_le.1 h1
      have a2 := abs_le.1 b1
      have a3 := abs_le.1 b2
      have a4 := abs_le.1 b3
      have a5 := abs_le.1 b4
      constructor <;> linarith [a1.1, a1.2, a2.1, a2.2, a3.1, a3.2, a4.1, a4.2, a5.1, a5.2]
    rw [abs_mul, abs_of_pos (by norm_num at hA ⊢; linarith : (0 : ℝ) < 256 * A)] at b5
    have b6 : 2.5 * |p' - f| ≤ 256 * A * |p' - f| := mul_le_mul_of_nonneg_right (by norm_num at hA ⊢; linarith) (abs_nonneg _)
    generalize |p' - f| = z at *
    have b7 := b6.trans b5
    norm_num at b7 ⊢
    linarith

end
end Boost.Random.Normal
