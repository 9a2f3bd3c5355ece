import Verif.Proofs.WholePeriod
import Verif.Props.Expected
import Verif.Props.ExpectedDiscrete
import Verif.Props.MtPeriod
import Verif.Props.Cycles
import Verif.Props.ShuffleCycle

/-!
# C155: the distributions over the whole period of a Mersenne Twister
-/

namespace Boost.Random
open Spec Finset Discrete

variable {P : Mt.Params}

theorem mtInfo_ok (hv : MtValid P) : EngOK (mtInfo P) := by
  have h1 := hv.m_lt; have h2 := hv.m_two
  have hw : 1 ≤ P.w := by have := hv.r_lt; omega
  have hp : 2 ≤ 2 ^ P.w := by
    calc 2 = 2 ^ 1 := rfl
      _ ≤ 2 ^ P.w := Nat.pow_le_pow_right (by decide) hw
  refine ⟨hw, ?_, ?_, ?_⟩
  · simp only [mtInfo, Mt.minv, InTy]; norm_num
  · simp only [mtInfo, Mt.maxv, InTy]; norm_num; exact_mod_cast Nat.one_le_two_pow
  · simp only [mtInfo, Mt.maxv, Mt.minv]; omega

theorem mtInfo_values (P : Mt.Params) : engValues (mtInfo P) = 2 ^ P.w := by
  have := Nat.two_pow_pos P.w
  simp only [engValues, mtInfo, Mt.maxv, Mt.minv]; omega

theorem mtInfo_b (P : Mt.Params) : 2 ^ P.w = (mtInfo P).b := (mtInfo_values P).symm

theorem window_get {out : Nat → Nat} {k t : Nat} {V : List Int} (hl : V.length = k) :
    window out k t = V ↔ ∀ j : Fin k, (out (t + j) : Int) = V.getD j 0 := by
  constructor
  · intro h j
    rw [← h]
    simp [window]
  · subst hl
    intro h
    apply List.ext_getElem (by simp [window])
    intro i h1 h2
    have := h ⟨i, h2⟩
    simp only [List.getD_eq_getElem?_getD, List.getElem?_eq_getElem h2, Option.getD_some] at this
    simp [window, this]

theorem mt_sum (hP : MtTypedef P) (st : BlockEng Nat) (h : MtLive P st) (hd : ¬ MtDegenerate P st) :
    ∃ out, Returns (Mt.next P) st out ∧ (∀ m t, Outputs (mtInfo P) (window out m t)) ∧
      ∀ k < P.n, ∀ g : List Int → ℚ, (∑ t ∈ range (mtPeriod P), g (window out k t)) + g (List.replicate k 0) = 2 ^ (P.w * P.n - P.r) * idealMean (mtInfo P) g k := by
  have hv := mt_typedef_valid hP
  obtain ⟨out, hr, hc⟩ := c136_equidistributed hP st h hd
  have hn := hv.m_lt
  have hrw := hv.r_lt
  have hb : ∀ t, out t < 2 ^ P.w := by
    obtain ⟨W, _, hW, _, hr', _⟩ := mt_words hv st h
    rw [Returns.unique hr hr']
    exact fun t => Mt.temper_lt hv (hW t)
  have hO : ∀ m t, Outputs (mtInfo P) (window out m t) := by
    intro m t x hx
    obtain ⟨j, _, rfl⟩ := List.mem_map.1 hx
    have := hb (t + j)
    simp only [mtInfo, Mt.minv, Mt.maxv]
    omega
  refine ⟨out, hr, hO, fun k hk g => ?_⟩
  have hle := (mtInfo_ok hv).lt.le
  obtain ⟨m, hm⟩ : ∃ m, k + m = P.n - 1 := ⟨P.n - 1 - k, by omega⟩
  have hz : List.replicate (P.n - 1) (0 : Int) ∈ tuples (mtInfo P) (P.n - 1) := by
    rw [mem_tuples_iff hle]
    refine ⟨by simp, fun x hx => ?_⟩
    rw [List.eq_of_mem_replicate hx]
    simp only [mtInfo, Mt.minv, Mt.maxv]
    omega
  have key := sum_windows hle out (mtPeriod P) (P.n - 1) (2 ^ (P.w - P.r)) _ hz (hO _) (fun V hV => by
    obtain ⟨hl, hV⟩ := (mem_tuples_iff hle _ _).1 hV
    have hV' : ∀ j : Fin (P.n - 1), 0 ≤ V.getD j 0 ∧ V.getD j 0 < 2 ^ P.w := by
      intro j
      have hj : (j : Nat) < V.length := by rw [hl]; exact j.2
      have h1 := hV _ (List.getElem_mem hj)
      have h2 := Nat.two_pow_pos P.w
      simp only [List.getD_eq_getElem?_getD, List.getElem?_eq_getElem hj, Option.getD_some]
      simp only [mtInfo, Mt.minv, Mt.maxv] at h1
      zify at h2
      push_cast [Nat.one_le_two_pow] at h1
      omega
    rw [← hc (fun j => (V.getD j 0).toNat) (fun j => by have := hV' j; zify; omega)]
    congr 1
    · congr 1
      refine filter_congr fun t _ => (window_get hl).trans (forall_congr' fun j => ?_)
      have := hV' j
      omega
    · refine if_congr ⟨fun h => ?_, fun h => ?_⟩ rfl rfl
      · subst h
        intro j
        simp
      · apply List.ext_getElem (by simp [hl])
        intro i h1 h2
        have h3 := h ⟨i, hl ▸ h1⟩
        have h4 := hV' ⟨i, hl ▸ h1⟩
        simp only [List.getD_eq_getElem?_getD, List.getElem?_eq_getElem h1, Option.getD_some] at h3 h4
        rw [List.getElem_replicate]
        omega) (fun xs => g (xs.take k))
  have e1 : ∀ t, (window out (P.n - 1) t).take k = window out k t := fun t => by rw [← hm, window_take]
  have e2 : (List.replicate (P.n - 1) (0 : Int)).take k = List.replicate k 0 := by
    rw [List.take_replicate, Nat.min_eq_left (by omega)]
  simp only [e1, e2] at key
  rw [key, idealMean_eq, ← avg_take hle g k m, hm, ← avg_eq, ← mtInfo_b]
  have hpow : (2 : ℚ) ^ (P.w * P.n - P.r) = 2 ^ (P.w - P.r) * (2 ^ P.w) ^ (P.n - 1) := by
    rw [← pow_mul, ← pow_add]
    congr 1
    obtain ⟨n', hn'⟩ : ∃ n', P.n = n' + 1 := ⟨P.n - 1, by omega⟩
    rw [hn', Nat.add_sub_cancel, Nat.mul_add]
    omega
  rw [hpow, ← mul_div_assoc, mul_assoc, mul_comm (((2 : ℚ) ^ P.w) ^ (P.n - 1)), ← mul_assoc, mul_div_assoc]
  push_cast
  rw [div_self (by positivity), mul_one]

theorem mtPeriod_pos (hP : MtTypedef P) : 0 < mtPeriod P := by
  have hv := mt_typedef_valid hP
  have h1 := hv.m_lt; have h2 := hv.m_two; have h3 := hv.r_lt
  have : 1 ≤ P.w * P.n - P.r := by
    have : P.w * 2 ≤ P.w * P.n := Nat.mul_le_mul_left _ (by omega)
    omega
  have h4 : 2 ^ 1 ≤ 2 ^ (P.w * P.n - P.r) := Nat.pow_le_pow_right (by decide) this
  unfold mtPeriod
  omega

theorem countP_sum {β : Type} (p : β → Bool) (l : List β) : (l.countP p : ℚ) = (l.map fun x => if p x then (1 : ℚ) else 0).sum := by
  induction l with
  | nil => rfl
  | cons x l ih =>
    rw [List.countP_cons, List.map_cons, List.sum_cons, ← ih]
    push_cast
    split <;> simp [add_comm]

theorem mtPeriod_succ (P : Mt.Params) : (2 : ℚ) ^ (P.w * P.n - P.r) = mtPeriod P + 1 := by
  have : 2 ^ (P.w * P.n - P.r) = mtPeriod P + 1 := by unfold mtPeriod; have := Nat.two_pow_pos (P.w * P.n - P.r); omega
  exact_mod_cast this

/-- C155: over the whole period of a Mersenne Twister, started in any state but the degenerate ones, the mean of any quantity that depends on
fewer than `n` successive values is that with an ideal engine, up to the missing list of zeros: it differs by a part of `1 / period`. -/
theorem c155_mean (hP : MtTypedef P) (st : BlockEng Nat) (h : MtLive P st) (hd : ¬ MtDegenerate P st) :
    ∃ out, Returns (Mt.next P) st out ∧ ∀ k < P.n, ∀ g : List Int → ℚ,
      periodMean out (mtPeriod P) g k = idealMean (mtInfo P) g k + (idealMean (mtInfo P) g k - g (List.replicate k 0)) / mtPeriod P := by
  obtain ⟨out, hr, -, hs⟩ := mt_sum hP st h hd
  refine ⟨out, hr, fun k hk g => ?_⟩
  have hN : (0 : ℚ) < mtPeriod P := by exact_mod_cast mtPeriod_pos hP
  have h1 := hs k hk g
  unfold periodMean
  rw [list_sum_range_finset, eq_sub_of_add_eq h1, mtPeriod_succ]
  field_simp
  ring

/-- The default state of `mt19937` meets the hypotheses; `k` may be up to 623. -/
example : ∃ st, Mt.seed mt19937 5489 = some st ∧ MtLive mt19937 st ∧ ¬ MtDegenerate mt19937 st :=
  let ⟨st, a, b, _, c⟩ := mt_seed_live mt19937_valid 5489
  ⟨st, a, b, c⟩
example : (623 : Nat) < mt19937.n := by decide

theorem mt_times {α : Type} [DecidableEq α] (hP : MtTypedef P) (st : BlockEng Nat) (h : MtLive P st) (hd : ¬ MtDegenerate P st) :
    ∃ out, Returns (Mt.next P) st out ∧ (∀ m t, Outputs (mtInfo P) (window out m t)) ∧ ∀ k < P.n, ∀ (q : List Int → Draw α) (v : α),
      (timesReturned out (mtPeriod P) q k v : ℚ) + (if returns v (q (List.replicate k 0)) then 1 else 0) = (mtPeriod P + 1) * returned (mtInfo P) q k v := by
  obtain ⟨out, hr, hO, hs⟩ := mt_sum hP st h hd
  refine ⟨out, hr, hO, fun k hk q v => ?_⟩
  have h1 := hs k hk fun xs => if returns v (q xs) then 1 else 0
  rw [mtPeriod_succ] at h1
  unfold timesReturned
  rw [countP_sum, list_sum_range_finset, h1]
  congr 1
  unfold idealMean returned
  rw [countP_sum]

/-- C155: a call that may use fewer than `n` engine values returns `v` from a part of the positions of the period that is the probability of `v` with an
ideal engine, up to `1 / period`. -/
theorem c155_law {α : Type} [DecidableEq α] (hP : MtTypedef P) (st : BlockEng Nat) (h : MtLive P st) (hd : ¬ MtDegenerate P st) :
    ∃ out, Returns (Mt.next P) st out ∧ ∀ k < P.n, ∀ (q : List Int → Draw α) (v : α),
      |(timesReturned out (mtPeriod P) q k v : ℚ) / mtPeriod P - returned (mtInfo P) q k v| ≤ 1 / mtPeriod P := by
  obtain ⟨out, hr, -, hs⟩ := mt_times (α := α) hP st h hd
  refine ⟨out, hr, fun k hk q v => ?_⟩
  have hN : (0 : ℚ) < mtPeriod P := by exact_mod_cast mtPeriod_pos hP
  have h1 := hs k hk q v
  have hle := (mtInfo_ok (mt_typedef_valid hP)).lt.le
  have h2 : 0 ≤ returned (mtInfo P) q k v ∧ returned (mtInfo P) q k v ≤ 1 := by
    rw [returned_eq]
    constructor
    · rw [← avg_const (mtInfo P) 0 k]
      exact avg_mono _ hle k fun xs _ _ => by split <;> norm_num
    · rw [← avg_const (mtInfo P) 1 k]
      exact avg_mono _ hle k fun xs _ _ => by split <;> norm_num
  have h3 : (timesReturned out (mtPeriod P) q k v : ℚ) / mtPeriod P - returned (mtInfo P) q k v =
      (returned (mtInfo P) q k v - (if returns v (q (List.replicate k 0)) then 1 else 0)) / mtPeriod P := by
    rw [eq_sub_of_add_eq h1]
    field_simp
    ring
  rw [h3, abs_div, abs_of_pos hN]
  apply div_le_div_of_nonneg_right _ hN.le
  rw [abs_le]
  split <;> constructor <;> linarith

/-- C155: over the whole period `uniform_int_distribution` returns each number of the range equally often, up to one. -/
theorem c155_uniform_int (hP : MtTypedef P) (st : BlockEng Nat) (h : MtLive P st) (hd : ¬ MtDegenerate P st) (T : IntTy) (hT : T.bits ≤ 64) :
    ∃ out, Returns (Mt.next P) st out ∧ ∀ k < P.n, ∀ mn mx : Int, ParamOK T mn mx → ∃ c : Nat, ∀ v, mn ≤ v ∧ v ≤ mx →
      timesReturned out (mtPeriod P) (UniformInt.generate (mtInfo P) T mn mx) k v ≤ c ∧
      c ≤ timesReturned out (mtPeriod P) (UniformInt.generate (mtInfo P) T mn mx) k v + 1 := by
  obtain ⟨out, hr, -, hs⟩ := mt_times (α := Int) hP st h hd
  have hE := mtInfo_ok (mt_typedef_valid hP)
  refine ⟨out, hr, fun k hk mn mx hp => ?_⟩
  have hg : ¬ ExactPower (mtInfo P) mn mx ∨ mn = 0 ∨ FullRange T mn mx := by
    by_cases hx : ExactPower (mtInfo P) mn mx
    · right; right
      obtain ⟨j, hj, e⟩ := hx
      have hw : 32 ≤ P.w := by rcases hP with rfl | rfl | rfl <;> decide
      have e2 : (mtInfo P).max - (mtInfo P).min + 1 = ((2 ^ P.w : Nat) : Int) := by
        have := Nat.two_pow_pos P.w
        simp only [mtInfo, Mt.maxv, Mt.minv]; omega
      rw [e2] at e
      have h1 : (2 ^ 64 : Nat) ≤ (2 ^ P.w) ^ j := by
        rw [← pow_mul]
        exact Nat.pow_le_pow_right (by decide) (Nat.mul_le_mul hw hj)
      have h2 : mx - mn + 1 ≤ 2 ^ T.bits := by
        have := inTy_diff hp.bits hp.min_ty hp.max_ty
        omega
      have h3 : (2 : Int) ^ T.bits ≤ 2 ^ 64 := by exact_mod_cast Nat.pow_le_pow_right (by decide) hT
      have h4 : ((2 ^ 64 : Nat) : Int) ≤ mx - mn + 1 := by rw [e]; exact_mod_cast h1
      push_cast at h4
      exact le_antisymm h2 (h3.trans h4)
    · exact Or.inl hx
  have heq : ∀ v, mn ≤ v ∧ v ≤ mx → returned (mtInfo P) (UniformInt.generate (mtInfo P) T mn mx) k v = returned (mtInfo P) (UniformInt.generate (mtInfo P) T mn mx) k mn := by
    intro v hv
    rw [returned_eq, returned_eq, rho_eq_sum _ hE.lt.le k _ (UniformInt.generate_local hE hp), rho_eq_sum _ hE.lt.le k _ (UniformInt.generate_local hE hp)]
    apply sum_congr rfl
    intro j _
    rw [← count_eq_cnt, ← count_eq_cnt, c39_uniform_partial _ hE T mn mx hp hg j v mn hv ⟨le_rfl, hp.le⟩]
  have h0 := hs k hk (UniformInt.generate (mtInfo P) T mn mx) mn
  refine ⟨timesReturned out (mtPeriod P) (UniformInt.generate (mtInfo P) T mn mx) k mn + (if returns mn (UniformInt.generate (mtInfo P) T mn mx (List.replicate k 0)) then 1 else 0),
    fun v hv => ?_⟩
  have h1 := hs k hk (UniformInt.generate (mtInfo P) T mn mx) v
  rw [heq v hv, ← h0] at h1
  have h2 : timesReturned out (mtPeriod P) (UniformInt.generate (mtInfo P) T mn mx) k v + (if returns v (UniformInt.generate (mtInfo P) T mn mx (List.replicate k 0)) then 1 else 0) =
      timesReturned out (mtPeriod P) (UniformInt.generate (mtInfo P) T mn mx) k mn + (if returns mn (UniformInt.generate (mtInfo P) T mn mx (List.replicate k 0)) then 1 else 0) := by
    exact_mod_cast h1
  rw [← h2]
  constructor
  · omega
  · split <;> omega

example : ParamOK ⟨32, true⟩ (-3) 6 := ⟨by decide, by decide, by decide, by decide⟩

/-- C155: over the whole period `discrete_distribution` returns the numbers in the proportion of their weights, up to one. -/
theorem c155_discrete (hP : MtTypedef P) (st : BlockEng Nat) (h : MtLive P st) (hd : ¬ MtDegenerate P st) (WT T : IntTy) (hWb : 1 ≤ WT.bits)
    (hTb : 1 ≤ T.bits) (old : IntAlias) (ws : List Nat) (hT : ws.length ≤ T.maxv) (hW : ∀ x ∈ ws, x ≤ WT.maxv) (hs : 0 < ws.sum) :
    ∃ out d, Returns (Mt.next P) st out ∧ IntAlias.init WT T old ws = some d ∧ ∀ k < P.n, ∃ c : ℚ, ∀ v,
      timesReturned out (mtPeriod P) (IntAlias.next (mtInfo P) WT T d) k v ≤ c * weightOf ws v ∧
      c * weightOf ws v ≤ timesReturned out (mtPeriod P) (IntAlias.next (mtInfo P) WT T d) k v + 1 := by
  obtain ⟨out, hr, -, ht⟩ := mt_times (α := Nat) hP st h hd
  have hE := mtInfo_ok (mt_typedef_valid hP)
  have hne : ws ≠ [] := by rintro rfl; simp at hs
  obtain ⟨d, h1, H, _⟩ := Discrete.init_spec WT T old ws hne hT hW
  refine ⟨out, d, hr, h1, fun k hk => ?_⟩
  have hloc := Discrete.next_local hE hWb hTb H hT hs
  refine ⟨(mtPeriod P + 1) * ∑ j ∈ range (k + 1), (Discrete.hits (mtInfo P) d (j + 1) j : ℚ) / ((mtInfo P).b : ℚ) ^ j, fun v => ?_⟩
  have h2 := ht k hk (IntAlias.next (mtInfo P) WT T d) v
  have h3 : returned (mtInfo P) (IntAlias.next (mtInfo P) WT T d) k v =
      (∑ j ∈ range (k + 1), (Discrete.hits (mtInfo P) d (j + 1) j : ℚ) / ((mtInfo P).b : ℚ) ^ j) * weightOf ws v := by
    rw [returned_eq, rho_eq_sum _ hE.lt.le k _ hloc, sum_mul]
    apply sum_congr rfl
    intro j _
    rw [← count_eq_cnt, Discrete.count_next hE hWb hTb H hT]
    push_cast
    ring
  rw [h3, ← mul_assoc] at h2
  rw [← h2]
  constructor
  · split <;> simp
  · split <;> simp

example : ([3, 0, 1] : List Nat).length ≤ IntTy.maxv ⟨32, true⟩ ∧ 0 < ([3, 0, 1] : List Nat).sum := by decide

/-- C155: over the whole period calls of a distribution use as many engine values on average as with an ideal engine, up to a part of `1 / period`. -/
theorem c155_used {α : Type} (hP : MtTypedef P) (st : BlockEng Nat) (h : MtLive P st) (hd : ¬ MtDegenerate P st) :
    ∃ out, Returns (Mt.next P) st out ∧ ∀ k < P.n, ∀ q : List Int → Draw α,
      periodMean out (mtPeriod P) (fun xs => usedOf q xs) k ≤ meanUsed (mtInfo P) q k * (1 + 1 / mtPeriod P) := by
  obtain ⟨out, hr, hs⟩ := c155_mean hP st h hd
  refine ⟨out, hr, fun k hk q => ?_⟩
  have hN : (0 : ℚ) < mtPeriod P := by exact_mod_cast mtPeriod_pos hP
  have h1 : meanUsed (mtInfo P) q k = idealMean (mtInfo P) (fun xs => usedOf q xs) k := by rw [meanUsed_eq, idealMean_eq]; rfl
  rw [hs k hk, h1, mul_add, mul_one, mul_one_div]
  gcongr
  simp

/-- With `mt19937` a call of `uniform_int_distribution` for a range of at most 2^32 numbers uses on average at most 2 values. -/
example (st : BlockEng Nat) (h : MtLive mt19937 st) (hd : ¬ MtDegenerate mt19937 st) : ∃ out, Returns (Mt.next mt19937) st out ∧
    periodMean out (mtPeriod mt19937) (fun xs => usedOf (UniformInt.generate (mtInfo mt19937) ⟨32, true⟩ 1 6) xs) 623 ≤ 2 * (1 + 1 / mtPeriod mt19937) := by
  obtain ⟨out, hr, hs⟩ := c155_used (α := Int) (Or.inr (Or.inl rfl)) st h hd
  refine ⟨out, hr, le_trans (hs 623 (by decide) _) ?_⟩
  have h1 := c152_small (mtInfo mt19937) (mtInfo_ok mt19937_valid) ⟨32, true⟩ 1 6 ⟨by decide, by decide, by decide, by decide⟩ (by decide) 623
  generalize mtPeriod mt19937 = N
  exact mul_le_mul_of_nonneg_right h1 (by positivity)

/-! ### Engines with one value per state -/

/-- C155: if every state of an engine whose states are its values is reached from every other, then over a whole period each value is read exactly once, so that
any quantity that depends on one engine value has exactly the mean of an ideal engine. -/
theorem c155_single {next : Nat → Option Nat} {m : Nat} (hm : 0 < m) (T : IntTy) (hf : ∀ x < m, ∃ y < m, next x = some y)
    (hr : ∀ x v, x < m → v < m → ∃! n, n < m ∧ calls next n x = some v) (x : Nat) (hx : x < m) :
    ∃ out, Returns (fun x => (next x).map fun y => (y, y)) x out ∧ ∀ g : List Int → ℚ,
      periodMean out m g 1 = idealMean ⟨T, 0, (m - 1 : Nat)⟩ g 1 := by
  have hn : ∀ x, x < m → next x = some ((next x).getD 0) ∧ (next x).getD 0 < m := fun x hx => by
    obtain ⟨y, hy, e⟩ := hf x hx
    rw [e]
    exact ⟨rfl, hy⟩
  have hc : ∀ n x, x < m → calls next n x = some ((fun x => (next x).getD 0)^[n] x) ∧ (fun x => (next x).getD 0)^[n] x < m := fun n => by
    induction n with
    | zero => exact fun x hx => ⟨rfl, hx⟩
    | succ n ih =>
      intro x hx
      rw [calls, (hn x hx).1, Option.bind_some]
      exact ih _ (hn x hx).2
  refine ⟨_, returns_of_step (S := (· < m)) (fun x hx => (hn x hx).2) (fun x hx => (hn x hx).1) x hx, fun g => ?_⟩
  have hle : (⟨T, 0, (m - 1 : Nat)⟩ : EngInfo).min ≤ (⟨T, 0, (m - 1 : Nat)⟩ : EngInfo).max := by simp
  have hO : ∀ t, Outputs ⟨T, 0, (m - 1 : Nat)⟩ (window (fun n => (fun x => (next x).getD 0)^[n + 1] x) 1 t) := by
    intro t y hy
    simp only [window, List.range_one, List.map_cons, List.map_nil, List.mem_singleton] at hy
    subst hy
    have := (hc (t + 0 + 1) x hx).2
    simp only
    omega
  have key := sum_windows_all hle _ m 1 1 hO (fun V hV => by
    obtain ⟨hl, hV⟩ := (mem_tuples_iff hle _ _).1 hV
    obtain ⟨v, rfl⟩ := List.length_eq_one_iff.1 hl
    have hv := hV v (by simp)
    simp only at hv
    obtain ⟨n, ⟨h1, h2⟩, h3⟩ := hr _ v.toNat (hn x hx).2 (by omega)
    rw [card_eq_one]
    refine ⟨n, ?_⟩
    ext t
    simp only [mem_filter, mem_range, mem_singleton, window, List.range_one, List.map_cons, List.map_nil, List.cons.injEq, and_true]
    have e : ∀ t, (((fun x => (next x).getD 0)^[t + 0 + 1] x : Nat) : Int) = v ↔ calls next t ((next x).getD 0) = some v.toNat := by
      intro t
      rw [(hc t _ (hn x hx).2).1, Option.some.injEq, Nat.add_zero, Function.iterate_succ_apply]
      omega
    rw [e]
    constructor
    · exact fun h => h3 t h
    · rintro rfl; exact ⟨h1, h2⟩) g
  unfold periodMean idealMean
  rw [list_sum_range_finset, key, Nat.cast_one, one_mul, pow_one]
  congr 2
  simp only [engValues]
  omega

/-- C155 for the congruential engines with the conditions of Hull and Dobell. -/
theorem c155_lcg (E : Lcg) (h : LcgValid E) (hd : HullDobell E.a E.c (modulus E.T E.m)) (x : Nat) (hx : x < modulus E.T E.m) :
    ∃ out, Returns (fun x => (E.next x).map fun y => (y, y)) x out ∧ ∀ g : List Int → ℚ,
      periodMean out (modulus E.T E.m) g 1 = idealMean ⟨E.T, 0, (modulus E.T E.m - 1 : Nat)⟩ g 1 := by
  have hp := ConstMod.modulus_pos E.T E.m
  exact c155_single hp E.T (fun x hx => ⟨_, Nat.mod_lt _ hp, Lcg.next_spec h x hx⟩) (fun x v hx hv => c58_full_period E h hd x v hx hv) x hx

/-- The base of `kreutzer1986`. -/
example : LcgValid kreutzerBase ∧ HullDobell kreutzerBase.a kreutzerBase.c (modulus kreutzerBase.T kreutzerBase.m) := ⟨kreutzerBase_valid, kreutzer_hullDobell⟩
#guard periodMean (fun t => (7 * t + 2) % 16) 16 (fun xs => xs.sum) 1 = 15 / 2 ∧ idealMean ⟨⟨32, false⟩, 0, 15⟩ (fun xs => xs.sum) 1 = 15 / 2

/-- C155 for `hellekalek1995`. -/
theorem c155_hellekalek (x : Nat) (hx : x < 2 ^ 31 - 1) :
    ∃ out, Returns (fun x => (hellekalek1995.next x).map fun y => (y, y)) x out ∧ ∀ g : List Int → ℚ,
      periodMean out (2 ^ 31 - 1) g 1 = idealMean ⟨hellekalek1995.T, 0, (2 ^ 31 - 1 - 1 : Nat)⟩ g 1 :=
  c155_single (by decide) _ (fun x hx => by
    obtain ⟨y, e, hy, -⟩ := c12_next_partial hellekalek1995 hellekalek_valid x hx
    exact ⟨y, hy, e⟩) (fun x v hx hv => (c141_full_period hellekalek1995 hellekalek_valid (by decide)).2 c141_hellekalek x v hx hv) x hx

/-- For instance the event that the value is 0. -/
example (x : Nat) (hx : x < 2 ^ 31 - 1) : ∃ out, Returns (fun x => (hellekalek1995.next x).map fun y => (y, y)) x out ∧
    periodMean out (2 ^ 31 - 1) (fun xs => if xs.head? = some 0 then 1 else 0) 1 = idealMean ⟨hellekalek1995.T, 0, (2 ^ 31 - 1 - 1 : Nat)⟩ (fun xs => if xs.head? = some 0 then 1 else 0) 1 := by
  obtain ⟨out, a, b⟩ := c155_hellekalek x hx
  exact ⟨out, a, b _⟩

end Boost.Random
