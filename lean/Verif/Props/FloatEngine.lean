import Verif.Proofs.FloatEngineCanonical

/-!
# C115-C121: distributions fed by an engine with floating-point results

`pb` is the precision of the results of the engine, `p` that of the results of the distribution, `eb` the number of bits of the engine, `W`
the number of bits of the unsigned type `uint_t<pb>::fast`. For `lagged_fibonacci607` … `lagged_fibonacci44497` and `ranlux64_*_01`, `pb = 53`,
`W = 64` and `eb = 48`; for `ranlux3_01` and `ranlux4_01`, `pb = 24`, `W = 32` and `eb = 24`.
-/

namespace Boost.Random
namespace FloatEngine
open Spec Finset
open RealDist (fl_zero fl_nonneg fl_fl)

/-! ## C115 -/

/-- C115, `uniform_int_float` under any rounding: no undefined conversion; the integer is the `eb` leading bits of the engine value. -/
theorem c115_convert (pb : Nat) (flb : ℚ → ℚ) (H : Rounding pb flb) (W eb : Nat) (h1 : 1 ≤ eb) (h2 : eb ≤ W) (h3 : eb ≤ pb) (x : ℚ)
    (h0 : 0 ≤ x) (hx : x < 1) (hr : Representable pb x) :
    ∃ k : Nat, next flb W eb x = some k ∧ (k : ℚ) ≤ x * 2 ^ eb ∧ x * 2 ^ eb < k + 1 ∧ k < 2 ^ eb ∧ maxInt W eb = 2 ^ eb - 1 := by
  obtain ⟨f0, f1⟩ := floor_bounds (eb := eb) h0 hx
  obtain ⟨k, hk⟩ : ∃ k : Nat, (k : Int) = ⌊x * 2 ^ eb⌋ := ⟨_, Int.toNat_of_nonneg f0⟩
  have hq : ((k : Int) : ℚ) = ((⌊x * 2 ^ eb⌋ : Int) : ℚ) := by rw [hk]
  rw [Int.cast_natCast] at hq
  refine ⟨k, ?_, ?_, ?_, ?_, maxInt_eq h1 h2⟩
  · rw [next_eq H h1 h2 h3 ⟨h0, hx, hr⟩, ← hk, Int.toNat_natCast]
  · rw [hq]; exact Int.floor_le _
  · rw [hq]; exact Int.lt_floor_add_one _
  · rw [← hk] at f1
    exact_mod_cast f1

#guard next (rn 24) 32 24 (16777215 / 16777216) = some 16777215
#guard next (rn 53) 64 48 (1 / 3 - 1 / 3 / 2 ^ 54) = some 93824992236885

/-- C115: on the values of an engine of `eb` bits, `uniform_int_distribution` does exactly what it does on an integral engine that returns
the same bits as integers. -/
theorem c115_same (pb : Nat) (flb : ℚ → ℚ) (H : Rounding pb flb) (W eb : Nat) (h1 : 1 ≤ eb) (h2 : eb ≤ W) (h3 : eb ≤ pb) (T : IntTy) (mn mx : Int)
    (ks : List Int) (hk : ∀ k ∈ ks, 0 ≤ k ∧ k < 2 ^ eb) :
    uniformInt flb W eb T mn mx (ks.map fun k : Int => (k : ℚ) / 2 ^ eb) =
      match UniformInt.generate ⟨⟨W, false⟩, 0, 2 ^ eb - 1⟩ T mn mx ks with
      | .done v rest => .done v ((ks.drop (ks.length - rest.length)).map fun k : Int => (k : ℚ) / 2 ^ eb)
      | .more => .more
      | .ub => .ub := by
  have hi : info W eb = ⟨⟨W, false⟩, 0, 2 ^ eb - 1⟩ := by
    unfold info
    rw [maxInt_eq h1 h2, Nat.cast_sub Nat.one_le_two_pow]
    push_cast
    rfl
  have hO : Outputs (info W eb) ks := by
    rw [hi]
    intro k hm
    obtain ⟨a, b⟩ := hk k hm
    exact ⟨a, show k ≤ 2 ^ eb - 1 by omega⟩
  obtain ⟨g1, g2⟩ := grid_of_outputs h1 h2 hO
  rw [uniformInt_eq H h1 h2 h3 T mn mx _ (g1.real h3), g2, hi]
  cases UniformInt.generate ⟨⟨W, false⟩, 0, 2 ^ eb - 1⟩ T mn mx ks with
  | more => rfl
  | ub => rfl
  | done v rest => simp only [List.length_map, List.map_drop]

#guard uniformInt (rn 53) 64 48 ⟨32, true⟩ 1 6 [1 / 2, 1 / 4] = .done 4 [1 / 4]

/-- C115 (partial: the same guard as C38): for every engine output the value is in `[mn, mx]`, without undefined behaviour. -/
theorem c115_range_partial (pb : Nat) (flb : ℚ → ℚ) (H : Rounding pb flb) (W eb : Nat) (h1 : 1 ≤ eb) (h2 : eb ≤ W) (h3 : eb ≤ pb) (T : IntTy)
    (mn mx : Int) (hP : ParamOK T mn mx) (hg : (∀ k, 2 ≤ k → mx - mn + 1 ≠ 2 ^ (eb * k)) ∨ mn = 0 ∨ FullRange T mn mx) (xs : List ℚ)
    (hO : RealOutputs pb xs) : RunsIn (uniformInt flb W eb T mn mx) xs fun v => mn ≤ v ∧ v ≤ mx := by
  refine uniformInt_runs H h1 h2 h3 T mn mx hP xs hO _ ?_
  refine c38_range_partial (info W eb) (info_ok h1 h2) T mn mx hP ?_ _ (convert_outputs H h1 h2 h3 xs hO)
  rcases hg with hg | hg
  · left
    rintro ⟨k, hk, he⟩
    apply hg k hk
    rw [he, pow_mul]
    congr 1
    show (maxInt W eb : Int) - 0 + 1 = _
    rw [maxInt_eq h1 h2, Nat.cast_sub Nat.one_le_two_pow]
    push_cast
    ring
  · exact Or.inr hg

/-- For types of at most 64 bits and an engine of 48 bits the guard always holds. -/
example (mn mx : Int) (h : mx - mn + 1 ≤ 2 ^ 64) : ∀ k, 2 ≤ k → mx - mn + 1 ≠ 2 ^ (48 * k) := by
  intro k hk e
  have : (2 : Int) ^ (48 * 2) ≤ 2 ^ (48 * k) := pow_le_pow_right₀ (by norm_num) (by omega)
  rw [← e] at this
  have h2 := this.trans h
  norm_num at h2

/-- C115 (partial as above): for every `n`, all values of `[mn, mx]` are returned for equally many of the `n`-tuples of engine values that are
used up exactly; for some `n` that number is not zero. -/
theorem c115_uniform_partial (pb : Nat) (flb : ℚ → ℚ) (H : Rounding pb flb) (W eb : Nat) (h1 : 1 ≤ eb) (h2 : eb ≤ W) (h3 : eb ≤ pb) (T : IntTy)
    (mn mx : Int) (hP : ParamOK T mn mx) (hg : ¬ ExactPower (info W eb) mn mx ∨ mn = 0 ∨ FullRange T mn mx) (v : Int) (hv : mn ≤ v ∧ v ≤ mx) :
    (∀ n v', mn ≤ v' ∧ v' ≤ mx → gridCount eb (uniformInt flb W eb T mn mx) n v = gridCount eb (uniformInt flb W eb T mn mx) n v') ∧
      ∃ n, 0 < gridCount eb (uniformInt flb W eb T mn mx) n v := by
  constructor
  · intro n v' hv'
    rw [uniformInt_count H h1 h2 h3 T mn mx hP, uniformInt_count H h1 h2 h3 T mn mx hP]
    exact c39_uniform_partial _ (info_ok h1 h2) T mn mx hP hg n v v' hv hv'
  · obtain ⟨n, hn⟩ := c39_attained_partial _ (info_ok h1 h2) T mn mx hP hg v hv
    exact ⟨n, by rw [uniformInt_count H h1 h2 h3 T mn mx hP]; exact hn⟩

#guard gridCount 3 (uniformInt (rn 24) 32 3 ⟨32, true⟩ (-1) 1) 1 (-1) = 2
#guard gridCount 3 (uniformInt (rn 24) 32 3 ⟨32, true⟩ (-1) 1) 2 (-1) = 4
#guard gridCount 3 (uniformInt (rn 24) 32 3 ⟨32, true⟩ (-1) 1) 2 1 = 4

/-- C115 is false: with an engine of 24 bits, `uniform_int_distribution<int64_t>(5, 5 + 2^48 - 1)` returns 0. -/
theorem c115_range_false (flb : ℚ → ℚ) (H : Rounding 24 flb) : uniformInt flb 32 24 ⟨64, true⟩ 5 (2 ^ 48 + 4) [0, 0] = .done 0 [] := by
  have h := c115_same 24 flb H 32 24 (by norm_num) (by norm_num) le_rfl ⟨64, true⟩ 5 (2 ^ 48 + 4) [0, 0] (by simp)
  have hg : UniformInt.generate ⟨⟨32, false⟩, 0, 2 ^ 24 - 1⟩ ⟨64, true⟩ 5 (2 ^ 48 + 4) [0, 0] = .done 0 [] := by decide +kernel
  rw [hg] at h
  simpa using h

example : Rounding 24 (rn 24) := Nearest.rounding (rn_nearest (by decide))

/-! ## C116 -/

/-- C116, `uniform_smallint` under rounding to nearest, for every precision of the engine and every integer type: the conversion to the unsigned
type is defined, one engine value is read, the result is in `[mn, mx]`; zero gives `mn`; larger engine values give larger results. -/
theorem c116_range (pb : Nat) (flb : ℚ → ℚ) (N : Nearest pb flb) (hpb : 1 ≤ pb) (T : IntTy) (mn mx : Int) (hP : ParamOK T mn mx) (x : ℚ)
    (h0 : 0 ≤ x) (h1 : x < 1) (hr : Representable pb x) :
    ∃ v, (∀ xs, smallint flb T mn mx (x :: xs) = .done v xs) ∧ mn ≤ v ∧ v ≤ mx ∧ (x = 0 → v = mn) ∧
      ∀ y u, x ≤ y → y < 1 → Representable pb y → smallint flb T mn mx [y] = .done u [] → v ≤ u := by
  have H := Nearest.rounding N
  have hle := hP.le
  have hs : 0 ≤ flb (flb ((mx - mn).toNat : Nat) + 1) := fl_nonneg H (add_nonneg (fl_nonneg H (by positivity)) zero_le_one)
  refine ⟨_, fun xs => smallint_eq N hpb hP ⟨h0, h1, hr⟩ xs, ?_, min_le_left _ _, ?_, ?_⟩
  · have := Int.floor_nonneg.2 (fl_nonneg H (mul_nonneg h0 hs))
    rw [le_min_iff]
    omega
  · rintro rfl
    rw [zero_mul, fl_zero H, Int.floor_zero, add_zero, min_eq_right hle]
  · intro y u hxy hy1 hyr hy
    rw [smallint_eq N hpb hP ⟨h0.trans hxy, hy1, hyr⟩ []] at hy
    simp only [Run.done.injEq, and_true] at hy
    rw [← hy]
    apply min_le_min_left
    have := Int.floor_le_floor (H.mono _ _ (mul_le_mul_of_nonneg_right hxy hs))
    omega

-- a `float` engine and the whole range of `int`: the largest engine value
#guard smallint (rn 24) ⟨32, true⟩ (-2147483648) 2147483647 [16777215 / 16777216] = .done 2147483392 []
#guard smallint (rn 24) ⟨32, true⟩ 1 6 [1 / 2, 1 / 3] = .done 4 [1 / 3]

/-- C116 fails under upward rounding: the largest `double` below 1 and the whole range of a 64-bit type make an undefined conversion. -/
theorem c116_upward_false (flb : ℚ → ℚ) (H : Rounding 53 flb) (hup : ∀ x, x ≤ flb x) :
    smallint flb ⟨64, false⟩ 0 (2 ^ 64 - 1) [1 - 1 / 2 ^ 53] = .ub := by
  have hr : Representable 53 (1 - 1 / 2 ^ 53 : ℚ) := ⟨2 ^ 53 - 1, -53, by norm_num, by norm_num⟩
  have hsub : subtractT ⟨64, false⟩ (2 ^ 64 - 1) 0 = some (2 ^ 64 - 1) := by decide +kernel
  unfold smallint
  rw [hsub]
  simp only
  rw [uniform01_exact H H (by norm_num) (by norm_num) hr hr (by norm_num)]
  simp only [Run.bind]
  have a1 : ((2 ^ 64 - 1 : Nat) : ℚ) ≤ flb ((2 ^ 64 - 1 : Nat) : ℚ) := hup _
  have a2 := hup (flb ((2 ^ 64 - 1 : Nat) : ℚ) + 1)
  have a3 : (2 : ℚ) ^ 64 ≤ flb ((2 ^ 64 - 1 : Nat) : ℚ) := by
    by_contra hc
    rw [not_le] at hc
    have hlt : ((2 ^ 64 - 1 : Nat) : ℚ) = 2 ^ 64 - 1 := by norm_num
    rw [hlt] at a1 hc
    obtain ⟨m, e, hm, hme⟩ := H.repr (2 ^ 64 - 1)
    rw [hme] at a1 hc
    rw [abs_lt] at hm
    have hm1 : (m : ℚ) ≤ 2 ^ 53 - 1 := by exact_mod_cast (by omega : m ≤ 2 ^ 53 - 1)
    rcases lt_or_ge e 12 with he | he
    · have : (2 : ℚ) ^ e ≤ 2 ^ (11 : ℤ) := zpow_le_zpow_right₀ (by norm_num) (by omega)
      have hp : (0 : ℚ) < 2 ^ e := by positivity
      have : (m : ℚ) * 2 ^ e ≤ (2 ^ 53 - 1) * 2 ^ (11 : ℤ) := by
        calc (m : ℚ) * 2 ^ e ≤ (2 ^ 53 - 1) * 2 ^ e := mul_le_mul_of_nonneg_right hm1 hp.le
          _ ≤ _ := mul_le_mul_of_nonneg_left this (by norm_num)
      norm_num at this a1
      linarith
    · obtain ⟨d, hd⟩ : ∃ d : Nat, e = 12 + d := ⟨(e - 12).toNat, by omega⟩
      rw [hd, zpow_add₀ (by norm_num), zpow_natCast] at a1 hc
      have e1 : (m : ℚ) * (2 ^ (12 : ℤ) * 2 ^ d) = ((m * 2 ^ d * 4096 : Int) : ℚ) := by push_cast; ring
      rw [e1] at a1 hc
      have b1 : (2 : Int) ^ 64 - 1 ≤ m * 2 ^ d * 4096 := by exact_mod_cast a1
      have b2 : m * 2 ^ d * 4096 < (2 : Int) ^ 64 := by exact_mod_cast hc
      omega
  have a4 : (2 : ℚ) ^ 64 + 4096 ≤ flb (flb ((2 ^ 64 - 1 : Nat) : ℚ) + 1) := by
    have hgt : (1 : ℚ) < flb (flb ((2 ^ 64 - 1 : Nat) : ℚ) + 1) / 2 ^ 64 := by
      rw [one_lt_div (by positivity)]
      linarith
    have := Representable.ge_succ_one (by norm_num) (Representable.div_two_pow (H.repr (flb ((2 ^ 64 - 1 : Nat) : ℚ) + 1)) 64) hgt
    rw [le_div_iff₀ (by positivity)] at this
    norm_num at this ⊢
    linarith
  have a5 : (2 : ℚ) ^ 64 ≤ flb ((1 - 1 / 2 ^ 53) * flb (flb ((2 ^ 64 - 1 : Nat) : ℚ) + 1)) := by
    refine le_trans ?_ (hup _)
    refine le_trans ?_ (mul_le_mul_of_nonneg_left a4 (by norm_num))
    norm_num
  unfold toUnsigned
  rw [if_neg]
  rw [not_and, not_lt]
  intro _
  exact a5

/-! ## C117 -/

/-- C117: if the numbers of bits of the range and of the engine together fit the precision, the result is `mn + ⌊x * (mx - mn + 1)⌋`, and all
values have the same number of engine values up to one. -/
theorem c117_count (pb : Nat) (flb : ℚ → ℚ) (N : Nearest pb flb) (hpb : 1 ≤ pb) (T : IntTy) (mn mx : Int) (hP : ParamOK T mn mx) (eb : Nat)
    (heb : eb ≤ pb) (hn : mx - mn + 1 ≤ 2 ^ (pb - eb)) (i : Nat) (hi : (i : Int) ≤ mx - mn) :
    let rOut := (mx - mn).toNat + 1
    let c := gridCount eb (smallint flb T mn mx) 1 (mn + i)
    c = ((List.range (2 ^ eb)).countP fun k => decide (k * rOut / 2 ^ eb = i)) ∧ (c = 2 ^ eb / rOut ∨ c = 2 ^ eb / rOut + 1) := by
  intro rOut c
  have hc : c = ((List.range (2 ^ eb)).countP fun k => decide (k * rOut / 2 ^ eb = i)) := by
    show (gridTuples eb 1).countP _ = _
    have hg : gridTuples eb 1 = (List.range (2 ^ eb)).map fun k : Nat => [(k : ℚ) / 2 ^ eb] := by
      rw [List.map_eq_flatMap]
      rfl
    rw [hg, List.countP_map]
    apply List.countP_congr
    intro k hk
    simp only [Function.comp, decide_eq_true_eq]
    rw [smallint_exact N hpb hP heb hn k (List.mem_range.1 hk)]
    simp only [Run.done.injEq, and_true, add_right_inj, Nat.cast_inj]
    rfl
  refine ⟨hc, ?_⟩
  rw [hc]
  exact card_share_cases (2 ^ eb) rOut i (Nat.two_pow_pos _) (Nat.succ_pos _) (by
    show i < (mx - mn).toNat + 1
    omega)

#guard gridCount 5 (smallint (rn 24) ⟨32, true⟩ 1 6) 1 1 = 6
#guard gridCount 5 (smallint (rn 24) ⟨32, true⟩ 1 6) 1 2 = 5

/-- C117, the documented bound (as for integral engines, C40): with `p(i)` the fraction of engine values giving `mn + i` and
`p_uniform = 1 / r_out`, the sum of `(p(i)/p_uniform - 1)^2` is `r_out/r_base^2 * (r_base mod r_out) * (r_out - r_base mod r_out)`. -/
theorem c117_quantization (pb : Nat) (flb : ℚ → ℚ) (N : Nearest pb flb) (hpb : 1 ≤ pb) (T : IntTy) (mn mx : Int) (hP : ParamOK T mn mx) (eb : Nat)
    (heb : eb ≤ pb) (hn : mx - mn + 1 ≤ 2 ^ (pb - eb)) :
    let rOut := (mx - mn).toNat + 1
    let rBase := 2 ^ eb
    let p : Nat → ℚ := fun i => (gridCount eb (smallint flb T mn mx) 1 (mn + i) : ℚ) / (rBase : Nat)
    ∑ i ∈ range rOut, (p i / (1 / rOut) - 1) ^ 2 =
      (rOut : ℚ) / (rBase : Nat) ^ 2 * (rBase % rOut : Nat) * (rOut - (rBase % rOut : Nat)) := by
  intro rOut rBase p
  have hle := hP.le
  have hcount : ∀ i ∈ range rOut, ∃ e : Nat, (e = 0 ∨ e = 1) ∧ gridCount eb (smallint flb T mn mx) 1 (mn + i) = rBase / rOut + e ∧
      e = (((List.range rBase).countP fun k => decide (k * rOut / rBase = i)) - rBase / rOut) := by
    intro i hi
    have hi' : (i : Int) ≤ mx - mn := by
      have : i < (mx - mn).toNat + 1 := mem_range.1 hi
      omega
    obtain ⟨c1, c2⟩ := c117_count pb flb N hpb T mn mx hP eb heb hn i hi'
    refine ⟨_, ?_, ?_, rfl⟩
    · rw [← c1]; rcases c2 with c2 | c2 <;> rw [c2]
      · left; exact Nat.sub_self _
      · right; exact Nat.add_sub_cancel_left _ _
    · rw [← c1]; rcases c2 with c2 | c2 <;> rw [c2]
      · exact (Nat.add_sub_cancel' (le_refl _)).symm
      · exact (Nat.add_sub_cancel' (Nat.le_succ _)).symm
  choose! e he1 he2 he3 using hcount
  -- the counts add up to the number of engine values
  have hsum : ∑ i ∈ range rOut, (rBase / rOut + e i) = rBase := by
    have h1 : ∀ i ∈ range rOut, rBase / rOut + e i = ((Finset.range rBase).filter fun k => k * rOut / rBase = i).card := by
      intro i hi
      have hi' : (i : Int) ≤ mx - mn := by
        have : i < (mx - mn).toNat + 1 := mem_range.1 hi
        omega
      rw [← he2 i hi, (c117_count pb flb N hpb T mn mx hP eb heb hn i hi').1, ← Multiset.coe_countP, Finset.card_def, Finset.filter_val,
        ← Multiset.countP_eq_card_filter]
      rfl
    rw [Finset.sum_congr rfl h1, ← Finset.card_eq_sum_card_fiberwise (fun k hk => ?_), Finset.card_range]
    have hk' := mem_range.1 (Finset.mem_coe.1 hk)
    refine Finset.mem_coe.2 (mem_range.2 ?_)
    rw [Nat.div_lt_iff_lt_mul (Nat.two_pow_pos _), Nat.mul_comm]
    exact Nat.mul_lt_mul_of_pos_left hk' (Nat.succ_pos _)
  have hN : (0 : ℚ) < rOut := by exact_mod_cast Nat.succ_pos _
  have hB : (0 : ℚ) < (rBase : Nat) := by exact_mod_cast Nat.two_pow_pos eb
  have hs1 : ∑ i ∈ range rOut, e i = rBase % rOut := by
    rw [Finset.sum_add_distrib, Finset.sum_const, Finset.card_range, smul_eq_mul] at hsum
    have := Nat.div_add_mod rBase rOut
    omega
  have hs2 : ∑ i ∈ range rOut, ((e i : ℚ)) = (rBase % rOut : Nat) := by rw [← hs1]; push_cast; rfl
  have hdm : ((rBase : Nat) : ℚ) = rOut * (rBase / rOut : Nat) + (rBase % rOut : Nat) := by
    exact_mod_cast (Nat.div_add_mod rBase rOut).symm
  have hterm : ∀ i ∈ range rOut, (p i / (1 / rOut) - 1) ^ 2 =
      (rOut : ℚ) ^ 2 / (rBase : Nat) ^ 2 * (e i) * (1 - 2 * ((rBase % rOut : Nat) : ℚ) / rOut) + ((rBase % rOut : Nat) : ℚ) ^ 2 / (rBase : Nat) ^ 2 := by
    intro i hi
    show ((gridCount eb (smallint flb T mn mx) 1 (mn + i) : ℚ) / (rBase : Nat) / (1 / rOut) - 1) ^ 2 = _
    rw [he2 i hi]
    have hq : ((rBase / rOut : Nat) : ℚ) = (((rBase : Nat) : ℚ) - (rBase % rOut : Nat)) / rOut := by rw [hdm]; field_simp; ring
    have hsq : (e i : ℚ) ^ 2 = e i := by rcases he1 i hi with h | h <;> rw [h] <;> norm_num
    rw [Nat.cast_add, hq]
    generalize ((rBase % rOut : Nat) : ℚ) = m
    generalize ((rBase : Nat) : ℚ) = B at *
    have : (((B - m) / rOut + e i) / B / (1 / rOut) - 1) ^ 2 = (rOut ^ 2 * (e i : ℚ) ^ 2 - 2 * rOut * m * e i + m ^ 2) / B ^ 2 := by
      field_simp
      ring
    rw [this, hsq]
    field_simp
  rw [Finset.sum_congr rfl hterm, Finset.sum_add_distrib, ← Finset.sum_mul, ← Finset.mul_sum, hs2, Finset.sum_const, Finset.card_range, nsmul_eq_mul]
  field_simp
  ring

example : ParamOK ⟨32, true⟩ 1 6 ∧ (6 : Int) - 1 + 1 ≤ 2 ^ (24 - 5) := ⟨⟨by decide, by decide, by decide, by decide⟩, by norm_num⟩

/-! ## C118 -/

/-- C118, `uniform_01` under any rounding: values in `[0, 1)`; an engine value that is a value of the result type is returned unchanged. -/
theorem c118_uniform01 (p pb : Nat) (fl flb : ℚ → ℚ) (H : Rounding p fl) (Hb : Rounding pb flb) (hp : 1 ≤ p) (hpb : 1 ≤ pb) :
    (∀ xs, RealOutputs pb xs → RunsIn (uniform01 fl flb) xs fun v => 0 ≤ v ∧ v < 1) ∧
      ∀ x xs, x < 1 → Representable pb x → Representable p x → uniform01 fl flb (x :: xs) = .done x xs :=
  ⟨uniform01_in H Hb hp hpb, fun _ xs h1 h2 h3 => uniform01_exact H Hb hp hpb h2 h3 h1 xs⟩

/-- `float` results of a `double` engine: a value that would round to 1 is skipped -/
example : uniform01 (rn 24) (rn 53) [1 - 1 / 2 ^ 48, 3 / 8, 1 / 2] = .done (3 / 8) [1 / 2] := by decide +kernel

/-- C118, the law: if the precision of the result is not less than the number of bits of the engine, each of the `2^eb` values of the engine
is returned for exactly one engine value. -/
theorem c118_law (p pb : Nat) (fl flb : ℚ → ℚ) (H : Rounding p fl) (Hb : Rounding pb flb) (eb : Nat) (h1 : 1 ≤ eb) (h2 : eb ≤ p) (h3 : eb ≤ pb)
    (k : Nat) (hk : k < 2 ^ eb) : gridCount eb (uniform01 fl flb) 1 ((k : ℚ) / 2 ^ eb) = 1 := by
  have hpe : (0 : ℚ) < 2 ^ eb := by positivity
  unfold gridCount
  have hg : gridTuples eb 1 = (List.range (2 ^ eb)).map fun k : Nat => [(k : ℚ) / 2 ^ eb] := by
    rw [List.map_eq_flatMap]
    rfl
  rw [hg, List.countP_map]
  have : (List.range (2 ^ eb)).countP ((fun t => decide (uniform01 fl flb t = Run.done ((k : ℚ) / 2 ^ eb) [])) ∘ fun k : Nat => [(k : ℚ) / 2 ^ eb]) =
      (List.range (2 ^ eb)).countP fun j => j == k := by
    apply List.countP_congr
    intro j hj
    have hj' := List.mem_range.1 hj
    have hlt : (j : ℚ) / 2 ^ eb < 1 := by rw [div_lt_one hpe]; exact_mod_cast hj'
    simp only [Function.comp, decide_eq_true_eq, beq_iff_eq]
    rw [uniform01_exact H Hb (by omega) (by omega) (Representable.scaled (lt_of_lt_of_le hj' (Nat.pow_le_pow_right (by norm_num) h3)) eb)
      (Representable.scaled (lt_of_lt_of_le hj' (Nat.pow_le_pow_right (by norm_num) h2)) eb) hlt]
    simp only [Run.done.injEq, and_true]
    rw [div_left_inj' hpe.ne']
    norm_cast
  rw [this]
  exact List.count_eq_one_of_mem (List.nodup_range) (List.mem_range.2 hk)

#guard gridCount 4 (uniform01 (rn 24) (rn 53)) 1 (7 / 16) = 1

/-- C118, `uniform_real_distribution` under any rounding: values in `[lo, hi)`; the engine value 0 gives `lo`; in exact arithmetic the value is
`lo + x * (hi - lo)`. -/
theorem c118_uniform_real (p pb : Nat) (fl flb : ℚ → ℚ) (H : Rounding p fl) (Hb : Rounding pb flb) (hp : 1 ≤ p) (hpb : 1 ≤ pb) (lo hi : ℚ)
    (hlo : Representable p lo) (hlh : lo < hi) :
    (∀ xs, RealOutputs pb xs → RunsIn (uniformReal fl flb lo hi) xs fun v => lo ≤ v ∧ v < hi) ∧
      (∀ xs, uniformReal fl flb lo hi (0 :: xs) = .done lo xs) ∧
      ∀ x xs, x < 1 → uniformReal id id lo hi (x :: xs) = .done (lo + x * (hi - lo)) xs := by
  refine ⟨uniformReal_in H Hb hp hpb hlh.le hlo, uniformReal_zero H Hb hp hpb hlh hlo, ?_⟩
  intro x xs hx
  rw [uniformReal]
  simp only [id, sub_zero, div_one]
  have : x * (hi - lo) + lo < hi := by nlinarith
  rw [if_pos this, add_comm]

#guard uniformReal (rn 24) (rn 53) (-5 / 2) 4 [1 / 2, 1 / 3] = .done (3 / 4) [1 / 3]

/-! ## C119 -/

/-- C119 (partial): for every engine output the value of `generate_canonical` is in `[0, 1)`, under any rounding. Missing: that it is uniformly
distributed, see `c119_law_false`, and that it has `bits` random bits, see `c119_bits_false`. -/
theorem c119_range_partial (p pb : Nat) (fl flb : ℚ → ℚ) (H : Rounding p fl) (Hb : Rounding pb flb) (hp : 1 ≤ p) (bits eb : Nat) (heb : eb ≤ pb)
    (xs : List ℚ) (hG : GridOutputs eb xs) : RunsIn (canonical fl flb p bits eb) xs fun v => 0 ≤ v ∧ v < 1 :=
  canonical_in H Hb hp heb xs hG

#guard canonical (rn 53) (rn 53) 53 53 48 [1 / 2, 3 / 4, 1 / 8] = .done (3 / 4) [1 / 8]

/-- C119 (partial: more bits are asked for than the engine has, and the arithmetic is exact): after the first engine value, the values read are
the digits, least significant first, of the number `⌊v * 2^(eb * n)⌋`; so the first `eb * n` bits of the result are uniformly distributed. -/
theorem c119_digits_partial (digits bits eb : Nat) (k : Nat) (ks : List Nat) (hk : k < 2 ^ eb) (hks : ∀ j ∈ ks, j < 2 ^ eb)
    (h1 : eb * ks.length < Nat.min bits digits) (h2 : Nat.min bits digits ≤ eb * (ks.length + 1)) (hne : ks ≠ []) (rest : List ℚ) :
    ∃ v, canonical id id digits bits eb ((k :: ks).map (fun j : Nat => (j : ℚ) / 2 ^ eb) ++ rest) = .done v rest ∧
      ⌊v * 2 ^ (eb * ks.length)⌋ = ((Nat.ofDigits (2 ^ eb) ks : Nat) : Int) ∧ v < 1 := by
  have hpe : (0 : ℚ) < 2 ^ eb := by positivity
  have hL : 1 ≤ ks.length := List.length_pos_iff.2 hne
  have h := canonicalLoop_digits (eb := eb) (b := Nat.min bits digits) ks ((k : ℚ) / 2 ^ eb) 1 rest hks
    (fun _ => by rw [Nat.add_sub_cancel_left]; exact h1) (by rw [Nat.add_comm]; exact h2) le_rfl
  have heb : 1 ≤ eb := by
    rcases Nat.eq_zero_or_pos eb with h0 | h0
    · rw [h0, zero_mul] at h1 h2; omega
    · exact h0
  have hod : Nat.ofDigits (2 ^ eb) ks + 1 ≤ 2 ^ (eb * ks.length) := by
    rw [pow_mul]
    exact Nat.ofDigits_lt_base_pow_length (by
      calc 1 < 2 ^ 1 := by norm_num
        _ ≤ 2 ^ eb := Nat.pow_le_pow_right (by norm_num) heb) hks
  generalize hD : Nat.ofDigits (2 ^ eb) ks = D at h hod ⊢
  have hx0 : 0 ≤ (k : ℚ) / 2 ^ eb := by positivity
  have hx1 : (k : ℚ) / 2 ^ eb < 1 := by rw [div_lt_one hpe]; exact_mod_cast hk
  have hodq : (D : ℚ) + 1 ≤ 2 ^ (eb * ks.length) := by exact_mod_cast hod
  have h2e : (2 : ℚ) ≤ 2 ^ eb := by
    calc (2 : ℚ) = 2 ^ 1 := by norm_num
      _ ≤ 2 ^ eb := pow_le_pow_right₀ (by norm_num) heb
  set v : ℚ := ((k : ℚ) / 2 ^ eb + 2 ^ (eb * 1) * (D : ℚ)) / 2 ^ (eb * (1 + ks.length)) with hv
  have hve : v * 2 ^ (eb * ks.length) = (k : ℚ) / 2 ^ eb / 2 ^ eb + D := by
    rw [hv, Nat.mul_one, Nat.mul_add, Nat.mul_one, pow_add]
    field_simp
  have hsmall : (k : ℚ) / 2 ^ eb / 2 ^ eb < 1 := by
    rw [div_lt_one hpe]
    linarith
  have hlt : v < 1 := by
    by_contra hc
    rw [not_lt] at hc
    have hpp : (0 : ℚ) < 2 ^ (eb * ks.length) := by positivity
    have : (2 : ℚ) ^ (eb * ks.length) ≤ v * 2 ^ (eb * ks.length) := by nlinarith
    rw [hve] at this
    linarith
  refine ⟨v, ?_, ?_, hlt⟩
  · unfold canonical
    rw [List.map_cons, List.cons_append, canonicalImpl]
    simp only [id, sub_zero]
    rw [Nat.mul_one] at h
    rw [h]
    simp only [Run.bind]
    rw [if_neg hlt.ne]
  · rw [hve, Int.floor_eq_iff]
    refine ⟨by push_cast; have : 0 ≤ (k : ℚ) / 2 ^ eb / 2 ^ eb := by positivity
               linarith, by push_cast; linarith⟩

/-- `long double` from an engine of 24 bits -/
example : 24 * [5, 16777215].length < Nat.min 64 64 ∧ Nat.min 64 64 ≤ 24 * ([5, 16777215].length + 1) := by decide

/-- C119 is false: if the engine has at least the number of bits asked for, then the result is the engine value divided by `2^eb`, and so at
most `2^-eb`. Such are `generate_canonical<double, 24>` and `generate_canonical<float, b>`, for every `b`, with `lagged_fibonacci607`. -/
theorem c119_law_false (p pb : Nat) (fl flb : ℚ → ℚ) (H : Rounding p fl) (Hb : Rounding pb flb) (hp : 1 ≤ p) (bits eb : Nat) (heb : 1 ≤ eb)
    (hbits : Nat.min bits p ≤ eb) (x : ℚ) (h0 : 0 ≤ x) (h1 : x < 1) (hr : Representable pb x) (xs : List ℚ) :
    ∃ v, canonical fl flb p bits eb (x :: xs) = .done v xs ∧ v ≤ 1 / 2 ^ eb := by
  obtain ⟨e, hle⟩ := canonical_short H Hb hp (bits := bits) hbits heb ⟨h0, h1, hr⟩ xs
  exact ⟨_, e, div_le_div_of_nonneg_right hle (by positivity)⟩

#guard canonical (rn 53) (rn 53) 53 24 48 [1 / 2, 3 / 4] = .done (1 / 2 ^ 49) [3 / 4]
#guard canonical (rn 24) (rn 53) 24 24 48 [1 / 2, 3 / 4] = .done (1 / 2 ^ 49) [3 / 4]

/-- C119 is false: if more bits are asked for than the engine has and the precision is less than twice that number, then the upper half of the
results are multiples of `2^-eb`, whatever the first engine value. Such is `generate_canonical<double, 53>` with `lagged_fibonacci607`, which
has 48 random bits in place of 53. -/
theorem c119_bits_false (p pb : Nat) (fl flb : ℚ → ℚ) (N : Nearest p fl) (Hb : Rounding pb flb) (bits eb : Nat) (heb : eb < Nat.min bits p)
    (hpe : p < 2 * eb) (hpb : eb ≤ pb) (k0 k1 : Nat) (h0 : k0 < 2 ^ eb) (h1 : 2 ^ (eb - 1) < k1) (h1' : k1 < 2 ^ eb) (xs : List ℚ) :
    canonical fl flb p bits eb ((k0 : ℚ) / 2 ^ eb :: (k1 : ℚ) / 2 ^ eb :: xs) = .done ((k1 : ℚ) / 2 ^ eb) xs :=
  canonical_lost N Hb heb hpe hpb k0 k1 h0 h1 h1' xs

example : 48 < Nat.min 53 53 ∧ 53 < 2 * 48 := by decide

/-! ## C120 -/

/-- C120, `bernoulli_distribution` under any rounding: if the precision is not less than the number of bits of the engine, then of the `2^eb`
engine values exactly `min (2^eb) (⌊q * 2^eb⌋ + 1)` give `true`; so the probability of `true` is `q` up to `2^-eb`. -/
theorem c120_count (p pb : Nat) (fl flb : ℚ → ℚ) (H : Rounding p fl) (Hb : Rounding pb flb) (eb : Nat) (h1 : 1 ≤ eb) (h2 : eb ≤ p) (h3 : eb ≤ pb)
    (q : ℚ) (hq : 0 < q) (hq1 : q ≤ 1) (hqr : Representable p q) :
    gridCount eb (bernoulli fl flb q) 1 true = min (2 ^ eb) (⌊q * 2 ^ eb⌋₊ + 1) ∧
      |(gridCount eb (bernoulli fl flb q) 1 true : ℚ) / 2 ^ eb - q| ≤ 1 / 2 ^ eb := by
  have hpe : (0 : ℚ) < 2 ^ eb := by positivity
  have hc : gridCount eb (bernoulli fl flb q) 1 true = min (2 ^ eb) (⌊q * 2 ^ eb⌋₊ + 1) := by
    unfold gridCount
    have hg : gridTuples eb 1 = (List.range (2 ^ eb)).map fun k : Nat => [(k : ℚ) / 2 ^ eb] := by
      rw [List.map_eq_flatMap]
      rfl
    rw [hg, List.countP_map]
    have e : (List.range (2 ^ eb)).countP ((fun t => decide (bernoulli fl flb q t = Run.done true [])) ∘ fun k : Nat => [(k : ℚ) / 2 ^ eb]) =
        (List.range (2 ^ eb)).countP fun j => decide (j < ⌊q * 2 ^ eb⌋₊ + 1) := by
      apply List.countP_congr
      intro j hj
      have hj' := List.mem_range.1 hj
      have hjp : Representable p ((j : ℚ) / 2 ^ eb) := Representable.scaled (lt_of_lt_of_le hj' (Nat.pow_le_pow_right (by norm_num) h2)) eb
      simp only [Function.comp, decide_eq_true_eq]
      rw [bernoulli_cons H Hb (by omega) (by omega) hq.ne' hqr
        (Representable.scaled (lt_of_lt_of_le hj' (Nat.pow_le_pow_right (by norm_num) h3)) eb), H.exact _ hjp]
      simp only [Run.done.injEq, and_true, decide_eq_true_eq]
      rw [Nat.lt_succ_iff, Nat.le_floor_iff (by positivity), div_le_iff₀ hpe]
    rw [e]
    have gen : ∀ m B : Nat, (List.range m).countP (fun j => decide (j < B)) = min m B := by
      intro m B
      induction m with
      | zero => simp
      | succ m ih =>
        rw [List.range_succ, List.countP_append, ih]
        simp only [List.countP_cons, List.countP_nil]
        split <;> rename_i hh <;> simp at hh <;> omega
    exact gen _ _
  refine ⟨hc, ?_⟩
  rw [hc]
  have f1 := Nat.floor_le (show (0 : ℚ) ≤ q * 2 ^ eb by positivity)
  have f2 := Nat.lt_floor_add_one (q * 2 ^ eb)
  have e1 : ((min (2 ^ eb) (⌊q * 2 ^ eb⌋₊ + 1) : Nat) : ℚ) / 2 ^ eb - q = (((min (2 ^ eb) (⌊q * 2 ^ eb⌋₊ + 1) : Nat) : ℚ) - q * 2 ^ eb) / 2 ^ eb := by
    field_simp
  rw [e1, abs_div, abs_of_pos hpe]
  refine div_le_div_of_nonneg_right ?_ hpe.le
  rw [abs_le]
  push_cast
  rcases min_cases ((2 : ℚ) ^ eb) (⌊q * 2 ^ eb⌋₊ + 1) with ⟨e2, h⟩ | ⟨e2, h⟩
  · rw [e2]
    constructor <;> nlinarith
  · rw [e2]
    constructor <;> linarith

#guard gridCount 4 (bernoulli (rn 24) (rn 53) (1 / 4)) 1 true = 5
#guard gridCount 4 (bernoulli (rn 24) (rn 53) 1) 1 true = 16

/-- C120: one engine value is read, none for `q = 0`, which gives `false`; `q = 1` gives `true`. -/
theorem c120_ends (p pb : Nat) (fl flb : ℚ → ℚ) (H : Rounding p fl) (Hb : Rounding pb flb) (hp : 1 ≤ p) (hpb : 1 ≤ pb) (x : ℚ) (h1 : x < 1)
    (hr : Representable pb x) (xs : List ℚ) :
    bernoulli fl flb 0 (x :: xs) = .done false (x :: xs) ∧ bernoulli fl flb 1 (x :: xs) = .done true xs ∧
      ∀ q, Representable p q → q ≠ 0 → ∃ b, bernoulli fl flb q (x :: xs) = .done b xs := by
  refine ⟨by unfold bernoulli; rw [if_pos rfl], ?_, fun q hq h0 => ⟨_, bernoulli_cons H Hb hp hpb h0 hq hr xs⟩⟩
  rw [bernoulli_cons H Hb hp hpb one_ne_zero (Representable.one hp) hr]
  have := H.mono x 1 h1.le
  rw [H.exact 1 (Representable.one hp)] at this
  rw [decide_eq_true this]

example : Representable 53 (1 / 4 : ℚ) := ⟨1, -2, by norm_num, by norm_num⟩

/-! ## C121 -/

/-- C121, `generate_int_float_pair` under any rounding: no undefined behaviour, the integer has `w` bits, the fraction is in `[0, 1)`. -/
theorem c121_bounds (p pb : Nat) (fl flb : ℚ → ℚ) (H : Rounding p fl) (Hb : Rounding pb flb) (hp : 1 ≤ p) (W eb w : Nat) (h1 : 1 ≤ w)
    (h2 : w ≤ eb) (h3 : eb ≤ W) (h4 : eb ≤ pb) (hw : w ≤ 30) (xs : List ℚ) (hO : RealOutputs pb xs) :
    RunsIn (intFloatPair fl flb W eb w) xs fun v => 0 ≤ v.1 ∧ v.1 < 1 ∧ 0 ≤ v.2 ∧ v.2 < 2 ^ w := by
  cases xs with
  | nil =>
    unfold RunsIn
    rw [intFloatPair_nil fl flb h1 h2 h3 hw]
    exact ⟨by simp, by simp⟩
  | cons x xs =>
    unfold RunsIn
    rw [intFloatPair_eq Hb h1 h2 h3 h4 hw xs hO]
    obtain ⟨x0, x1, _⟩ := hO x (by simp)
    obtain ⟨u1, u2⟩ := uniform01_in H Hb hp (by omega) xs fun y hy => hO y (by simp [hy])
    cases hu : uniform01 fl flb xs with
    | ub => exact absurd hu u1
    | more => exact ⟨by simp [Run.bind], by simp [Run.bind]⟩
    | done r rest =>
      refine ⟨by simp [Run.bind], ?_⟩
      intro v rest' e
      simp only [Run.bind, Run.done.injEq] at e
      obtain ⟨rfl, rfl⟩ := e
      obtain ⟨⟨r0, r1⟩, hs⟩ := u2 r rest hu
      obtain ⟨g0, g1⟩ := floor_bounds (eb := w) x0 x1
      exact ⟨⟨r0, r1, g0, g1⟩, hs.trans (List.suffix_cons _ _)⟩

/-- C121: if the precision is not less than the number of bits of the engine, two engine values are read; the integer is the first `w` bits of the
first, the fraction is the second. So every pair has exactly `2^(eb - w)` of the `2^(2 eb)` pairs of engine values: the two are independent and
uniform. -/
theorem c121_law (p pb : Nat) (fl flb : ℚ → ℚ) (H : Rounding p fl) (Hb : Rounding pb flb) (W eb w : Nat) (h1 : 1 ≤ w)
    (h2 : w ≤ eb) (h3 : eb ≤ W) (h4 : eb ≤ pb) (h5 : eb ≤ p) (hw : w ≤ 30) (b k : Nat) (hb : b < 2 ^ w) (hk : k < 2 ^ eb) :
    (∀ i j : Nat, i < 2 ^ eb → j < 2 ^ eb → ∀ xs, GridOutputs eb xs → intFloatPair fl flb W eb w ((i : ℚ) / 2 ^ eb :: (j : ℚ) / 2 ^ eb :: xs) =
      .done ((j : ℚ) / 2 ^ eb, ((i / 2 ^ (eb - w) : Nat) : Int)) xs) ∧
    gridCount eb (intFloatPair fl flb W eb w) 2 ((k : ℚ) / 2 ^ eb, (b : Int)) = 2 ^ (eb - w) := by
  have hpe : (0 : ℚ) < 2 ^ eb := by positivity
  have hval : ∀ i j : Nat, i < 2 ^ eb → j < 2 ^ eb → ∀ xs, GridOutputs eb xs →
      intFloatPair fl flb W eb w ((i : ℚ) / 2 ^ eb :: (j : ℚ) / 2 ^ eb :: xs) = .done ((j : ℚ) / 2 ^ eb, ((i / 2 ^ (eb - w) : Nat) : Int)) xs := by
    intro i j hi hj xs hxs
    have hG : GridOutputs eb ((i : ℚ) / 2 ^ eb :: (j : ℚ) / 2 ^ eb :: xs) := by
      intro x hx
      rcases List.mem_cons.1 hx with rfl | hx
      · exact ⟨i, hi, rfl⟩
      · rcases List.mem_cons.1 hx with rfl | hx
        · exact ⟨j, hj, rfl⟩
        · exact hxs x hx
    have hlift : ∀ d, eb ≤ d → Representable d ((j : ℚ) / 2 ^ eb) := fun d hd =>
      Representable.scaled (lt_of_lt_of_le hj (Nat.pow_le_pow_right (by norm_num) hd)) eb
    rw [intFloatPair_eq Hb h1 h2 h3 h4 hw _ (hG.real h4), uniform01_exact H Hb (by omega) (by omega) (hlift pb h4) (hlift p h5)
      (by rw [div_lt_one hpe]; exact_mod_cast hj)]
    simp only [Run.bind, Run.done.injEq, Prod.mk.injEq, and_true, true_and]
    have e1 : (i : ℚ) / 2 ^ eb * 2 ^ w = ((i : Int) : ℚ) / ((2 ^ (eb - w) : Nat) : ℚ) := by
      rw [show (2 : ℚ) ^ eb = 2 ^ w * 2 ^ (eb - w) by rw [← pow_add]; congr 1; omega]
      push_cast
      field_simp
    rw [e1, Rat.floor_intCast_div_natCast]
    push_cast
    rfl
  refine ⟨hval, ?_⟩
  have hD : 0 < 2 ^ (eb - w) := Nat.two_pow_pos _
  have hnil : GridOutputs eb [] := by intro x hx; cases hx
  unfold gridCount
  have hg2 : gridTuples eb 2 = (List.range (2 ^ eb)).flatMap fun i : Nat => (List.range (2 ^ eb)).map fun j : Nat => [(i : ℚ) / 2 ^ eb, (j : ℚ) / 2 ^ eb] := by
    have hg : gridTuples eb 1 = (List.range (2 ^ eb)).map fun k : Nat => [(k : ℚ) / 2 ^ eb] := by
      rw [List.map_eq_flatMap]
      rfl
    rw [gridTuples, hg]
    simp only [List.map_map]
    rfl
  rw [hg2, List.countP_flatMap]
  have hin : ∀ i ∈ List.range (2 ^ eb), ((List.countP fun t => decide (intFloatPair fl flb W eb w t = Run.done ((k : ℚ) / 2 ^ eb, (b : Int)) [])) ∘
      fun i : Nat => (List.range (2 ^ eb)).map fun j : Nat => [(i : ℚ) / 2 ^ eb, (j : ℚ) / 2 ^ eb]) i = if i / 2 ^ (eb - w) = b then 1 else 0 := by
    intro i hi
    have hi' := List.mem_range.1 hi
    simp only [Function.comp]
    rw [List.countP_map]
    have e2 : ∀ j ∈ List.range (2 ^ eb), ((fun t => decide (intFloatPair fl flb W eb w t = Run.done ((k : ℚ) / 2 ^ eb, (b : Int)) [])) ∘
        fun j : Nat => [(i : ℚ) / 2 ^ eb, (j : ℚ) / 2 ^ eb]) j = true ↔ (decide (i / 2 ^ (eb - w) = b) && (j == k)) = true := by
      intro j hj
      simp only [Function.comp, decide_eq_true_eq]
      rw [hval i j hi' (List.mem_range.1 hj) [] hnil]
      simp only [Run.done.injEq, Prod.mk.injEq, and_true, Bool.and_eq_true, decide_eq_true_eq, beq_iff_eq]
      rw [div_left_inj' hpe.ne', and_comm]
      norm_cast
    rw [List.countP_congr e2]
    by_cases hc : i / 2 ^ (eb - w) = b
    · simp only [hc, decide_true, Bool.true_and, if_true]
      exact List.count_eq_one_of_mem (List.nodup_range) (List.mem_range.2 hk)
    · simp only [hc, decide_false, Bool.false_and, if_false]
      exact List.countP_eq_zero.2 (by simp)
  rw [List.map_congr_left hin]
  have hM : 2 ^ eb = 2 ^ w * 2 ^ (eb - w) := by rw [← pow_add]; congr 1; omega
  have e3 : ∀ l : List Nat, (l.map fun i => if i / 2 ^ (eb - w) = b then 1 else 0).sum = l.countP fun i => decide (i * 2 ^ w / 2 ^ eb = b) := by
    intro l
    induction l with
    | nil => rfl
    | cons i l ih =>
      rw [List.map_cons, List.sum_cons, ih, List.countP_cons, add_comm]
      congr 1
      rw [hM, Nat.mul_comm i, Nat.mul_div_mul_left _ _ (Nat.two_pow_pos w)]
      simp
  rw [e3, card_share (2 ^ eb) (2 ^ w) b (Nat.two_pow_pos _) (Nat.two_pow_pos _) hb, hM]
  have hw0 : 0 < 2 ^ w := Nat.two_pow_pos w
  have e4 : ∀ c, (c * (2 ^ w * 2 ^ (eb - w)) + (2 ^ w - 1)) / 2 ^ w = c * 2 ^ (eb - w) := by
    intro c
    rw [show c * (2 ^ w * 2 ^ (eb - w)) = 2 ^ w * (c * 2 ^ (eb - w)) by ring, Nat.mul_add_div hw0, Nat.div_eq_of_lt (by omega), add_zero]
  rw [e4, e4, Nat.add_mul, one_mul]
  omega

#guard gridCount 4 (intFloatPair (rn 24) (rn 53) 64 4 2) 2 (7 / 16, 3) = 4

end FloatEngine
end Boost.Random
