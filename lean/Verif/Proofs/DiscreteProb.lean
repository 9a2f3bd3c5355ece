import Verif.Proofs.DiscreteSample
import Mathlib.Tactic.FieldSimp
import Mathlib.Tactic.NormNum

/-!
# `probabilities()` of a `discrete_distribution`, and drawing with explicit parameters
-/

namespace Boost.Random
namespace Discrete
open Spec Finset UniformInt

section
variable {α : Type} {sub : α → α → Option α} {gw : Nat → Option α} {add : α → α → Option α} {φ : α → ℚ} {g : Nat → α} {ok : α → Prop} {n : Nat}
  {B : Nat → ℚ}

theorem contrib_nonneg (hnn : ∀ x, ok x → 0 ≤ φ x) (t : List (α × Nat)) (i v : Nat) (hc : ∃ x s, t[i]? = some (x, s) ∧ ok x ∧ φ x ≤ φ (g i)) :
    0 ≤ contrib φ g t i v := by
  obtain ⟨x, s, h1, h2, h3⟩ := hc
  have := hnn x h2
  unfold contrib
  rw [h1]
  simp only
  split <;> split <;> linarith

theorem probLoop_spec (hnn : ∀ x, ok x → 0 ≤ φ x)
    (hsub : ∀ x y, ok x → ok y → φ y ≤ φ x → ∃ z, sub x y = some z ∧ φ z = φ x - φ y ∧ ok z)
    (hadd : ∀ x y v, ok x → ok y → φ x + φ y ≤ B v → ∃ z, add x y = some z ∧ φ z = φ x + φ y ∧ ok z)
    (hgw : ∀ i, i < n → gw i = some (g i) ∧ ok (g i)) (t : List (α × Nat)) (ht : t.length = n)
    (hcol : ∀ i, i < n → ∃ x s, t[i]? = some (x, s) ∧ ok x ∧ φ x ≤ φ (g i) ∧ s < n)
    (hB : ∀ v, ∑ j ∈ range n, contrib φ g t j v = B v) : ∀ (k i : Nat) (result : List α), i + k = n → result.length = n →
    (∀ v, v < n → ∃ x, result[v]? = some x ∧ ok x ∧ φ x = ∑ j ∈ range i, contrib φ g t j v) →
    ∃ r, probLoop sub gw add i (t.drop i) result = some r ∧ r.length = n ∧ ∀ v, v < n → ∃ x, r[v]? = some x ∧ ok x ∧ φ x = B v
  | 0, i, result, hik, hlen, hr => by
    have hi : i = n := by omega
    subst hi
    rw [List.drop_eq_nil_of_le (by omega)]
    refine ⟨result, rfl, hlen, fun v hv => ?_⟩
    obtain ⟨x, h1, h2, h3⟩ := hr v hv
    exact ⟨x, h1, h2, h3.trans (hB v)⟩
  | k + 1, i, result, hik, hlen, hr => by
    have hi : i < n := by omega
    obtain ⟨x, s, c1, c2, c3, c4⟩ := hcol i hi
    have hpart : ∀ v, ∑ j ∈ range i, contrib φ g t j v + contrib φ g t i v ≤ B v := by
      intro v
      rw [← hB v, ← sum_range_succ]
      apply sum_le_sum_of_subset_of_nonneg
      · intro j hj; have := mem_range.1 hj; exact mem_range.2 (by omega)
      · intro j hj _
        obtain ⟨x, s, d1, d2, d3, _⟩ := hcol j (mem_range.1 hj)
        exact contrib_nonneg hnn t j v ⟨x, s, d1, d2, d3⟩
    have hdrop : t.drop i = (x, s) :: t.drop (i + 1) := by
      have hlt : i < t.length := by omega
      rw [List.drop_eq_getElem_cons hlt]
      congr 1
      have := List.getElem?_eq_getElem hlt
      rw [c1] at this
      exact (Option.some.inj this).symm
    have hct : ∀ v, contrib φ g t i v = (if i = v then φ x else 0) + (if s = v then φ (g i) - φ x else 0) := by
      intro v; unfold contrib; rw [c1]
    obtain ⟨hg, hgok⟩ := hgw i hi
    obtain ⟨dd, d1, d2, d3⟩ := hsub (g i) x hgok c2 c3
    have hd0 := hnn dd d3
    obtain ⟨y, r1, r2, r3⟩ := hr i hi
    have hpi := hpart i
    rw [hct i, if_pos rfl] at hpi
    have hsi : 0 ≤ (if s = i then φ (g i) - φ x else 0 : ℚ) := by split <;> linarith
    obtain ⟨y', a1, a2, a3⟩ := hadd y x i r2 c2 (by linarith)
    have hset1 : (result.set i y').length = n := by simpa using hlen
    obtain ⟨z, z1, z2, z3⟩ : ∃ z, (result.set i y')[s]? = some z ∧ ok z ∧ φ z = ∑ j ∈ range i, contrib φ g t j s + (if i = s then φ x else 0) := by
      by_cases his : i = s
      · subst his
        exact ⟨y', by rw [List.getElem?_set_self (by omega)], a3, by rw [if_pos rfl, a2, r3]⟩
      · obtain ⟨z, z1, z2, z3⟩ := hr s c4
        exact ⟨z, by rw [List.getElem?_set_ne his]; exact z1, z2, by rw [if_neg his, add_zero, z3]⟩
    have hps := hpart s
    rw [hct s, if_pos rfl] at hps
    obtain ⟨z', b1, b2, b3⟩ := hadd z dd s z2 d3 (by linarith)
    rw [hdrop]
    simp only [probLoop, r1, a1, z1, hg, d1, b1, Option.bind_some]
    apply probLoop_spec hnn hsub hadd hgw t ht hcol hB k (i + 1) _ (by omega) (by simpa using hlen)
    intro v hv
    rw [sum_range_succ, hct v]
    by_cases hsv : s = v
    · subst hsv
      refine ⟨z', by rw [List.getElem?_set_self (by rw [hset1]; exact hv)], b3, ?_⟩
      rw [if_pos rfl, b2, z3, d2]
      ring
    · rw [if_neg hsv, List.getElem?_set_ne hsv, add_zero]
      by_cases hiv : i = v
      · subst hiv
        exact ⟨y', by rw [List.getElem?_set_self (by omega)], a3, by rw [if_pos rfl, a2, r3]⟩
      · obtain ⟨w, w1, w2, w3⟩ := hr v hv
        exact ⟨w, by rw [List.getElem?_set_ne hiv]; exact w1, w2, by rw [if_neg hiv, add_zero, w3]⟩

end

/-- No column refers to a value that does not exist. -/
def Clean (d : IntAlias) : Prop := ∀ e ∈ d.table, e.2 < d.table.length

theorem weight_le {WT : IntTy} {ws : List Nat} (hW : ∀ x ∈ ws, x ≤ WT.maxv) (v : Nat) : ws.getD v 0 ≤ WT.maxv := by
  rw [List.getD_eq_getElem?_getD]
  cases h : ws[v]? with
  | none => simp
  | some x => exact hW x (List.mem_of_getElem? h)

theorem Holds.probabilities {WT : IntTy} {ws : List Nat} {d : IntAlias} (H : Holds WT ws d) (hW : ∀ x ∈ ws, x ≤ WT.maxv) (hC : Clean d) :
    d.probabilities WT = some ws := by
  have hcw : ∀ i, colWeight d.average d.excess i ≤ WT.maxv := by
    intro i; unfold colWeight; split
    · exact H.avg1 (by omega)
    · exact H.avg
  have h := probLoop_spec (sub := WT.sub) (gw := getWeight WT d.average d.excess) (add := WT.add) (φ := fun x : Nat => (x : ℚ))
    (g := colWeight d.average d.excess) (ok := fun x => x ≤ WT.maxv) (n := ws.length) (B := fun v => ((ws.getD v 0 : Nat) : ℚ))
    (fun x _ => Nat.cast_nonneg x)
    (fun x y hx hy hyx => by
      have hyx' : y ≤ x := by exact_mod_cast hyx
      exact ⟨x - y, sub_ok hx hyx', by push_cast [hyx']; ring, by omega⟩)
    (fun x y v hx hy hxy => by
      have h1 : x + y ≤ ws.getD v 0 := by exact_mod_cast hxy
      have h2 : x + y ≤ WT.maxv := le_trans h1 (weight_le hW v)
      exact ⟨x + y, add_ok h2, by push_cast; ring, h2⟩)
    (fun i _ => ⟨getWeight_ok WT H.avg1 i, hcw i⟩) d.table H.len
    (fun i hi => by
      obtain ⟨x, s, c1, c2, _⟩ := H.col i hi
      refine ⟨x, s, c1, le_trans c2 (hcw i), by exact_mod_cast c2, ?_⟩
      rw [← H.len]
      exact hC (x, s) (List.mem_of_getElem? c1))
    (fun v => by rw [← list_sum_range_rat]; exact H.mass v) ws.length 0 (List.replicate ws.length 0) (by omega) (by simp)
    (fun v hv => ⟨0, by rw [List.getElem?_replicate, if_pos hv], by omega, by simp⟩)
  obtain ⟨r, h1, h2, h3⟩ := h
  unfold IntAlias.probabilities
  rw [H.len]
  rw [List.drop_zero] at h1
  rw [h1]
  congr 1
  apply List.ext_getElem? 
  intro v
  by_cases hv : v < ws.length
  · obtain ⟨x, e1, _, e2⟩ := h3 v hv
    rw [e1, List.getElem?_eq_getElem hv]
    have : x = ws.getD v 0 := by exact_mod_cast e2
    rw [this, List.getD_eq_getElem?_getD, List.getElem?_eq_getElem hv]
    rfl
  · rw [List.getElem?_eq_none (by omega), List.getElem?_eq_none (by omega)]

/-- A table determines its weights, whatever was held before. -/
theorem Holds.unique {WT WT' : IntTy} {ws ws' : List Nat} {d : IntAlias} (H : Holds WT ws d) (H' : Holds WT' ws' d) : ws = ws' := by
  have hl : ws.length = ws'.length := H.len.symm.trans H'.len
  apply List.ext_getElem?
  intro v
  have h := (H.aliasMass_eq v).symm.trans (H'.aliasMass_eq v)
  unfold weightOf at h
  rw [List.getD_eq_getElem?_getD, List.getD_eq_getElem?_getD] at h
  by_cases hv : v < ws.length
  · rw [List.getElem?_eq_getElem hv, List.getElem?_eq_getElem (by omega)] at h ⊢
    simpa using h
  · rw [List.getElem?_eq_none (by omega), List.getElem?_eq_none (by omega)]

/-! ## Real weights -/

theorem realInit_entries (old : List (ℚ × Nat)) (ws : List ℚ) (h0 : ∀ x ∈ ws, 0 ≤ x) (hs : 0 < ws.sum) :
    ∃ t, realInit old ws = some t ∧ t.length = ws.length ∧
      (∀ v, ∑ i ∈ range ws.length, contrib (fun x : ℚ => x) (fun _ => 1) t i v = ws.getD v 0 * ws.length / ws.sum) ∧
      ∀ i, i < ws.length → ∃ x s, t[i]? = some (x, s) ∧ 0 ≤ x ∧ x ≤ 1 ∧ (s < ws.length ∨ x = 1 ∧ ∃ y, (resize (0 : ℚ) ws.length old)[i]? = some (y, s)) := by
  have hne : ws ≠ [] := by rintro rfl; simp at hs
  have hpos : 0 < ws.length := List.length_pos_iff.2 hne
  have hq : (0 : ℚ) < ws.length := by exact_mod_cast hpos
  have hlen : (resize (0 : ℚ) ws.length old).length = ws.length := by
    unfold resize
    rw [List.length_append, List.length_take, List.length_replicate]; omega
  have havg : 0 < ws.sum / ws.length := div_pos hs hq
  have H : Arith (fun x y : ℚ => some (x - y)) (fun _ => some 1) 1 (fun x : ℚ => x) (fun x => 0 ≤ x) (fun _ => 1) ws.length :=
    ⟨fun x hx => hx, fun x y => Iff.rfl, fun x y _ _ h => ⟨x - y, rfl, rfl, by simpa using h⟩, fun i _ => ⟨rfl, zero_le_one⟩, fun i _ => le_refl _,
      fun x _ h i _ => le_of_lt h⟩
  obtain ⟨t, b1, b2, b3, b4⟩ := build_spec H (ws.map (· / (ws.sum / ws.length))) (resize 0 ws.length old) (by simp) hlen
    (fun x hx => by
      obtain ⟨y, hy, rfl⟩ := List.mem_map.1 hx
      exact div_nonneg (h0 y hy) havg.le)
    (by
      rw [List.map_id', List.map_const', List.sum_replicate, List.length_range, nsmul_eq_mul, mul_one]
      have : ∀ (l : List ℚ) (c : ℚ), (l.map (· / c)).sum = l.sum / c := by
        intro l c
        induction l with
        | nil => simp
        | cons a l ih => rw [List.map_cons, List.sum_cons, List.sum_cons, ih, add_div]
      rw [this]
      field_simp)
  refine ⟨t, ?_, b2, fun v => ?_, fun i hi => ?_⟩
  · unfold realInit
    rw [if_neg hne]
    exact b1
  · rw [← list_sum_range_rat, b3 v, List.getElem?_map, List.getD_eq_getElem?_getD]
    cases ws[v]? with
    | none => simp
    | some x =>
      simp only [Option.map_some, Option.getD_some]
      field_simp
  · obtain ⟨x, s, c1, c2, c3, c4⟩ := b4 i hi
    exact ⟨x, s, c1, c2, c3, c4⟩

theorem realInit_spec (old : List (ℚ × Nat)) (ws : List ℚ) (h0 : ∀ x ∈ ws, 0 ≤ x) (hs : 0 < ws.sum) :
    ∃ t, realInit old ws = some t ∧ t.length = ws.length ∧
      (∀ v, ∑ i ∈ range ws.length, contrib (fun x : ℚ => x) (fun _ => 1) t i v = ws.getD v 0 * ws.length / ws.sum) ∧
      ∀ i, i < ws.length → ∃ x s, t[i]? = some (x, s) ∧ 0 ≤ x ∧ x ≤ 1 ∧ (s < ws.length ∨ x = 1) := by
  obtain ⟨t, h1, h2, h3, h4⟩ := realInit_entries old ws h0 hs
  refine ⟨t, h1, h2, h3, fun i hi => ?_⟩
  obtain ⟨x, s, c1, c2, c3, c4⟩ := h4 i hi
  exact ⟨x, s, c1, c2, c3, c4.imp id fun h => h.1⟩

theorem sum_map_div (l : List ℚ) (c : ℚ) : (l.map (· / c)).sum = l.sum / c := by
  induction l with
  | nil => simp
  | cons a l ih => rw [List.map_cons, List.sum_cons, List.sum_cons, ih, add_div]

theorem realProbabilities_spec (old : List (ℚ × Nat)) (ws : List ℚ) (h0 : ∀ x ∈ ws, 0 ≤ x) (hs : 0 < ws.sum)
    (hold : ∀ e ∈ old.take ws.length, e.2 < ws.length) :
    ∃ t, realInit old ws = some t ∧ realProbabilities t = some (realNormalize ws) ∧ t.length = ws.length ∧ ∀ e ∈ t, e.2 < ws.length := by
  obtain ⟨t, h1, h2, h3, h4⟩ := realInit_entries old ws h0 hs
  have hne : ws ≠ [] := by rintro rfl; simp at hs
  have hpos : 0 < ws.length := List.length_pos_iff.2 hne
  have hq : (0 : ℚ) < ws.length := by exact_mod_cast hpos
  have hcol : ∀ i, i < ws.length → ∃ x s, t[i]? = some (x, s) ∧ 0 ≤ x ∧ x ≤ 1 ∧ s < ws.length := by
    intro i hi
    obtain ⟨x, s, c1, c2, c3, c4⟩ := h4 i hi
    refine ⟨x, s, c1, c2, c3, ?_⟩
    rcases c4 with c | ⟨_, y, c⟩
    · exact c
    · have hm := List.mem_of_getElem? c
      unfold resize at hm
      rcases List.mem_append.1 hm with hm | hm
      · exact hold (y, s) hm
      · have := List.eq_of_mem_replicate hm
        rw [Prod.mk.injEq] at this
        rw [this.2]; exact hpos
  obtain ⟨r, r1, r2, r3⟩ := probLoop_spec (sub := fun x y : ℚ => some (x - y)) (gw := fun _ => some 1) (add := fun x y => some (x + y))
    (φ := fun x : ℚ => x) (g := fun _ => 1) (ok := fun x => 0 ≤ x) (n := ws.length) (B := fun v => ws.getD v 0 * ws.length / ws.sum)
    (fun x hx => hx) (fun x y _ _ h => ⟨x - y, rfl, rfl, by simpa using h⟩) (fun x y _ hx hy _ => ⟨x + y, rfl, rfl, add_nonneg hx hy⟩)
    (fun i _ => ⟨rfl, zero_le_one⟩) t h2 hcol h3 ws.length 0 (List.replicate ws.length 0) (by omega) (by simp)
    (fun v hv => ⟨0, by rw [List.getElem?_replicate, if_pos hv], le_refl _, by simp⟩)
  rw [List.drop_zero] at r1
  have hr : r = ws.map (· / (ws.sum / ws.length)) := by
    apply List.ext_getElem?
    intro v
    by_cases hv : v < ws.length
    · obtain ⟨x, e1, _, e2⟩ := r3 v hv
      rw [e1, List.getElem?_map, List.getElem?_eq_getElem hv]
      rw [List.getD_eq_getElem?_getD, List.getElem?_eq_getElem hv] at e2
      simp only [Option.map_some, Option.some.injEq]
      simp only [Option.getD_some] at e2
      rw [e2]
      field_simp
    · rw [List.getElem?_eq_none (by omega), List.getElem?_eq_none (by simp; omega)]
  refine ⟨t, h1, ?_, h2, ?_⟩
  · unfold realProbabilities
    rw [h2, r1, hr]
    simp only [Option.map_some, realNormalize, List.map_map, sum_map_div]
    congr 1
    apply List.map_congr_left
    intro x _
    simp only [Function.comp]
    field_simp
  · intro e he
    obtain ⟨i, hi, rfl⟩ := List.mem_iff_getElem.1 he
    obtain ⟨x, s, c1, _, _, c2⟩ := hcol i (by omega)
    rw [List.getElem?_eq_getElem hi] at c1
    rw [Option.some.inj c1]
    exact c2

/-! ## `operator()(urng, parm)` -/

theorem tryGetSum_zero (WT : IntTy) (ws : List Nat) (h : ws.head? ≠ some WT.maxv) (hW : ∀ x ∈ ws, x ≤ WT.maxv) : tryGetSum WT ws 0 = some 0 := by
  cases ws with
  | nil => rfl
  | cons x ws =>
    have h1 := hW x (by simp)
    simp only [List.head?_cons, ne_eq, Option.some.injEq] at h
    unfold tryGetSum
    rw [if_pos (by omega)]

theorem callWith_eq (E : EngInfo) (WT T : IntTy) (ws : List Nat) (h : ws.head? ≠ some WT.maxv) (hW : ∀ x ∈ ws, x ≤ WT.maxv) {d : IntAlias}
    (hd : IntAlias.make WT T ws = some d) (xs : List Int) : callWith E WT T ws xs = IntAlias.next E WT T d xs := by
  unfold callWith
  rw [tryGetSum_zero WT ws h hW]
  simp only [hd]

theorem tryGetSum_max (WT : IntTy) : ∀ (ws : List Nat), (∀ x ∈ ws, x = 0) → tryGetSum WT ws WT.maxv = some WT.maxv
  | [], _ => rfl
  | x :: ws, h => by
    have hx := h x (by simp)
    subst hx
    unfold tryGetSum
    rw [if_neg (by omega), add_ok (by omega)]
    exact tryGetSum_max WT ws fun y hy => h y (by simp [hy])

end Discrete
end Boost.Random
