import Verif.Proofs.DiscreteProb
import Verif.Props.IndependentBits

/-!
# Properties C41, C42, C43: `discrete_distribution`
-/

namespace Boost.Random
open Spec Discrete Finset

/-! ## C41 -/

/-- C41: whatever the object held before, building the table neither overflows nor leaves it, and of the pairs of a column `i` and a
test value that are accepted, out of all pairs, exactly `weight(v)` give the value `v`. -/
theorem c41_table (WT T : IntTy) (old : IntAlias) (ws : List Nat) (hne : ws ≠ []) (hT : ws.length ≤ T.maxv) (hW : ∀ x ∈ ws, x ≤ WT.maxv) :
    ∃ d, IntAlias.init WT T old ws = some d ∧ d.table.length = ws.length ∧
      (∀ v, ((range ws.length ×ˢ range (d.average + 1)).filter fun p => (p.1 < d.excess ∨ p.2 < d.average) ∧
        aliasPick d.table p.1 p.2 = some v).card = weightOf ws v) ∧
      ((range ws.length ×ˢ range (d.average + 1)).filter fun p => p.1 < d.excess ∨ p.2 < d.average).card = ws.sum := by
  obtain ⟨d, h1, H, _⟩ := init_spec WT T old ws hne hT hW
  have hsz : ∀ i t, (t < d.average + 1 ∧ (i < d.excess ∨ t < d.average)) ↔ t < colWeight d.average d.excess i := by
    intro i t; unfold colWeight; split <;> omega
  refine ⟨d, h1, H.len, fun v => ?_, ?_⟩
  · rw [← H.aliasMass_eq, aliasMass, H.len, card_filter, sum_product]
    apply sum_congr rfl
    intro i _
    rw [← card_filter]
    refine congrArg Finset.card (Finset.ext fun t => ?_)
    rw [Finset.mem_filter, Finset.mem_filter, mem_range, mem_range, ← hsz, ← and_assoc]
  · rw [← H.sum, ← sum_colWeight _ _ _ (le_of_lt H.excess), list_sum_range, card_filter, sum_product]
    apply sum_congr rfl
    intro i _
    rw [← card_filter]
    rw [show ((range (d.average + 1)).filter fun t => i < d.excess ∨ t < d.average) = range (colWeight d.average d.excess i) from
      Finset.ext fun t => by rw [Finset.mem_filter, mem_range, mem_range, hsz], card_range]

example : IntAlias.make ⟨32, true⟩ ⟨32, true⟩ [3, 0, 9, 1, 4] = some ⟨[(3, 2), (0, 2), (2, 4), (1, 2), (3, 0)], 3, 2⟩ := by decide +kernel

/-- C41: for all engines, `operator()` has no undefined behaviour, returns numbers of weights, and among the tuples of engine values of any
length that it reads exactly, the numbers of those giving `v` and `v'` are as their weights. -/
theorem c41_sampling (E : EngInfo) (hE : EngOK E) (WT T : IntTy) (hWb : 1 ≤ WT.bits) (hTb : 1 ≤ T.bits) (old : IntAlias) (ws : List Nat)
    (hne : ws ≠ []) (hT : ws.length ≤ T.maxv) (hW : ∀ x ∈ ws, x ≤ WT.maxv) :
    ∃ d, IntAlias.init WT T old ws = some d ∧
      (∀ xs, Outputs E xs → IntAlias.next E WT T d xs ≠ .ub ∧
        ∀ v rest, IntAlias.next E WT T d xs = .done v rest → v < ws.length ∧ rest <:+ xs) ∧
      (∀ N v v', count E (IntAlias.next E WT T d) N v * weightOf ws v' = count E (IntAlias.next E WT T d) N v' * weightOf ws v) ∧
      (∀ N v, weightOf ws v = 0 → count E (IntAlias.next E WT T d) N v = 0) ∧
      ∀ v, 0 < weightOf ws v → ∃ N, 0 < count E (IntAlias.next E WT T d) N v := by
  obtain ⟨d, h1, H, _⟩ := init_spec WT T old ws hne hT hW
  refine ⟨d, h1, fun xs hxs => loop_range hE hWb hTb H hT _ xs hxs, fun N v v' => ?_, fun N v hv => ?_, fun v hv => ?_⟩
  · rw [count_next hE hWb hTb H hT, count_next hE hWb hTb H hT]; ring
  · rw [count_next hE hWb hTb H hT, hv, Nat.mul_zero]
  · obtain ⟨N, hN⟩ := hits_pos hE hWb hTb H hT
    exact ⟨N, by rw [count_next hE hWb hTb H hT]; exact Nat.mul_pos hN hv⟩

example : ∃ d, IntAlias.make ⟨32, true⟩ ⟨32, true⟩ [3, 0, 1] = some d ∧ count die (IntAlias.next die ⟨32, true⟩ ⟨32, true⟩ d) 2 0 = 18 ∧
    count die (IntAlias.next die ⟨32, true⟩ ⟨32, true⟩ d) 2 2 = 6 := by
  refine ⟨⟨[(2, 0), (0, 0), (1, 0)], 1, 1⟩, by decide +kernel, by decide +kernel, by decide +kernel⟩

/-- C41: `operator()` is the loop of the source: it draws a column and a test value, returns if they are accepted and otherwise starts again
with the values not read yet. If the weights have a positive sum each iteration reads at least one value, so that the bound on the
iterations in the model is never met. -/
theorem c41_loop (E : EngInfo) (hE : EngOK E) (WT T : IntTy) (hWb : 1 ≤ WT.bits) (hTb : 1 ≤ T.bits) (old : IntAlias) (ws : List Nat)
    (hT : ws.length ≤ T.maxv) (hW : ∀ x ∈ ws, x ≤ WT.maxv) (hs : 0 < ws.sum) :
    ∃ d, IntAlias.init WT T old ws = some d ∧ ∀ xs, Outputs E xs →
      IntAlias.next E WT T d xs =
        match UniformInt.generate E T 0 ((ws.length : Int) - 1) xs with
        | .ub => .ub
        | .more => .more
        | .done i xs =>
          match UniformInt.generate E WT 0 d.average xs with
          | .ub => .ub
          | .more => .more
          | .done t xs =>
            if i.toNat < d.excess ∨ t.toNat < d.average then
              match aliasPick d.table i.toNat t.toNat with
              | none => .ub
              | some v => .done v xs
            else IntAlias.next E WT T d xs := by
  have hne : ws ≠ [] := by rintro rfl; simp at hs
  obtain ⟨d, h1, H, _⟩ := init_spec WT T old ws hne hT hW
  refine ⟨d, h1, fun xs hxs => ?_⟩
  have hpos : 0 < d.table.length := by rw [H.len]; have := H.excess; omega
  have hstep : ∀ i xs' t xs'', UniformInt.generate E T 0 ((d.table.length : Int) - 1) xs = .done i xs' →
      UniformInt.generate E WT 0 d.average xs' = .done t xs'' → xs''.length < xs.length ∧ Outputs E xs'' := by
    intro i xs' t xs'' g1 g2
    have hc : ((d.table.length : Int) - 1) = ((d.table.length - 1 : Nat) : Int) := by omega
    have hP1 : ParamOK T 0 (((d.table.length - 1 : Nat)) : Int) := paramOK hTb (by rw [H.len]; omega)
    have hP2 : ParamOK WT 0 ((d.average : Nat) : Int) := paramOK hWb H.avg
    have hl : ((d.table.length - 1 : Nat) : Int).toNat + 1 = d.table.length := by omega
    rw [hc, UniformInt.generate_zero hE hP1 xs hxs, hl] at g1
    cases k1 : UniformInt.K E.b (dig E) d.table.length xs with
    | more => rw [k1] at g1; cases g1
    | ub => rw [k1] at g1; cases g1
    | done i0 r =>
      rw [k1] at g1
      simp only [Draw.map, Draw.done.injEq] at g1
      obtain ⟨_, rfl⟩ := g1
      obtain ⟨_, hsuf⟩ := UniformInt.K_done_lt hE hpos hxs k1
      have hxs' : Outputs E r := fun z hz => hxs z (hsuf.subset hz)
      rw [UniformInt.generate_zero hE hP2 r hxs'] at g2
      cases k2 : UniformInt.K E.b (dig E) (((d.average : Nat) : Int).toNat + 1) r with
      | more => rw [k2] at g2; cases g2
      | ub => rw [k2] at g2; cases g2
      | done t0 r2 =>
        rw [k2] at g2
        simp only [Draw.map, Draw.done.injEq] at g2
        obtain ⟨_, rfl⟩ := g2
        obtain ⟨_, hsuf2⟩ := UniformInt.K_done_lt hE (Nat.succ_pos _) hxs' k2
        refine ⟨?_, fun z hz => hxs' z (hsuf2.subset hz)⟩
        refine one_reads hE hWb hTb H hT hs xs hxs (res d i0 t0) r2 ?_
        unfold one
        rw [k1]
        simp only [Draw.bind]
        rw [Int.toNat_natCast] at k2
        rw [k2]
  conv_lhs => unfold IntAlias.next IntAlias.loop
  rw [← H.len]
  cases g1 : UniformInt.generate E T 0 ((d.table.length : Int) - 1) xs with
  | more => rfl
  | ub => rfl
  | done i xs' =>
    cases g2 : UniformInt.generate E WT 0 d.average xs' with
    | more => simp only [g2]
    | ub => simp only [g2]
    | done t xs'' =>
      simp only [g2]
      obtain ⟨hlt, hO⟩ := hstep i xs' t xs'' g1 g2
      split
      · unfold aliasPick
        cases d.table[i.toNat]? <;> rfl
      · unfold IntAlias.next
        exact loop_fuel hE hWb hTb H hT hs _ _ xs'' hO (by omega) (by omega)

/-- C41: an empty list of weights is as `{1}`: the only value is 0. -/
theorem c41_empty (E : EngInfo) (hE : EngOK E) (WT T : IntTy) (hWb : 1 ≤ WT.bits) (hTb : 1 ≤ T.bits) (hW1 : 1 ≤ WT.maxv) (hT1 : 1 ≤ T.maxv)
    (old : IntAlias) : ∃ d, IntAlias.init WT T old [] = some d ∧ d.probabilities WT = some [1] ∧
      ∀ xs, Outputs E xs → IntAlias.next E WT T d xs ≠ .ub ∧ ∀ v rest, IntAlias.next E WT T d xs = .done v rest → v = 0 := by
  have H := empty_holds WT hW1
  refine ⟨IntAlias.empty, rfl, H.probabilities (by simpa using hW1) (by unfold Clean; decide), fun xs hxs => ?_⟩
  have h := loop_range hE hWb hTb H hT1 (xs.length + 1) xs hxs
  refine ⟨h.1, fun v rest hv => ?_⟩
  have := (h.2 v rest hv).1
  simpa using this

example : IntAlias.next die ⟨32, true⟩ ⟨32, true⟩ IntAlias.empty [6, 5, 1, 4] = .done 0 [4] := by decide +kernel

/-- C41, real weights (over the rationals): whatever was held before, building a table from weights with a positive sum does not leave it;
for a column `i` and a test value in `[0, 1)` it gives the number of a weight; and if the test values are the multiples of `1/M` in `[0, 1)`,
with `M` such that all thresholds are among them or 1, the share of the pairs that give `v` is `weight(v)/sum`. -/
theorem c41_real_weights (old : List (ℚ × Nat)) (ws : List ℚ) (h0 : ∀ x ∈ ws, 0 ≤ x) (hs : 0 < ws.sum) :
    ∃ t, realInit old ws = some t ∧ t.length = ws.length ∧
      (∀ i test, i < ws.length → 0 ≤ test → test < 1 → ∃ v, realPick t i test = some v ∧ v < ws.length) ∧
      (∃ M : Nat, 0 < M ∧ ∀ e ∈ t, ∃ m : Nat, e.1 * M = m) ∧
      ∀ M : Nat, 0 < M → (∀ e ∈ t, ∃ m : Nat, e.1 * M = m) → ∀ v,
        (((range ws.length ×ˢ range M).filter fun p => realPick t p.1 ((p.2 : ℚ) / M) = some v).card : ℚ) * ws.sum =
          (ws.length * M : Nat) * ws.getD v 0 := by
  obtain ⟨t, h1, h2, h3, h4⟩ := realInit_spec old ws h0 hs
  have hn0 : 0 < ws.length := List.length_pos_iff.2 (by rintro rfl; simp at hs)
  refine ⟨t, h1, h2, fun i test hi ht0 ht1 => ?_, ?_, fun M hM hd v => ?_⟩
  · obtain ⟨x, s, c1, c2, c3, c4⟩ := h4 i hi
    refine ⟨if test < x then i else s, by simp only [realPick, c1, Option.map_some], ?_⟩
    split
    · exact hi
    · rcases c4 with c | c
      · exact c
      · linarith
  · refine ⟨(t.map fun e => e.1.den).prod, ?_, fun e he => ?_⟩
    · apply Nat.pos_of_ne_zero
      rw [ne_eq, List.prod_eq_zero_iff]
      intro ha
      obtain ⟨e, _, he⟩ := List.mem_map.1 ha
      exact e.1.den_nz he
    · obtain ⟨k, hk⟩ := List.dvd_prod (List.mem_map_of_mem (f := fun e : ℚ × Nat => e.1.den) he)
      obtain ⟨i, hi, rfl⟩ := List.mem_iff_getElem.1 he
      obtain ⟨x, s, c1, c2, _⟩ := h4 i (by rw [← h2]; exact hi)
      have hx : t[i] = (x, s) := by
        rw [List.getElem?_eq_getElem hi] at c1
        exact Option.some.inj c1
      rw [hx] at hk ⊢
      simp only at hk ⊢
      refine ⟨x.num.toNat * k, ?_⟩
      rw [hk]
      push_cast
      rw [← mul_assoc, Rat.mul_den_eq_num]
      congr 1
      have : 0 ≤ x.num := Rat.num_nonneg.2 c2
      exact_mod_cast (Int.toNat_of_nonneg this).symm
  · have hM0 : (0 : ℚ) < M := by exact_mod_cast hM
    rw [card_filter, sum_product]
    have e : ∀ i ∈ range ws.length, ((∑ k ∈ range M, if realPick t i ((k : ℚ) / M) = some v then 1 else 0 : Nat) : ℚ) =
        contrib (fun x : ℚ => x) (fun _ => 1) t i v * M := by
      intro i hi
      obtain ⟨x, s, c1, c2, c3, _⟩ := h4 i (mem_range.1 hi)
      obtain ⟨m, hm⟩ := hd (x, s) (List.mem_of_getElem? c1)
      simp only at hm
      have hmM : m ≤ M := by
        have : (m : ℚ) ≤ M := by rw [← hm]; nlinarith
        exact_mod_cast this
      rw [← card_filter]
      have e1 : ((range M).filter fun k : Nat => realPick t i ((k : ℚ) / M) = some v) = (range M).filter fun k => (if k < m then i else s) = v := by
        apply filter_congr
        intro k _
        simp only [realPick, c1, Option.map_some, Option.some.injEq]
        have : (k : ℚ) / M < x ↔ k < m := by
          rw [div_lt_iff₀ hM0, hm]; exact_mod_cast Iff.rfl
        simp only [this]
      rw [e1, card_pick i s m M v hmM]
      unfold contrib
      simp only [c1]
      push_cast [hmM]
      rw [← hm]
      split <;> split <;> ring
    push_cast at e ⊢
    rw [sum_congr rfl e, ← sum_mul, h3 v]
    field_simp

example : realInit [] [1, 1/2, 3] = some [(2/3, 2), (1/3, 2), (1, 0)] := by
  unfold realInit
  rw [if_neg (by simp)]
  norm_num [build, resize, pairLoop, fillRest, List.zipIdx, List.filter, List.replicate]

/-! ## C42 -/

/-- C42: whatever was held before, two distributions that compare equal hold the same weights. -/
theorem c42_eq_sound (WT T : IntTy) (old old' : IntAlias) (ws ws' : List Nat) (hne : ws ≠ []) (hne' : ws' ≠ []) (hT : ws.length ≤ T.maxv)
    (hT' : ws'.length ≤ T.maxv) (hW : ∀ x ∈ ws, x ≤ WT.maxv) (hW' : ∀ x ∈ ws', x ≤ WT.maxv)
    (h : IntAlias.init WT T old ws = IntAlias.init WT T old' ws') : ws = ws' := by
  obtain ⟨d, h1, H, _⟩ := init_spec WT T old ws hne hT hW
  obtain ⟨d', h1', H', _⟩ := init_spec WT T old' ws' hne' hT' hW'
  have : d = d' := Option.some.inj (h1.symm.trans (h.trans h1'))
  subst this
  exact H.unique H'

example : IntAlias.init ⟨32, true⟩ ⟨32, true⟩ ⟨[(7, 1), (2, 0)], 4, 1⟩ [4, 3] = some ⟨[(4, 1), (3, 0)], 3, 1⟩ ∧
    IntAlias.init ⟨32, true⟩ ⟨32, true⟩ ⟨[(0, 1), (9, 0), (4, 0)], 4, 1⟩ [4, 3] = some ⟨[(4, 1), (3, 0)], 3, 1⟩ := by decide +kernel

/-- C42 (partial: the object is new, or the columns kept of its old table do not refer to values the new parameters do not have, as is
the case whenever it had no more weights than it has now): `probabilities()` returns the weights, and only accesses its own tables. Missing:
objects that had more weights, see `c42_roundtrip_false`. -/
theorem c42_roundtrip_partial (WT T : IntTy) (old : IntAlias) (ws : List Nat) (hne : ws ≠ []) (hT : ws.length ≤ T.maxv) (hW : ∀ x ∈ ws, x ≤ WT.maxv)
    (hold : ∀ e ∈ old.table.take ws.length, e.2 < ws.length) :
    ∃ d, IntAlias.init WT T old ws = some d ∧ d.probabilities WT = some ws ∧ ∀ e ∈ d.table, e.2 < ws.length := by
  obtain ⟨d, h1, H, h2⟩ := init_spec WT T old ws hne hT hW
  have hpos : 0 < ws.length := List.length_pos_iff.2 hne
  have hC : ∀ e ∈ d.table, e.2 < ws.length := by
    intro e he
    obtain ⟨i, hi, rfl⟩ := List.mem_iff_getElem.1 he
    obtain ⟨x, s, c1, c2⟩ := h2 i (by rw [← H.len]; exact hi)
    have : d.table[i] = (x, s) := by
      rw [List.getElem?_eq_getElem hi] at c1
      exact Option.some.inj c1
    rw [this]
    rcases c2 with c | ⟨y, c⟩
    · exact c
    · have hm := List.mem_of_getElem? c
      unfold resize at hm
      rcases List.mem_append.1 hm with hm | hm
      · exact hold (y, s) hm
      · have := List.eq_of_mem_replicate hm
        rw [Prod.mk.injEq] at this
        rw [this.2]; exact hpos
  exact ⟨d, h1, H.probabilities hW (by unfold Clean; rw [H.len]; exact hC), hC⟩

/-- C42 (partial): any number of calls of `param()` on a new object, none with fewer weights than the one before. Missing: calls with fewer
weights, see `c42_roundtrip_false`. -/
theorem c42_history_partial (WT T : IntTy) : ∀ (history : List (List Nat)) (old : IntAlias) (n : Nat),
    (∀ e ∈ old.table, e.2 < n) → (∀ ws ∈ history, ws ≠ [] ∧ n ≤ ws.length ∧ ws.length ≤ T.maxv ∧ ∀ x ∈ ws, x ≤ WT.maxv) →
    history.Pairwise (fun a b => a.length ≤ b.length) →
    ∃ d, history.foldlM (IntAlias.init WT T) old = some d ∧ ∀ ws ∈ history.getLast?, d.probabilities WT = some ws
  | [], old, n, _, _, _ => ⟨old, rfl, by simp⟩
  | ws :: history, old, n, hold, hh, hp => by
    obtain ⟨a1, a2, a3, a4⟩ := hh ws (by simp)
    rw [List.pairwise_cons] at hp
    obtain ⟨d, h1, h2, h3⟩ := c42_roundtrip_partial WT T old ws a1 a3 a4
      (fun e he => lt_of_lt_of_le (hold e (List.mem_of_mem_take he)) a2)
    obtain ⟨d', g1, g2⟩ := c42_history_partial WT T history d ws.length h3
      (fun w hw => ⟨(hh w (by simp [hw])).1, hp.1 w hw, (hh w (by simp [hw])).2.2⟩) hp.2
    refine ⟨d', ?_, ?_⟩
    · rw [List.foldlM_cons, h1]; exact g1
    · cases history with
      | nil =>
        simp only [List.foldlM_nil] at g1
        have : d = d' := Option.some.inj g1
        subst this
        simpa using h2
      | cons w ws' =>
        rw [List.getLast?_cons_cons]
        exact g2

example : ([[3, 4], [1, 1, 5], [0, 2, 2]].foldlM (IntAlias.init ⟨32, true⟩ ⟨32, true⟩) ⟨[], 0, 0⟩).bind (IntAlias.probabilities ⟨32, true⟩) =
    some [0, 2, 2] := by decide +kernel

/-- C42 is false: after `param({7})` an object that held `{0, 0, 5}` has a column that refers to the value 2; `probabilities()` accesses
element 2 of a vector of one element, and the object does not compare equal to a new one with the same parameters. -/
theorem c42_roundtrip_false : ∃ d d', [[0, 0, 5], [7]].foldlM (IntAlias.init ⟨32, true⟩ ⟨32, true⟩) ⟨[], 0, 0⟩ = some d ∧
    IntAlias.make ⟨32, true⟩ ⟨32, true⟩ [7] = some d' ∧ d.probabilities ⟨32, true⟩ = none ∧ d ≠ d' :=
  ⟨⟨[(7, 2)], 7, 0⟩, ⟨[(7, 0)], 7, 0⟩, by decide +kernel, by decide +kernel, by decide +kernel, by decide +kernel⟩

/-! ## C43 -/

/-- C43 (partial: the first weight is not the greatest value of its type, or no other weight is positive): a call with explicit parameters
has no undefined behaviour, returns the number of a weight, and has the probabilities of the parameters; no parameters are as `{1}`. The
sum of the weights may exceed the type. Missing: see `c43_max_first_false`. -/
theorem c43_callWith_partial (E : EngInfo) (hE : EngOK E) (WT T : IntTy) (hWb : 1 ≤ WT.bits) (hTb : 1 ≤ T.bits) (ws : List Nat)
    (hT : ws.length ≤ T.maxv) (hW : ∀ x ∈ ws, x ≤ WT.maxv) (hW1 : 1 ≤ WT.maxv) (hT1 : 1 ≤ T.maxv)
    (hfirst : ws.head? = some WT.maxv → ∀ x ∈ ws.tail, x = 0) :
    let p := if ws = [] then [1] else ws
    (∀ xs, Outputs E xs → callWith E WT T ws xs ≠ .ub ∧ ∀ v rest, callWith E WT T ws xs = .done v rest → v < p.length) ∧
    (∀ N v v', count E (callWith E WT T ws) N v * weightOf p v' = count E (callWith E WT T ws) N v' * weightOf p v) ∧
    (∀ N v, weightOf p v = 0 → count E (callWith E WT T ws) N v = 0) ∧
    ∀ v, 0 < weightOf p v → ∃ N, 0 < count E (callWith E WT T ws) N v := by
  intro p
  by_cases hf1 : ws.head? = some WT.maxv
  · cases ws with
    | nil => simp at hf1
    | cons m ws =>
      simp only [List.head?_cons, Option.some.injEq] at hf1
      subst hf1
      have hz : ∀ x ∈ ws, x = 0 := hfirst rfl
      have hp : p = WT.maxv :: ws := rfl
      have hw : ∀ v, v ≠ 0 → weightOf p v = 0 := by
        intro v hv
        rw [hp]
        unfold weightOf
        obtain ⟨u, rfl⟩ := Nat.exists_eq_succ_of_ne_zero hv
        rw [List.getD_eq_getElem?_getD, List.getElem?_cons_succ]
        cases h : ws[u]? with
        | none => rfl
        | some x => exact hz x (List.mem_of_getElem? h)
      have hw0 : weightOf p 0 = WT.maxv := rfl
      have hsum : tryGetSum WT (WT.maxv :: ws) 0 = some WT.maxv := by
        unfold tryGetSum
        rw [if_neg (by omega), add_ok (by omega), Nat.zero_add]
        exact tryGetSum_max WT ws hz
      have hc : ((WT.maxv : Int) - 1) = ((WT.maxv - 1 : Nat) : Int) := by omega
      have hP : ParamOK WT 0 (((WT.maxv - 1 : Nat)) : Int) := paramOK hWb (by omega)
      have hK : ∀ xs, Outputs E xs → callWith E WT T (WT.maxv :: ws) xs = (UniformInt.K E.b (dig E) WT.maxv xs).map fun _ => 0 := by
        intro xs hxs
        unfold callWith
        rw [hsum]
        obtain ⟨m, hm⟩ : ∃ m, WT.maxv = m + 1 := ⟨WT.maxv - 1, by omega⟩
        rw [hm] at hc hP ⊢
        simp only
        rw [hc, UniformInt.generate_zero hE hP xs hxs, show ((m + 1 - 1 : Nat) : Int).toNat + 1 = m + 1 by omega]
        cases hk : UniformInt.K E.b (dig E) (m + 1) xs with
        | more => rfl
        | ub => rfl
        | done u rest =>
          have hu := (UniformInt.K_done_lt hE (Nat.succ_pos _) hxs hk).1
          simp only [Draw.map, Int.toNat_natCast]
          have : scan WT u ((m + 1) :: ws) 0 0 = some (some 0) := by
            unfold scan
            rw [add_ok (by omega)]
            simp only [Option.bind_some]
            rw [if_pos (by omega)]
          rw [this]
      have hrange : ∀ xs, Outputs E xs → callWith E WT T (WT.maxv :: ws) xs ≠ .ub ∧
          ∀ v rest, callWith E WT T (WT.maxv :: ws) xs = .done v rest → v = 0 := by
        intro xs hxs
        rw [hK xs hxs]
        cases hk : UniformInt.K E.b (dig E) WT.maxv xs with
        | more => simp [Draw.map]
        | ub => exact absurd hk (UniformInt.core_rest (UniformInt.EngInfo.b_ge hE) _ _ xs (UniformInt.outputs_dig hE hxs) (by omega)).2
        | done u rest =>
          refine ⟨by simp [Draw.map], fun v r h => ?_⟩
          simp only [Draw.map, Draw.done.injEq] at h
          exact h.1.symm
      have hzero : ∀ N v, v ≠ 0 → count E (callWith E WT T (WT.maxv :: ws)) N v = 0 := by
        intro N v hv
        rw [count_eq_cnt]
        exact cnt_eq_zero hE.lt.le N v _ fun xs hxs h => hv ((hrange xs hxs).2 v [] h)
      refine ⟨fun xs hxs => ⟨(hrange xs hxs).1, fun v rest h => ?_⟩, fun N v v' => ?_, fun N v hv => ?_, fun v hv => ?_⟩
      · rw [(hrange xs hxs).2 v rest h, hp]; simp
      · by_cases hv : v = 0
        · by_cases hv' : v' = 0
          · rw [hv, hv']
          · rw [hw v' hv', hzero N v' hv']; simp
        · by_cases hv' : v' = 0
          · rw [hw v hv, hzero N v hv]; simp
          · rw [hw v' hv', hw v hv]; simp
      · apply hzero
        rintro rfl
        omega
      · have hv0 : v = 0 := by
          by_contra h
          have := hw v h
          omega
        subst hv0
        obtain ⟨xs, h1, h2⟩ := UniformInt.K_zero hE WT.maxv (by omega)
        refine ⟨xs.length, ?_⟩
        rw [count_eq_cnt]
        apply UniformInt.cnt_pos _ xs h1
        rw [hK xs h1, h2]
        rfl
  obtain ⟨d, h1, H⟩ : ∃ d, IntAlias.make WT T ws = some d ∧ Holds WT p d := by
    by_cases he : ws = []
    · subst he
      exact ⟨IntAlias.empty, rfl, empty_holds WT hW1⟩
    · obtain ⟨d, h1, H, _⟩ := init_spec WT T ⟨[], 0, 0⟩ ws he hT hW
      exact ⟨d, h1, by simp only [p, if_neg he]; exact H⟩
  have hTp : p.length ≤ T.maxv := by
    simp only [p]; split
    · exact hT1
    · exact hT
  have hf : callWith E WT T ws = IntAlias.next E WT T d := funext fun xs => callWith_eq E WT T ws hf1 hW h1 xs
  rw [hf]
  refine ⟨fun xs hxs => ⟨(loop_range hE hWb hTb H hTp _ xs hxs).1, fun v rest h => ((loop_range hE hWb hTb H hTp _ xs hxs).2 v rest h).1⟩,
    fun N v v' => ?_, fun N v hv => ?_, fun v hv => ?_⟩
  · rw [count_next hE hWb hTb H hTp, count_next hE hWb hTb H hTp]; ring
  · rw [count_next hE hWb hTb H hTp, hv, Nat.mul_zero]
  · obtain ⟨N, hN⟩ := hits_pos hE hWb hTb H hTp
    exact ⟨N, by rw [count_next hE hWb hTb H hTp]; exact Nat.mul_pos hN hv⟩

example : callWith eng4 ⟨32, true⟩ ⟨32, true⟩ [3, 2 ^ 31 - 1] [14, 1, 9, 1, 1, 1, 1, 1, 1, 5, 7] = .done 1 [5, 7] := by decide +kernel

/-- C43: the search by partial sums, on its own: it finds the value whose share of `0 .. sum-1` contains `val`. (`try_get_sum` sends weights to it only if the
first is the largest number of the type, see below.) -/
theorem c43_scan (WT : IntTy) (ws : List Nat) (val : Nat) (hv : val < ws.sum) (hs : ws.sum ≤ WT.maxv) :
    ∃ i < ws.length, scan WT val ws 0 0 = some (some i) ∧ (ws.take i).sum ≤ val ∧ val < (ws.take (i + 1)).sum := by
  suffices h : ∀ (ws : List Nat) (sum r : Nat), sum ≤ val → val < sum + ws.sum → sum + ws.sum ≤ WT.maxv →
      ∃ i < ws.length, scan WT val ws sum r = some (some (r + i)) ∧ sum + (ws.take i).sum ≤ val ∧ val < sum + (ws.take (i + 1)).sum by
    simpa using h ws 0 0 (Nat.zero_le _) (by omega) (by omega)
  intro ws
  induction ws with
  | nil => intro sum r h1 h2; simp at h2; omega
  | cons x xs ih =>
    intro sum r h1 h2 h3
    rw [List.sum_cons] at h2 h3
    unfold scan
    rw [add_ok (by omega), Option.bind_some]
    by_cases h : sum + x > val
    · exact ⟨0, by simp, by rw [if_pos h]; rfl, by simpa using h1, by simpa using h⟩
    · obtain ⟨i, i1, i2, i3, i4⟩ := ih (sum + x) (r + 1) (by omega) (by omega) (by omega)
      refine ⟨i + 1, by simpa using i1, by rw [if_neg h, i2]; congr 2; omega, ?_, ?_⟩
      · rw [List.take_succ_cons, List.sum_cons]; omega
      · rw [List.take_succ_cons, List.sum_cons]; omega

example : scan ⟨32, false⟩ 3 [2, 1, 0, 4] 0 0 = some (some 3) := by decide

/-- C43 is false: with weights `{2^32-1, 5}` of a 32-bit unsigned type the sum wraps around to 4 and the value 1 is never returned; with
weights `{2^31-1, 5}` of a 32-bit signed type the sum overflows. -/
theorem c43_max_first_false (E : EngInfo) (hE : EngOK E) (T : IntTy) (xs : List Int) (hxs : Outputs E xs) :
    (∀ rest, callWith E ⟨32, false⟩ T [2 ^ 32 - 1, 5] xs ≠ .done 1 rest) ∧ callWith E ⟨32, true⟩ T [2 ^ 31 - 1, 5] xs = .ub := by
  constructor
  · intro rest h
    have h0 : tryGetSum ⟨32, false⟩ [2 ^ 32 - 1, 5] 0 = some 4 := by decide +kernel
    unfold callWith at h
    rw [h0] at h
    simp only at h
    have hP : ParamOK ⟨32, false⟩ 0 ((3 : Nat) : Int) := ⟨by decide, by decide, by decide, by decide⟩
    rw [show ((4 : Nat) : Int) - 1 = ((3 : Nat) : Int) by norm_num, UniformInt.generate_zero hE hP xs hxs] at h
    cases hk : UniformInt.K E.b (dig E) (((3 : Nat) : Int).toNat + 1) xs with
    | more => rw [hk] at h; simp [Draw.map] at h
    | ub => rw [hk] at h; simp [Draw.map] at h
    | done u r =>
      have hu : u < 4 := (UniformInt.K_done_lt hE (Nat.succ_pos _) hxs hk).1
      rw [hk] at h
      simp only [Draw.map, Int.toNat_natCast] at h
      have : scan ⟨32, false⟩ u [2 ^ 32 - 1, 5] 0 0 = some (some 0) := by
        unfold scan
        rw [show IntTy.add ⟨32, false⟩ 0 (2 ^ 32 - 1) = some 4294967295 from rfl]
        simp only [Option.bind_some]
        rw [if_pos (by omega)]
      rw [this] at h
      simp at h
  · have h0 : tryGetSum ⟨32, true⟩ [2 ^ 31 - 1, 5] 0 = none := by decide +kernel
    unfold callWith
    rw [h0]

/-- C43 is false: with real weights and no parameters, which are as `{1}`, the result is -1, not 0. -/
theorem c43_real_empty_false (val : ℚ) : realCallWith val (realNormalize []) 0 0 = -1 := rfl

/-- C42, real weights: `param()` of an object gives back the weights divided by their sum, in exact arithmetic, whatever the object held
before, as long as that was not more weights. -/
theorem c42_real_roundtrip_partial (old : List (ℚ × Nat)) (ws : List ℚ) (h0 : ∀ x ∈ ws, 0 ≤ x) (hs : 0 < ws.sum)
    (hold : ∀ e ∈ old.take ws.length, e.2 < ws.length) :
    ∃ t, realInit old ws = some t ∧ realProbabilities t = some (ws.map (· / ws.sum)) :=
  let ⟨t, h1, h2, _, _⟩ := realProbabilities_spec old ws h0 hs hold
  ⟨t, h1, h2⟩

#guard (realInit [] [1, 0, 5]).bind realProbabilities = some [1 / 6, 0, 5 / 6]

end Boost.Random
