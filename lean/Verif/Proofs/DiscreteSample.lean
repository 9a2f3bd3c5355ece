import Verif.Proofs.Discrete
import Verif.Proofs.DrawBind
import Verif.Spec.Discrete

/-!
# Drawing from a `discrete_distribution` with integer weights
-/

namespace Boost.Random
namespace Discrete
open Spec Finset UniformInt

theorem card_pick (i s x g v : Nat) (h : x ≤ g) :
    ((range g).filter fun t => (if t < x then i else s) = v).card = (if i = v then x else 0) + (if s = v then g - x else 0) := by
  induction g with
  | zero => simp at h; subst h; simp
  | succ g ih =>
    rw [range_add_one, filter_insert]
    by_cases hx : x ≤ g
    · rw [if_neg (show ¬ g < x by omega)]
      by_cases hs : s = v
      · rw [if_pos hs, card_insert_of_notMem (by simp), ih hx, if_pos hs, if_pos hs]
        omega
      · rw [if_neg hs, ih hx, if_neg hs, if_neg hs]
    · have : x = g + 1 := by omega
      subst this
      rw [if_pos (show g < g + 1 by omega), Nat.sub_self, ite_self, Nat.add_zero]
      have e : ((range g).filter fun t => (if t < g + 1 then i else s) = v) = (range g).filter fun _ => i = v := by
        apply filter_congr
        intro t ht
        rw [if_pos (by have := mem_range.1 ht; omega)]
      rw [e]
      by_cases hi : i = v
      · rw [if_pos hi, if_pos hi, card_insert_of_notMem (by simp [hi]), filter_true_of_mem (fun _ _ => hi), card_range]
      · rw [if_neg hi, if_neg hi, filter_false_of_mem (fun _ _ => hi), card_empty]

theorem list_sum_range_rat (f : Nat → ℚ) (b : Nat) : ((List.range b).map f).sum = ∑ d ∈ range b, f d := by
  induction b with
  | zero => rfl
  | succ b ih => rw [List.range_succ, List.map_append, List.sum_append, ih, sum_range_succ]; simp

/-- Column masses are as the specification counts them. -/
theorem Holds.aliasMass_eq {WT : IntTy} {ws : List Nat} {d : IntAlias} (H : Holds WT ws d) (v : Nat) :
    aliasMass d.table (colWeight d.average d.excess) v = weightOf ws v := by
  have h := H.mass v
  unfold aliasMass weightOf
  rw [H.len]
  rw [list_sum_range_rat] at h
  have e : ∀ i ∈ range ws.length, contrib (fun x : Nat => (x : ℚ)) (colWeight d.average d.excess) d.table i v =
      ((((range (colWeight d.average d.excess i)).filter fun t => aliasPick d.table i t = some v).card : Nat) : ℚ) := by
    intro i hi
    obtain ⟨x, s, h1, h2, _⟩ := H.col i (mem_range.1 hi)
    unfold contrib aliasPick
    simp only [h1, Option.map_some, Option.some.injEq]
    rw [card_pick i s x _ v h2]
    push_cast [h2]
    split <;> split <;> simp
  rw [sum_congr rfl e, ← Nat.cast_sum] at h
  exact_mod_cast h

/-- What an iteration yields for a column and a test value. -/
def res (d : IntAlias) (i t : Nat) : Option Nat := if t < colWeight d.average d.excess i then aliasPick d.table i t else none

/-- One iteration: a value, or none if the pair is rejected. -/
def one (E : EngInfo) (d : IntAlias) (xs : List Int) : Draw (Option Nat) :=
  (K E.b (dig E) d.table.length xs).bind fun i xs => (K E.b (dig E) (d.average + 1) xs).bind fun t xs => .done (res d i t) xs

def continueWith (E : EngInfo) (WT T : IntTy) (d : IntAlias) (f : Nat) (o : Option Nat) (xs : List Int) : Draw Nat :=
  match o with
  | some v => .done v xs
  | none => IntAlias.loop E WT T d f xs

theorem paramOK {T : IntTy} (hT : 1 ≤ T.bits) {m : Nat} (h : m ≤ T.maxv) : ParamOK T 0 (m : Int) := by
  have h1 : (0 : Int) < 2 ^ (T.bits - 1) := by positivity
  have h2 : (0 : Int) < 2 ^ T.bits := by positivity
  have h3 := pow_cast (T.bits - 1)
  have h4 := pow_cast T.bits
  unfold IntTy.maxv at h
  refine ⟨hT, ?_, ?_, by omega⟩
  · unfold InTy InSigned; split <;> omega
  · unfold InTy InSigned
    split
    · rename_i hs; rw [if_pos hs] at h; omega
    · rename_i hs; rw [if_neg hs] at h; omega

section
variable {E : EngInfo} (hE : EngOK E) {WT T : IntTy} (hWb : 1 ≤ WT.bits) (hTb : 1 ≤ T.bits) {ws : List Nat} {d : IntAlias}
  (H : Holds WT ws d) (hT : ws.length ≤ T.maxv)
include hE hWb hTb H hT

theorem loop_succ (f : Nat) (xs : List Int) (hxs : Outputs E xs) :
    IntAlias.loop E WT T d (f + 1) xs = (one E d xs).bind (continueWith E WT T d f) := by
  have hpos : 0 < d.table.length := by rw [H.len]; have := H.excess; omega
  have hc : ((d.table.length : Int) - 1) = ((d.table.length - 1 : Nat) : Int) := by omega
  have hP1 : ParamOK T 0 (((d.table.length - 1 : Nat)) : Int) := paramOK hTb (by rw [H.len]; omega)
  have hP2 : ParamOK WT 0 ((d.average : Nat) : Int) := paramOK hWb H.avg
  have hl : ((d.table.length - 1 : Nat) : Int).toNat + 1 = d.table.length := by omega
  have ha : ((d.average : Nat) : Int).toNat + 1 = d.average + 1 := by omega
  unfold IntAlias.loop one
  rw [hc, generate_zero hE hP1 xs hxs, hl]
  cases h1 : K E.b (dig E) d.table.length xs with
  | more => rfl
  | ub => rfl
  | done i xs' =>
    obtain ⟨hi, hsuf⟩ := K_done_lt hE hpos hxs h1
    have hxs' : Outputs E xs' := fun z hz => hxs z (hsuf.subset hz)
    simp only [Draw.map, Draw.bind]
    rw [generate_zero hE hP2 xs' hxs', ha]
    cases h2 : K E.b (dig E) (d.average + 1) xs' with
    | more => rfl
    | ub => rfl
    | done t xs'' =>
      obtain ⟨ht, _⟩ := K_done_lt hE (Nat.succ_pos _) hxs' h2
      simp only [Draw.map, Int.toNat_natCast]
      unfold continueWith res
      obtain ⟨x, s, c1, _⟩ := H.col i (by rw [← H.len]; exact hi)
      by_cases hacc : i < d.excess ∨ t < d.average
      · rw [if_pos hacc, if_pos (by unfold colWeight; split <;> omega)]
        simp only [aliasPick, c1, Option.map_some]
      · rw [if_neg hacc, if_neg (by unfold colWeight; rw [if_neg (fun h => hacc (Or.inl h))]; omega)]

theorem one_local : LocalOn E (one E d) := by
  have hpos : 0 < d.table.length := by rw [H.len]; have := H.excess; omega
  exact LocalOn.bind (K_local hE hpos) fun i => LocalOn.bind (K_local hE (Nat.succ_pos _)) fun t => LocalOn.done _

/-- How many tuples of `N` engine values give one given pair. -/
def pairCount (E : EngInfo) (d : IntAlias) (N : Nat) : Nat :=
  ∑ k ∈ range (N + 1), cnt E (K E.b (dig E) d.table.length) k 0 * cnt E (K E.b (dig E) (d.average + 1)) (N - k) 0

theorem cnt_one (N : Nat) (o : Option Nat) :
    cnt E (one E d) N o = pairCount E d N * ∑ i ∈ range d.table.length, ((range (d.average + 1)).filter fun t => res d i t = o).card := by
  have hpos : 0 < d.table.length := by rw [H.len]; have := H.excess; omega
  unfold one pairCount
  rw [cnt_bind hE.lt.le _ (range d.table.length) N o _ (K_local hE hpos)
    (fun xs u rest hO h => mem_range.2 (K_done_lt hE hpos hO h).1), sum_mul]
  apply sum_congr rfl
  intro k _
  rw [mul_sum]
  apply sum_congr rfl
  intro i hi
  rw [cnt_bind hE.lt.le _ (range (d.average + 1)) (N - k) o _ (K_local hE (Nat.succ_pos _))
    (fun xs u rest hO h => mem_range.2 (K_done_lt hE (Nat.succ_pos _) hO h).1)]
  rw [cnt_K_uniform hE _ i 0 (mem_range.1 hi) hpos, Nat.mul_assoc]
  congr 1
  rw [sum_range_succ, sum_eq_zero, Nat.zero_add]
  · rw [card_filter, mul_sum]
    apply sum_congr rfl
    intro t ht
    rw [cnt_K_uniform hE _ t 0 (mem_range.1 ht) (Nat.succ_pos _), cnt_done]
    simp
  · intro j hj
    apply sum_eq_zero
    intro t _
    rw [cnt_done, if_neg (fun h => by have := mem_range.1 hj; omega), Nat.mul_zero]

theorem cnt_one_some (N v : Nat) : cnt E (one E d) N (some v) = pairCount E d N * weightOf ws v := by
  rw [cnt_one hE hWb hTb H hT, ← H.aliasMass_eq]
  unfold aliasMass
  congr 1
  apply sum_congr rfl
  intro i _
  refine congrArg Finset.card (Finset.ext fun t => ?_)
  rw [Finset.mem_filter, Finset.mem_filter, mem_range, mem_range]
  unfold res
  have : colWeight d.average d.excess i ≤ d.average + 1 := by unfold colWeight; split <;> omega
  constructor
  · rintro ⟨_, h⟩
    split at h
    · exact ⟨by assumption, h⟩
    · simp at h
  · rintro ⟨h1, h2⟩
    exact ⟨by omega, by rw [if_pos h1]; exact h2⟩

/-- How often the loop ends in one given accepted pair. -/
def hits (E : EngInfo) (d : IntAlias) : (f N : Nat) → Nat
  | 0, _ => 0
  | f + 1, N => pairCount E d N + ∑ k ∈ range (N + 1), cnt E (one E d) k none * hits E d f (N - k)

theorem res_mem {i t v : Nat} (hi : i < d.table.length) (h : res d i t = some v) : v < ws.length := by
  unfold res at h
  split at h
  · rename_i ht
    obtain ⟨x, s, c1, c2, c3⟩ := H.col i (by rw [← H.len]; exact hi)
    simp only [aliasPick, c1, Option.map_some, Option.some.injEq] at h
    split at h
    · subst h; rw [← H.len]; exact hi
    · subst h
      rcases c3 with c | c
      · exact c
      · omega
  · simp at h

theorem one_mem (xs : List Int) (hxs : Outputs E xs) (o : Option Nat) (rest : List Int) (h : one E d xs = .done o rest) :
    o ∈ insert none ((range ws.length).image some) ∧ rest <:+ xs := by
  have hpos : 0 < d.table.length := by rw [H.len]; have := H.excess; omega
  unfold one at h
  cases h1 : K E.b (dig E) d.table.length xs with
  | more => rw [h1] at h; cases h
  | ub => rw [h1] at h; cases h
  | done i xs' =>
    rw [h1] at h
    simp only [Draw.bind] at h
    obtain ⟨hi, hsuf⟩ := K_done_lt hE hpos hxs h1
    have hxs' : Outputs E xs' := fun z hz => hxs z (hsuf.subset hz)
    cases h2 : K E.b (dig E) (d.average + 1) xs' with
    | more => rw [h2] at h; cases h
    | ub => rw [h2] at h; cases h
    | done t xs'' =>
      rw [h2] at h
      simp only [Draw.done.injEq] at h
      obtain ⟨rfl, rfl⟩ := h
      obtain ⟨_, hsuf2⟩ := K_done_lt hE (Nat.succ_pos _) hxs' h2
      refine ⟨?_, hsuf2.trans hsuf⟩
      cases hr : res d i t with
      | none => simp
      | some v =>
        have := res_mem hE hWb hTb H hT hi hr
        simp [this]

theorem one_not_ub (xs : List Int) (hxs : Outputs E xs) : one E d xs ≠ .ub := by
  have hpos : 0 < d.table.length := by rw [H.len]; have := H.excess; omega
  have hb := EngInfo.b_ge hE
  unfold one
  intro h
  cases h1 : K E.b (dig E) d.table.length xs with
  | more => rw [h1] at h; cases h
  | ub => exact (core_rest hb _ _ xs (outputs_dig hE hxs) hpos).2 h1
  | done i xs' =>
    rw [h1] at h
    simp only [Draw.bind] at h
    obtain ⟨hi, hsuf⟩ := K_done_lt hE hpos hxs h1
    have hxs' : Outputs E xs' := fun z hz => hxs z (hsuf.subset hz)
    cases h2 : K E.b (dig E) (d.average + 1) xs' with
    | more => rw [h2] at h; cases h
    | ub => exact (core_rest hb _ _ xs' (outputs_dig hE hxs') (Nat.succ_pos _)).2 h2
    | done t xs'' => rw [h2] at h; cases h

theorem cnt_loop (f : Nat) : ∀ (N v : Nat), cnt E (IntAlias.loop E WT T d f) N v = hits E d f N * weightOf ws v := by
  induction f with
  | zero =>
    intro N v
    rw [hits, Nat.zero_mul]
    exact cnt_more E N v
  | succ f ih =>
    intro N v
    rw [cnt_congr_outputs E hE.lt.le (loop_succ hE hWb hTb H hT f)]
    rw [cnt_bind hE.lt.le _ (insert none ((range ws.length).image some)) N v _ (one_local hE hWb hTb H hT)
      (fun xs u rest hO h => (one_mem hE hWb hTb H hT xs hO u rest h).1)]
    rw [hits, Nat.add_mul, sum_mul]
    have e : ∀ k ∈ range (N + 1), ∑ u ∈ insert none ((range ws.length).image some), cnt E (one E d) k u * cnt E (continueWith E WT T d f u) (N - k) v =
        cnt E (one E d) k none * (hits E d f (N - k) * weightOf ws v) +
          ∑ u ∈ range ws.length, (pairCount E d k * weightOf ws u) * (if N - k = 0 ∧ u = v then 1 else 0) := by
      intro k _
      rw [sum_insert (by simp), ← ih, sum_image (by simp)]
      congr 1
      apply sum_congr rfl
      intro u _
      rw [cnt_one_some hE hWb hTb H hT]
      congr 1
      exact cnt_done E u (N - k) v
    rw [sum_congr rfl e, sum_add_distrib, Nat.add_comm]
    congr 1
    · rw [sum_range_succ, sum_eq_zero, Nat.zero_add]
      · by_cases hv : v < ws.length
        · rw [sum_eq_single v]
          · simp
          · intro b _ hb; simp [hb]
          · intro h; exact absurd (mem_range.2 hv) h
        · have hw : weightOf ws v = 0 := by
            unfold weightOf
            rw [List.getD_eq_getElem?_getD, List.getElem?_eq_none (by omega)]; rfl
          rw [hw, Nat.mul_zero]
          apply sum_eq_zero
          intro u hu
          have := mem_range.1 hu
          rw [if_neg (by omega), Nat.mul_zero]
      · intro k hk
        apply sum_eq_zero
        intro u _
        have := mem_range.1 hk
        rw [if_neg (by omega), Nat.mul_zero]
    · apply sum_congr rfl
      intro k _
      rw [Nat.mul_assoc]

/-! ### Iterations read something -/

theorem K_reads {N : Nat} (hN : 2 ≤ N) (xs : List Int) (hxs : Outputs E xs) {u : Nat} {rest : List Int}
    (h : K E.b (dig E) N xs = .done u rest) : rest.length < xs.length := by
  obtain ⟨pre, e1, e2⟩ := K_local hE (show 0 < N by omega) xs u rest hxs h
  cases pre with
  | cons x pre => rw [e1, List.length_append, List.length_cons]; omega
  | nil =>
    have h0 := e2 [] Outputs.nil
    rw [List.append_nil] at h0
    unfold K core at h0
    rw [if_neg (by omega)] at h0
    split at h0
    · cases h0
    · split at h0
      · unfold cInner at h0
        rw [if_pos (by omega)] at h0
        cases h0
      · simp [cBucket] at h0

theorem one_reads (hs : 0 < ws.sum) (xs : List Int) (hxs : Outputs E xs) (o : Option Nat) (rest : List Int) (h : one E d xs = .done o rest) :
    rest.length < xs.length := by
  have hpos : 0 < d.table.length := by rw [H.len]; have := H.excess; omega
  unfold one at h
  cases h1 : K E.b (dig E) d.table.length xs with
  | more => rw [h1] at h; cases h
  | ub => rw [h1] at h; cases h
  | done i xs' =>
    rw [h1] at h
    simp only [Draw.bind] at h
    obtain ⟨_, hsuf⟩ := K_done_lt hE hpos hxs h1
    have hxs' : Outputs E xs' := fun z hz => hxs z (hsuf.subset hz)
    cases h2 : K E.b (dig E) (d.average + 1) xs' with
    | more => rw [h2] at h; cases h
    | ub => rw [h2] at h; cases h
    | done t xs'' =>
      rw [h2] at h
      simp only [Draw.done.injEq] at h
      obtain ⟨_, rfl⟩ := h
      obtain ⟨_, hsuf2⟩ := K_done_lt hE (Nat.succ_pos _) hxs' h2
      have l1 := hsuf.length_le
      have l2 := hsuf2.length_le
      by_cases ha : d.average = 0
      · have hsum := H.sum
        rw [ha, Nat.zero_mul, Nat.zero_add] at hsum
        have := H.excess
        have := K_reads hE hWb hTb H hT (show 2 ≤ d.table.length by rw [H.len]; omega) xs hxs h1
        omega
      · have := K_reads hE hWb hTb H hT (show 2 ≤ d.average + 1 by omega) xs' hxs' h2
        omega

/-- Enough iterations are enough. -/
theorem loop_fuel (hs : 0 < ws.sum) : ∀ (f f' : Nat) (xs : List Int), Outputs E xs → xs.length < f → xs.length < f' →
    IntAlias.loop E WT T d f xs = IntAlias.loop E WT T d f' xs
  | 0, _, _, _, h, _ => by omega
  | _, 0, _, _, _, h => by omega
  | f + 1, f' + 1, xs, hxs, h, h' => by
    rw [loop_succ hE hWb hTb H hT f xs hxs, loop_succ hE hWb hTb H hT f' xs hxs]
    cases h1 : one E d xs with
    | more => rfl
    | ub => rfl
    | done o rest =>
      cases o with
      | some v => rfl
      | none =>
        have hr := one_reads hE hWb hTb H hT hs xs hxs none rest h1
        obtain ⟨_, hsuf⟩ := one_mem hE hWb hTb H hT xs hxs none rest h1
        exact loop_fuel hs f f' rest (fun z hz => hxs z (hsuf.subset hz)) (by omega) (by omega)

/-- `operator()` is its loop. -/
theorem next_eq (hs : 0 < ws.sum) (xs : List Int) (hxs : Outputs E xs) : IntAlias.next E WT T d xs =
    match one E d xs with
    | .ub => .ub
    | .more => .more
    | .done (some v) rest => .done v rest
    | .done none rest => IntAlias.next E WT T d rest := by
  unfold IntAlias.next
  rw [loop_succ hE hWb hTb H hT _ xs hxs]
  cases h1 : one E d xs with
  | more => rfl
  | ub => rfl
  | done o rest =>
    cases o with
    | some v => rfl
    | none =>
      have hr := one_reads hE hWb hTb H hT hs xs hxs none rest h1
      obtain ⟨_, hsuf⟩ := one_mem hE hWb hTb H hT xs hxs none rest h1
      exact loop_fuel hE hWb hTb H hT hs _ _ rest (fun z hz => hxs z (hsuf.subset hz)) (by omega) (by omega)

theorem loop_range (f : Nat) : ∀ (xs : List Int), Outputs E xs → IntAlias.loop E WT T d f xs ≠ .ub ∧
    ∀ v rest, IntAlias.loop E WT T d f xs = .done v rest → v < ws.length ∧ rest <:+ xs := by
  induction f with
  | zero => intro xs _; simp [IntAlias.loop]
  | succ f ih =>
    intro xs hxs
    rw [loop_succ hE hWb hTb H hT f xs hxs]
    cases h1 : one E d xs with
    | more => simp [Draw.bind]
    | ub => exact absurd h1 (one_not_ub hE hWb hTb H hT xs hxs)
    | done o rest' =>
      obtain ⟨hm, hsuf⟩ := one_mem hE hWb hTb H hT xs hxs o rest' h1
      simp only [Draw.bind, continueWith]
      cases o with
      | some v =>
        refine ⟨by simp, fun v' rest h => ?_⟩
        simp only [Draw.done.injEq] at h
        obtain ⟨rfl, rfl⟩ := h
        simp at hm
        exact ⟨hm, hsuf⟩
      | none =>
        obtain ⟨h2, h3⟩ := ih rest' (fun z hz => hxs z (hsuf.subset hz))
        exact ⟨h2, fun v rest h => ⟨(h3 v rest h).1, (h3 v rest h).2.trans hsuf⟩⟩

end

theorem cnt_congr_length {α : Type} [DecidableEq α] {E : EngInfo} (n : Nat) (v : α) : ∀ (q q' : List Int → Draw α),
    (∀ xs, xs.length = n → q xs = q' xs) → cnt E q n v = cnt E q' n v := by
  induction n with
  | zero => intro q q' h; unfold cnt; rw [h [] rfl]
  | succ n ih =>
    intro q q' h
    unfold cnt
    apply sum_congr rfl
    intro d _
    exact ih _ _ fun xs hxs => h _ (by simp [hxs])

section
variable {E : EngInfo} (hE : EngOK E) {WT T : IntTy} (hWb : 1 ≤ WT.bits) (hTb : 1 ≤ T.bits) {ws : List Nat} {d : IntAlias}
  (H : Holds WT ws d) (hT : ws.length ≤ T.maxv)
include hE hWb hTb H hT

theorem count_next (N v : Nat) : count E (IntAlias.next E WT T d) N v = hits E d (N + 1) N * weightOf ws v := by
  rw [count_eq_cnt, ← cnt_loop hE hWb hTb H hT]
  apply cnt_congr_length
  intro xs hxs
  unfold IntAlias.next
  rw [hxs]

theorem hits_pos : ∃ N, 0 < hits E d (N + 1) N := by
  have hpos : 0 < d.table.length := by rw [H.len]; have := H.excess; omega
  obtain ⟨xs, h1, h2⟩ := K_zero hE d.table.length hpos
  obtain ⟨ys, h3, h4⟩ := K_zero hE (d.average + 1) (Nat.succ_pos _)
  have p1 := cnt_pos _ xs h1 0 h2
  have p2 := cnt_pos _ ys h3 0 h4
  refine ⟨xs.length + ys.length, ?_⟩
  unfold hits
  apply Nat.add_pos_left
  unfold pairCount
  refine lt_of_lt_of_le (Nat.mul_pos p1 p2) ?_
  have := Finset.single_le_sum (f := fun k => cnt E (K E.b (dig E) d.table.length) k 0 *
    cnt E (K E.b (dig E) (d.average + 1)) (xs.length + ys.length - k) 0) (s := range (xs.length + ys.length + 1))
    (fun _ _ => Nat.zero_le _) (mem_range.2 (show xs.length < xs.length + ys.length + 1 by omega))
  simpa using this

end
end Discrete
end Boost.Random
