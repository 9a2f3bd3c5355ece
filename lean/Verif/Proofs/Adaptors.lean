import Verif.Model.Adaptors
import Verif.Spec.Engine
import Verif.Proofs.Run
import Verif.Proofs.LargeArithmetic
import Verif.Proofs.UniformInt
import Mathlib.Data.List.Perm.Basic

namespace Boost.Random
open Spec
variable {σ τ : Type}

/-! ### reading back integers -/

theorem readInt_inTy {T : IntTy} {v : Int} (hb : 1 ≤ T.bits) (hv : InTy T v) (rest : List Tok) :
    IStream.readInt T ⟨Tok.num v :: rest, true⟩ = (some v, ⟨rest, true⟩) := by
  unfold InTy InSigned at hv
  unfold IStream.readInt IntTy.maxv
  simp only [if_true]
  have h1 : ((2 ^ (T.bits - 1) - 1 : Nat) : Int) = 2 ^ (T.bits - 1) - 1 := by
    rw [Nat.cast_sub Nat.one_le_two_pow]; push_cast; rfl
  have h2 : ((2 ^ T.bits - 1 : Nat) : Int) = 2 ^ T.bits - 1 := by
    rw [Nat.cast_sub Nat.one_le_two_pow]; push_cast; rfl
  split
  · rename_i hs
    simp only [hs, if_true] at hv ⊢
    rw [h1, if_pos (by omega)]
  · rename_i hs
    have hs : T.signed = false := by simpa using hs
    simp only [hs, Bool.false_eq_true, if_false] at hv ⊢
    rw [h2, if_pos (by omega)]

theorem readInto_spec {T : IntTy} {v : Int} (hb : 1 ≤ T.bits) (hv : InTy T v) (rest : List Tok) (x : Int) :
    readInto T ⟨Tok.num v :: rest, true⟩ x = (⟨rest, true⟩, v) := by
  simp [readInto, readInt_inTy hb hv]

theorem readList_spec {T : IntTy} (hb : 1 ≤ T.bits) (vs xs : List Int) (hl : xs.length = vs.length)
    (hv : ∀ v ∈ vs, InTy T v) (rest : List Tok) :
    readList T ⟨vs.map Tok.num ++ rest, true⟩ xs = (⟨rest, true⟩, vs) := by
  induction vs generalizing xs with
  | nil =>
    obtain rfl : xs = [] := by cases xs <;> simp_all
    rfl
  | cons v vs ih =>
    obtain ⟨x, xs, rfl⟩ : ∃ x xs', xs = x :: xs' := by cases xs <;> simp_all
    simp only [List.map_cons, List.cons_append, readList]
    rw [readInto_spec hb (hv v (by simp)), ih xs (by simpa using hl) fun u hu => hv u (by simp [hu])]

/-! ### `shuffle_order_engine` -/

theorem div_lt_of {k off b : Nat} (hk : 0 < k) (h : off ≤ b) : k * off / (b + 1) < k := by
  rw [Nat.div_lt_iff_lt_mul (by omega)]
  exact (Nat.mul_lt_mul_left hk).2 (by omega)

/-- All four regimes of the index computation stay below `k`. -/
theorem shuffleIndex_lt {wb k brange off : Nat} (hw : wb ≤ 64) (hk : 0 < k) (hk64 : k < 2 ^ 64)
    (hb : brange < 2 ^ wb) (ho : off ≤ brange) : ∃ j, shuffleIndex wb k brange off = some j ∧ j < k := by
  have hww : 2 ^ wb ≤ 2 ^ 64 := Nat.pow_le_pow_right (by omega) hw
  unfold shuffleIndex
  by_cases h1 : k = 1
  · exact ⟨0, by simp [h1], hk⟩
  rw [if_neg h1]
  by_cases h2 : brange < (2 ^ wb - 1) / k
  · rw [if_pos h2]
    have h3 : (brange + 1) * k ≤ 2 ^ wb - 1 := (Nat.le_div_iff_mul_le hk).1 h2
    have h4 : brange + 1 ≤ (brange + 1) * k := Nat.le_mul_of_pos_right _ hk
    have h5 : k * off ≤ (brange + 1) * k := by
      rw [Nat.mul_comm (brange + 1)]; exact Nat.mul_le_mul_left _ (by omega)
    rw [Nat.mod_eq_of_lt (show brange + 1 < 2 ^ wb by omega)]
    dsimp only
    rw [if_neg (by omega), Nat.mod_eq_of_lt (show k * off < 2 ^ 64 by omega)]
    exact ⟨_, rfl, lt_of_le_of_lt (Nat.mod_le _ _) (div_lt_of hk ho)⟩
  rw [if_neg h2]
  by_cases h3 : brange < (2 ^ 64 - 1) / k
  · rw [if_pos h3]
    have h3 : (brange + 1) * k ≤ 2 ^ 64 - 1 := (Nat.le_div_iff_mul_le hk).1 h3
    have h4 : brange + 1 ≤ (brange + 1) * k := Nat.le_mul_of_pos_right _ hk
    have h5 : k * off ≤ (brange + 1) * k := by
      rw [Nat.mul_comm (brange + 1)]; exact Nat.mul_le_mul_left _ (by omega)
    rw [Nat.mod_eq_of_lt (show brange + 1 < 2 ^ 64 by omega), Nat.mul_comm off]
    dsimp only
    rw [if_neg (by omega), Nat.mod_eq_of_lt (show k * off < 2 ^ 64 by omega)]
    exact ⟨_, rfl, lt_of_le_of_lt (Nat.mod_le _ _) (div_lt_of hk ho)⟩
  rw [if_neg h3]
  refine ⟨_, rfl, lt_of_le_of_lt (Nat.mod_le _ _) ?_⟩
  by_cases h4 : brange + 1 = 2 ^ 64
  · rw [h4, Nat.mod_self]
    show muldiv off k 0 < k
    rw [muldiv_zero off k hk64]
    have : off % 2 * k / 2 ≤ 1 * k / 2 := Nat.div_le_div_right (Nat.mul_le_mul_right _ (by omega))
    omega
  · rw [Nat.mod_eq_of_lt (show brange + 1 < 2 ^ 64 by omega)]
    refine lt_of_le_of_lt (muldiv_le off k (brange + 1) (by omega) (by omega) (by omega) hk64) ?_
    rw [Nat.mul_comm]; exact div_lt_of hk ho

/-- The documented index. -/
theorem shuffleIndex_eq {wb k brange off : Nat} (hw : wb ≤ 64) (hk : 0 < k) (hk31 : k ≤ 2 ^ 31)
    (hkw : k ≤ 2 ^ wb) (hb : brange < 2 ^ wb) (ho : off ≤ brange) (hfull : brange + 1 < 2 ^ 64) :
    shuffleIndex wb k brange off = some (k * off / (brange + 1)) := by
  have hww : 2 ^ wb ≤ 2 ^ 64 := Nat.pow_le_pow_right (by omega) hw
  have hj := div_lt_of hk ho
  unfold shuffleIndex
  by_cases h1 : k = 1
  · subst h1
    simp only [if_true]
    rw [Nat.one_mul, Nat.div_eq_of_lt (by omega)]
  rw [if_neg h1]
  have hk' : k * off ≤ (brange + 1) * k := by
    rw [Nat.mul_comm (brange + 1)]; exact Nat.mul_le_mul_left _ (by omega)
  have h4 : brange + 1 ≤ (brange + 1) * k := Nat.le_mul_of_pos_right _ hk
  by_cases h2 : brange < (2 ^ wb - 1) / k
  · rw [if_pos h2]
    have h3 : (brange + 1) * k ≤ 2 ^ wb - 1 := (Nat.le_div_iff_mul_le hk).1 h2
    rw [Nat.mod_eq_of_lt (show brange + 1 < 2 ^ wb by omega)]
    dsimp only
    rw [if_neg (by omega), Nat.mod_eq_of_lt (show k * off < 2 ^ 64 by omega), Nat.mod_eq_of_lt (by omega)]
  rw [if_neg h2]
  by_cases h3 : brange < (2 ^ 64 - 1) / k
  · rw [if_pos h3]
    have h3 : (brange + 1) * k ≤ 2 ^ 64 - 1 := (Nat.le_div_iff_mul_le hk).1 h3
    rw [Nat.mod_eq_of_lt (show brange + 1 < 2 ^ 64 by omega), Nat.mul_comm off]
    dsimp only
    rw [if_neg (by omega), Nat.mod_eq_of_lt (show k * off < 2 ^ 64 by omega), Nat.mod_eq_of_lt (by omega)]
  rw [if_neg h3, Nat.mod_eq_of_lt (show brange + 1 < 2 ^ 64 by omega)]
  have := muldivmod_exact off k (brange + 1) (by omega) (by omega) (by omega) (by omega)
    (muldivmodSafe_of_small off k (brange + 1) (by omega) (by omega) (by omega) hk31)
  unfold muldiv
  dsimp only
  rw [this, Nat.mul_comm off]
  dsimp only
  rw [Nat.mod_eq_of_lt (by omega)]

theorem perm_set (v : List Int) (j : Nat) (y u : Int) (h : v[j]? = some y) :
    (y :: v.set j u).Perm (u :: v) := by
  induction v generalizing j with
  | nil => simp at h
  | cons x v ih =>
    cases j with
    | zero =>
      simp only [List.getElem?_cons_zero, Option.some.injEq] at h
      subst h
      exact List.Perm.swap _ _ _
    | succ j =>
      simp only [List.getElem?_cons_succ] at h
      simp only [List.set_cons_succ]
      exact (List.Perm.swap _ _ _).trans (((ih j h).cons x).trans (List.Perm.swap _ _ _))

namespace ShuffleOrder
variable {E : EngInfo} {k : Nat} {B : Engine σ} {I : σ → Prop}

/-- What is kept true by every call. -/
structure Inv (E : EngInfo) (k : Nat) (I : σ → Prop) (st : ShuffleState σ) : Prop where
  rng : I st.rng
  len : st.v.length = k
  v : ∀ x ∈ st.v, E.min ≤ x ∧ x ≤ E.max
  y : E.min ≤ st.y ∧ st.y ≤ E.max

theorem next_spec (hE : EngOK E) (h64 : E.ty.bits ≤ 64) (hB : BaseOK E B I) (hk : 0 < k) (hk64 : k < 2 ^ 64)
    {st : ShuffleState σ} (h : Inv E k I st) :
    ∃ j u rng y, shuffleIndex E.ty.bits k (E.b - 1) (dig E st.y) = some j ∧ j < k ∧ st.v[j]? = some y ∧
      B.next st.rng = some (u, rng) ∧ next E k B st = some (y, ⟨rng, st.v.set j u, y⟩) ∧
      Inv E k I ⟨rng, st.v.set j u, y⟩ := by
  have hd := dig_lt h.y
  have hb := EngInfo.b_le hE
  obtain ⟨j, hj, hjk⟩ := shuffleIndex_lt (k := k) h64 hk hk64 (show E.b - 1 < 2 ^ E.ty.bits by omega)
    (show dig E st.y ≤ E.b - 1 by omega)
  obtain ⟨u, rng, hu, hI, hmin, hmax⟩ := hB.step st.rng h.rng
  have hjl : j < st.v.length := by rw [h.len]; exact hjk
  refine ⟨j, u, rng, st.v[j], hj, hjk, List.getElem?_eq_getElem hjl, hu, ?_, hI, by simp [h.len], ?_, ?_⟩
  · simp [next, EngInfo.brange_eq hE, EngInfo.diff_eq hE h.y, hj, List.getElem?_eq_getElem hjl, hu]
  · intro x hx
    rcases List.mem_or_eq_of_mem_set hx with h1 | rfl
    · exact h.v x h1
    · exact ⟨hmin, hmax⟩
  · exact h.v _ (List.getElem_mem hjl)

theorem fill_eq_run (n : Nat) (s : σ) : fill B n s = run B.next n s := by
  induction n generalizing s with
  | zero => rfl
  | succ n ih =>
    simp only [fill, run, ih]
    cases B.next s with
    | none => rfl
    | some p =>
      simp only [Option.bind_some, Option.bind_eq_bind]
      cases run B.next n p.2 <;> rfl

end ShuffleOrder

theorem run_base {E : EngInfo} {B : Engine σ} {I : σ → Prop} (hB : BaseOK E B I) (n : Nat) (s : σ) (hs : I s) :
    ∃ vs s', run B.next n s = some (vs, s') ∧ vs.length = n ∧ I s' ∧ ∀ v ∈ vs, E.min ≤ v ∧ v ≤ E.max := by
  induction n generalizing s with
  | zero => exact ⟨[], s, rfl, rfl, hs, by simp⟩
  | succ n ih =>
    obtain ⟨v, s1, e, hi, hr⟩ := hB.step s hs
    obtain ⟨vs, s2, e2, hl, hi2, hvs⟩ := ih s1 hi
    refine ⟨v :: vs, s2, by rw [run_succ_of e, e2]; rfl, by simp [hl], hi2, ?_⟩
    intro x hx
    rcases List.mem_cons.1 hx with rfl | h
    · exact hr
    · exact hvs x h

theorem Produces.seq {β : Type} {next : σ → Option (β × σ)} {s : σ} {V : Nat → β} (h : Produces next s V) :
    ∃ S : Nat → σ, S 0 = s ∧ (∀ n, next (S n) = some (V n, S (n + 1))) ∧
      ∀ n, run next n s = some ((List.range n).map V, S n) := by
  choose S hS using h
  refine ⟨S, ?_, fun n => ?_, hS⟩
  · have := hS 0
    simp [run] at this
    exact this.symm
  · have h1 := hS (n + 1)
    rw [run_add, hS n, Option.bind_some] at h1
    simp only [run_one] at h1
    cases e : next (S n) with
    | none => rw [e] at h1; simp at h1
    | some p =>
      rw [e] at h1
      simp only [Option.map_some, List.range_succ, List.map_append, Option.some.injEq, Prod.mk.injEq,
        List.append_cancel_left_eq, List.map_cons, List.map_nil, List.cons.injEq, and_true] at h1
      rw [← h1.1, ← h1.2]

theorem produces_of_seq {β : Type} {next : σ → Option (β × σ)} {s : σ} {V : Nat → β} (S : Nat → σ) (h0 : S 0 = s)
    (h : ∀ n, next (S n) = some (V n, S (n + 1))) :
    ∀ n, run next n s = some ((List.range n).map V, S n) := by
  intro n
  induction n with
  | zero => simp [run, h0]
  | succ n ih =>
    rw [run_add, ih, Option.bind_some, run_one, h n, List.range_succ]
    simp

theorem stateAfter_seq {β : Type} {next : σ → Option (β × σ)} {V : Nat → β} (S : Nat → σ)
    (h : ∀ n, next (S n) = some (V n, S (n + 1))) (i z : Nat) :
    stateAfter next z (S i) = some (S (i + z)) := by
  have := produces_of_seq (next := next) (s := S i) (V := fun n => V (i + n)) (fun n => S (i + n)) (by simp)
    (fun n => by rw [h]; rfl) z
  simp [stateAfter, this]

theorem skip_eq {β : Type} (B : Engine σ β) (n : Nat) (s : σ) : B.skip n s = stateAfter B.next n s := by
  induction n generalizing s with
  | zero => rfl
  | succ n ih =>
    rw [Nat.add_comm, stateAfter_add, stateAfter_one, Nat.add_comm]
    simp only [Engine.skip]
    cases B.next s with
    | none => rfl
    | some p => simp [ih]

end Boost.Random
