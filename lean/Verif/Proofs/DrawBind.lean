import Verif.Model.DrawBind
import Verif.Proofs.UniformCount

/-!
# Counting for programs that draw from several distributions in turn
-/

namespace Boost.Random
open Spec Finset

/-- What a program returns depends on the values it has read only. -/
def LocalOn {α : Type} (E : EngInfo) (q : List Int → Draw α) : Prop :=
  ∀ xs u rest, Outputs E xs → q xs = .done u rest → ∃ pre, xs = pre ++ rest ∧ ∀ ys, Outputs E ys → q (pre ++ ys) = .done u ys

theorem Outputs.append {E : EngInfo} {xs ys : List Int} (hx : Outputs E xs) (hy : Outputs E ys) : Outputs E (xs ++ ys) := by
  intro z hz
  rcases List.mem_append.1 hz with h | h
  · exact hx z h
  · exact hy z h

theorem Outputs.left {E : EngInfo} {xs ys : List Int} (h : Outputs E (xs ++ ys)) : Outputs E xs := fun z hz => h z (by simp [hz])
theorem Outputs.right {E : EngInfo} {xs ys : List Int} (h : Outputs E (xs ++ ys)) : Outputs E ys := fun z hz => h z (by simp [hz])
theorem Outputs.nil {E : EngInfo} : Outputs E [] := fun z hz => by simp at hz

theorem outputs_cons {E : EngInfo} (hE : E.min ≤ E.max) {d : Nat} (hd : d < E.b) {xs : List Int} (h : Outputs E xs) :
    Outputs E ((E.min + (d : Int)) :: xs) := by
  intro x hx
  rcases List.mem_cons.1 hx with rfl | hx
  · unfold EngInfo.b at hd
    omega
  · exact h x hx

section
variable {α β : Type} [DecidableEq α] [DecidableEq β] {E : EngInfo}

theorem LocalOn.bind {q : List Int → Draw α} {f : α → List Int → Draw β} (hq : LocalOn E q) (hf : ∀ u, LocalOn E (f u)) :
    LocalOn E fun xs => (q xs).bind f := by
  intro xs v rest hO h
  simp only at h
  cases hx : q xs with
  | more => rw [hx] at h; cases h
  | ub => rw [hx] at h; cases h
  | done u mid =>
    rw [hx] at h
    obtain ⟨pre, e1, e2⟩ := hq xs u mid hO hx
    rw [e1] at hO
    obtain ⟨pre', e3, e4⟩ := hf u mid v rest (Outputs.right hO) h
    refine ⟨pre ++ pre', by rw [e1, e3, List.append_assoc], fun ys hys => ?_⟩
    have hO' : Outputs E pre' := by rw [e3] at hO; exact Outputs.left (Outputs.right hO)
    simp only
    rw [List.append_assoc, e2 _ (Outputs.append hO' hys)]
    exact e4 ys hys

/-- The first program returns at once, or reads a value. -/
theorem LocalOn.cases {q : List Int → Draw α} (hq : LocalOn E q) :
    (∃ u, ∀ ys, Outputs E ys → q ys = .done u ys) ∨ (∀ u rest, q [] ≠ .done u rest) := by
  cases h : q [] with
  | more => right; simp
  | ub => right; simp
  | done u rest =>
    left
    obtain ⟨pre, e1, e2⟩ := hq [] u rest Outputs.nil h
    have : pre = [] := (List.append_eq_nil_iff.1 e1.symm).1
    subst this
    exact ⟨u, e2⟩

theorem LocalOn.deriv {q : List Int → Draw α} (hq : LocalOn E q) (hn : ∀ u rest, q [] ≠ .done u rest) (hE : E.min ≤ E.max) {d : Nat}
    (hd : d < E.b) : LocalOn E fun xs => q ((E.min + (d : Int)) :: xs) := by
  intro xs u rest hO h
  obtain ⟨pre, e1, e2⟩ := hq _ u rest (outputs_cons hE hd hO) h
  cases pre with
  | nil => exact absurd (e2 [] Outputs.nil) (hn u [])
  | cons x pre =>
    simp only [List.cons_append, List.cons.injEq] at e1
    obtain ⟨rfl, e1⟩ := e1
    exact ⟨pre, e1, fun ys hys => e2 ys hys⟩

theorem cnt_bind (hE : E.min ≤ E.max) (f : α → List Int → Draw β) (U : Finset α) (N : Nat) (v : β) : ∀ (q : List Int → Draw α), LocalOn E q →
    (∀ xs u rest, Outputs E xs → q xs = .done u rest → u ∈ U) →
    cnt E (fun xs => (q xs).bind f) N v = ∑ k ∈ range (N + 1), ∑ u ∈ U, cnt E q k u * cnt E (f u) (N - k) v := by
  induction N with
  | zero =>
    intro q hq hU
    rw [Nat.zero_add, sum_range_one]
    rcases hq.cases with ⟨u, hu⟩ | hn
    · have huU := hU [] u [] Outputs.nil (hu [] Outputs.nil)
      rw [sum_eq_single u]
      · simp [cnt, hu [] Outputs.nil, Draw.bind]
      · intro b _ hb
        simp only [cnt, hu [] Outputs.nil, Draw.done.injEq, and_true]
        rw [if_neg (Ne.symm hb), Nat.zero_mul]
      · intro h; exact absurd huU h
    · rw [sum_eq_zero]
      · simp only [cnt]
        rw [if_neg]
        intro h
        cases hx : q [] with
        | more => rw [hx] at h; cases h
        | ub => rw [hx] at h; cases h
        | done u rest => exact hn u rest hx
      · intro u _
        simp only [cnt]
        rw [if_neg (hn u []), Nat.zero_mul]
  | succ N ih =>
    intro q hq hU
    rcases hq.cases with ⟨u, hu⟩ | hn
    · have huU := hU [] u [] Outputs.nil (hu [] Outputs.nil)
      have e1 : cnt E (fun xs => (q xs).bind f) (N + 1) v = cnt E (f u) (N + 1) v := by
        apply cnt_congr_outputs E hE
        intro xs hxs
        rw [hu xs hxs]; rfl
      have e2 : ∀ k u', cnt E q k u' = if k = 0 ∧ u = u' then 1 else 0 := by
        intro k u'
        rw [cnt_congr_outputs E hE (q' := fun xs => Draw.done u xs) hu, cnt_done]
      rw [e1, sum_eq_single 0]
      · rw [sum_eq_single u]
        · simp [e2]
        · intro b _ hb
          rw [e2, if_neg (fun h => hb h.2.symm), Nat.zero_mul]
        · intro h; exact absurd huU h
      · intro k _ hk
        apply sum_eq_zero
        intro u' _
        rw [e2, if_neg (fun h => hk h.1), Nat.zero_mul]
      · intro h; exact absurd (mem_range.2 (Nat.succ_pos _)) h
    · rw [sum_range_succ']
      have e0 : ∑ u ∈ U, cnt E q 0 u * cnt E (f u) (N + 1 - 0) v = 0 := by
        apply sum_eq_zero
        intro u _
        simp only [cnt]
        rw [if_neg (hn u []), Nat.zero_mul]
      rw [e0, Nat.add_zero]
      simp only [cnt]
      have e1 : ∀ d ∈ range E.b, cnt E (fun xs => (q ((E.min + (d : Int)) :: xs)).bind f) N v =
          ∑ k ∈ range (N + 1), ∑ u ∈ U, cnt E (fun xs => q ((E.min + (d : Int)) :: xs)) k u * cnt E (f u) (N - k) v := by
        intro d hd
        have hd' := mem_range.1 hd
        apply ih (fun xs => q ((E.min + (d : Int)) :: xs)) (hq.deriv hn hE hd')
        intro xs u rest hO h
        exact hU _ u rest (outputs_cons hE hd' hO) h
      rw [sum_congr rfl e1, sum_comm]
      apply sum_congr rfl
      intro k _
      rw [sum_comm]
      apply sum_congr rfl
      intro u _
      rw [sum_mul]
      apply sum_congr rfl
      intro d _
      rw [show N + 1 - (k + 1) = N - k by omega]

/-- A value that is never returned. -/
theorem cnt_eq_zero (hE : E.min ≤ E.max) (n : Nat) (v : α) : ∀ (q : List Int → Draw α), (∀ xs, Outputs E xs → q xs ≠ .done v []) → cnt E q n v = 0 := by
  induction n with
  | zero => intro q h; unfold cnt; rw [if_neg (h [] Outputs.nil)]
  | succ n ih =>
    intro q h
    unfold cnt
    apply sum_eq_zero
    intro d hd
    exact ih _ fun xs hxs => h _ (outputs_cons hE (mem_range.1 hd) hxs)

/-- A program that reads nothing. -/
theorem cnt_done' (a v : β) (n : Nat) : cnt E (fun xs => Draw.done a xs) n v = if n = 0 ∧ a = v then 1 else 0 := cnt_done E a n v

theorem LocalOn.done (a : α) : LocalOn E fun xs => Draw.done a xs := by
  intro xs u rest _ h
  simp only [Draw.done.injEq] at h
  obtain ⟨rfl, rfl⟩ := h
  exact ⟨[], rfl, fun ys _ => rfl⟩

theorem LocalOn.congr (q q' : List Int → Draw α) (h : ∀ xs, Outputs E xs → q xs = q' xs) (hq : LocalOn E q) : LocalOn E q' := by
  intro xs u rest hO hx
  rw [← h xs hO] at hx
  obtain ⟨pre, e1, e2⟩ := hq xs u rest hO hx
  refine ⟨pre, e1, fun ys hys => ?_⟩
  have hp : Outputs E pre := by rw [e1] at hO; exact Outputs.left hO
  rw [← h _ (Outputs.append hp hys)]
  exact e2 ys hys

end

/-! ## Uniform integers -/

namespace UniformInt
variable {b : Nat} {e : Int → Nat}

theorem cInner_local (N : Nat) : ∀ (xs : List Int) (r m : Nat),
    (∀ r' rest, cInner b e N xs r m = .ret r' rest → ∃ pre, xs = pre ++ rest ∧ ∀ ys, cInner b e N (pre ++ ys) r m = .ret r' ys) ∧
    (∀ r' m' rest, cInner b e N xs r m = .exit r' m' rest → ∃ pre, xs = pre ++ rest ∧ ∀ ys, cInner b e N (pre ++ ys) r m = .exit r' m' ys)
  | [], r, m => by
    unfold cInner
    split
    · simp
    · rename_i h
      refine ⟨by simp, fun r' m' rest h' => ?_⟩
      simp only [Inner.exit.injEq] at h'
      obtain ⟨rfl, rfl, rfl⟩ := h'
      refine ⟨[], rfl, fun ys => ?_⟩
      cases ys <;> simp [cInner, h]
  | x :: xs, r, m => by
    by_cases h : m * b ≤ N
    · by_cases h2 : m * b = N
      · have hu : ∀ zs, cInner b e N (x :: zs) r m = .ret (r + e x * m) zs := by
          intro zs; rw [cInner, if_pos h, if_pos h2]
        rw [hu]
        refine ⟨fun r' rest h' => ?_, by simp⟩
        simp only [Inner.ret.injEq] at h'
        obtain ⟨rfl, rfl⟩ := h'
        exact ⟨[x], rfl, fun ys => hu ys⟩
      · have hu : ∀ zs, cInner b e N (x :: zs) r m = cInner b e N zs (r + e x * m) (m * b) := by
          intro zs; rw [cInner, if_pos h, if_neg h2]
        obtain ⟨i1, i2⟩ := cInner_local N xs (r + e x * m) (m * b)
        rw [hu]
        refine ⟨fun r' rest h' => ?_, fun r' m' rest h' => ?_⟩
        · obtain ⟨pre, e1, e2⟩ := i1 r' rest h'
          exact ⟨x :: pre, by rw [e1]; rfl, fun ys => by rw [List.cons_append, hu]; exact e2 ys⟩
        · obtain ⟨pre, e1, e2⟩ := i2 r' m' rest h'
          exact ⟨x :: pre, by rw [e1]; rfl, fun ys => by rw [List.cons_append, hu]; exact e2 ys⟩
    · have hu : ∀ zs, cInner b e N zs r m = .exit r m zs := by
        intro zs; cases zs <;> simp [cInner, h]
      rw [hu]
      refine ⟨by simp, fun r' m' rest h' => ?_⟩
      simp only [Inner.exit.injEq] at h'
      obtain ⟨rfl, rfl, rfl⟩ := h'
      exact ⟨[], rfl, fun ys => hu ys⟩

theorem cBucket_local (k N : Nat) : ∀ (xs : List Int) (u : Nat) (rest : List Int), cBucket e k N xs = .done u rest →
    ∃ pre, xs = pre ++ rest ∧ ∀ ys, cBucket e k N (pre ++ ys) = .done u ys
  | [], u, rest, h => by simp [cBucket] at h
  | x :: xs, u, rest, h => by
    by_cases hx : e x / k < N
    · have hu : ∀ zs, cBucket e k N (x :: zs) = .done (e x / k) zs := by intro zs; rw [cBucket, if_pos hx]
      rw [hu] at h
      simp only [Draw.done.injEq] at h
      obtain ⟨rfl, rfl⟩ := h
      exact ⟨[x], rfl, fun ys => hu ys⟩
    · have hu : ∀ zs, cBucket e k N (x :: zs) = cBucket e k N zs := by intro zs; rw [cBucket, if_neg hx]
      rw [hu] at h
      obtain ⟨pre, e1, e2⟩ := cBucket_local k N xs u rest h
      exact ⟨x :: pre, by rw [e1]; rfl, fun ys => by rw [List.cons_append, hu]; exact e2 ys⟩

theorem core_local : ∀ (f N : Nat) (xs : List Int) (u : Nat) (rest : List Int), core b e f N xs = .done u rest →
    ∃ pre, xs = pre ++ rest ∧ ∀ ys, core b e f N (pre ++ ys) = .done u ys
  | 0, N, xs, u, rest, h => by simp [core] at h
  | f + 1, N, xs, u, rest, h => by
    by_cases h1 : N = 1
    · have hu : ∀ zs, core b e (f + 1) N zs = .done 0 zs := by intro zs; unfold core; rw [if_pos h1]
      rw [hu] at h
      simp only [Draw.done.injEq] at h
      obtain ⟨rfl, rfl⟩ := h
      exact ⟨[], rfl, fun ys => hu ys⟩
    by_cases h2 : b = N
    · unfold core at h; rw [if_neg h1, if_pos h2] at h
      cases xs with
      | nil => simp at h
      | cons x xs =>
        simp only [Draw.done.injEq] at h
        obtain ⟨rfl, rfl⟩ := h
        exact ⟨[x], rfl, fun ys => by unfold core; rw [if_neg h1, if_pos h2]; rfl⟩
    by_cases h3 : b < N
    · have hu : ∀ zs, core b e (f + 1) N zs = match cInner b e N zs 0 1 with
          | Inner.more => Draw.more
          | Inner.ub => Draw.ub
          | Inner.ret r rest => Draw.done r rest
          | Inner.exit r m rest =>
            match core b e f ((N - 1) / m + 1) rest with
            | Draw.more => Draw.more
            | Draw.ub => Draw.ub
            | Draw.done i rest => if r + i * m < N then Draw.done (r + i * m) rest else core b e f N rest := by
        intro zs; conv_lhs => unfold core
        rw [if_neg h1, if_neg h2, if_pos h3]
        rfl
      rw [hu] at h
      obtain ⟨i1, i2⟩ := cInner_local (b := b) (e := e) N xs 0 1
      cases hc : cInner b e N xs 0 1 with
      | more => simp [hc] at h
      | ub => simp [hc] at h
      | ret r rest' =>
        simp only [hc, Draw.done.injEq] at h
        obtain ⟨rfl, rfl⟩ := h
        obtain ⟨pre, e1, e2⟩ := i1 _ _ hc
        exact ⟨pre, e1, fun ys => by rw [hu, e2]⟩
      | exit r m rest' =>
        simp only [hc] at h
        obtain ⟨pre, e1, e2⟩ := i2 _ _ _ hc
        cases hd : core b e f ((N - 1) / m + 1) rest' with
        | more => simp [hd] at h
        | ub => simp [hd] at h
        | done i rest'' =>
          simp only [hd] at h
          obtain ⟨pre2, e3, e4⟩ := core_local f _ rest' i rest'' hd
          by_cases hr : r + i * m < N
          · rw [if_pos hr] at h
            simp only [Draw.done.injEq] at h
            obtain ⟨rfl, rfl⟩ := h
            refine ⟨pre ++ pre2, by rw [e1, e3, List.append_assoc], fun ys => ?_⟩
            rw [hu, List.append_assoc, e2]
            simp only [e4, if_pos hr]
          · rw [if_neg hr] at h
            obtain ⟨pre3, e5, e6⟩ := core_local f _ rest'' u rest h
            refine ⟨pre ++ pre2 ++ pre3, by rw [e1, e3, e5, List.append_assoc, List.append_assoc], fun ys => ?_⟩
            rw [hu, List.append_assoc, List.append_assoc, e2]
            simp only [e4, if_neg hr]
            exact e6 ys
    · have hu : ∀ zs, core b e (f + 1) N zs = cBucket e (b / N) N zs := by
        intro zs; unfold core; rw [if_neg h1, if_neg h2, if_neg h3]
      rw [hu] at h
      obtain ⟨pre, e1, e2⟩ := cBucket_local (b / N) N xs u rest h
      exact ⟨pre, e1, fun ys => by rw [hu]; exact e2 ys⟩

theorem K_local {E : EngInfo} (hE : EngOK E) {N : Nat} (hN : 0 < N) : LocalOn E (K E.b (dig E) N) := by
  intro xs u rest hO h
  have hsuf := (K_done_lt hE hN hO h).2
  obtain ⟨pre, hpre⟩ := hsuf
  refine ⟨pre, hpre.symm, fun ys hys => ?_⟩
  have hOp : Outputs E pre := by rw [← hpre] at hO; exact Outputs.left hO
  have hb := EngInfo.b_ge hE
  rw [← core_eq_K hb (xs.length + ys.length + 1) N xs (outputs_dig hE hO) hN (by omega)] at h
  obtain ⟨pre', e1, e2⟩ := core_local _ N xs u rest h
  have : pre' = pre := List.append_cancel_right (e1.symm.trans hpre.symm)
  subst this
  rw [← core_eq_K hb (xs.length + ys.length + 1) N _ (outputs_dig hE (Outputs.append hOp hys)) hN
    (by rw [← hpre, List.length_append, List.length_append]; omega)]
  exact e2 ys

/-- A draw from `0 .. N-1`, as a natural number. -/
theorem generate_zero {E : EngInfo} (hE : EngOK E) {T : IntTy} {mx : Int} (hP : ParamOK T 0 mx) (xs : List Int) (hxs : Outputs E xs) :
    generate E T 0 mx xs = (K E.b (dig E) (mx.toNat + 1) xs).map (fun u : Nat => (u : Int)) := by
  have h := generate_eq_K hE hP xs hxs
  rw [Int.sub_zero] at h
  rw [h]
  cases hk : K E.b (dig E) (mx.toNat + 1) xs with
  | more => rfl
  | ub => rfl
  | done u rest =>
    simp only [Draw.map]
    congr 1
    have hlt := (K_done_lt hE (Nat.succ_pos _) hxs hk).1
    have hsz := size_le hP
    rw [Int.sub_zero] at hsz
    have hle := hP.le
    unfold out
    split
    · unfold castT
      split
      · rename_i hs
        have hmx := hP.max_ty
        unfold InTy at hmx
        rw [if_pos hs] at hmx
        unfold InSigned at hmx
        unfold toSigned
        have hpc := pow_cast (T.bits - 1)
        have h2 := two_pow_half hP
        have h3 := pow_cast T.bits
        have hu : u < 2 ^ (T.bits - 1) := by omega
        have hu' : u < 2 ^ T.bits := by omega
        simp only [Nat.mod_eq_of_lt hu']
        rw [if_pos hu]
      · rw [Nat.mod_eq_of_lt (by omega)]
    · omega

end UniformInt
end Boost.Random
