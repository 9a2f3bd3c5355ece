import Verif.Model.DiscreteRound
import Verif.Proofs.DiscreteProb
import Verif.Proofs.FaureBounds
import Verif.Proofs.Rounding
import Mathlib.Tactic.Positivity
import Mathlib.Tactic.FieldSimp
import Mathlib.Algebra.Order.Ring.Pow

/-!
# Alias tables in floating-point arithmetic
-/

namespace Boost.Random
namespace Discrete
open Spec

/-- What is used of the rounding. -/
structure Rel (fl : ℚ → ℚ) (u : ℚ) : Prop where
  mono : ∀ x y, x ≤ y → fl x ≤ fl y
  idem : ∀ x, fl (fl x) = fl x
  zero : fl 0 = 0
  one : fl 1 = 1
  rel : ∀ x, |fl x - x| ≤ u * |x|
  pos : 0 ≤ u

variable {fl : ℚ → ℚ} {u : ℚ}

abbrev mass (t : List (ℚ × Nat)) (l : List (ℚ × Nat)) (v : Nat) : ℚ := (l.map fun e => contrib (fun x : ℚ => x) (fun _ => 1) t e.2 v).sum
abbrev holds (l : List (ℚ × Nat)) (v : Nat) : ℚ := held (fun x : ℚ => x) l v
abbrev tot (l : List (ℚ × Nat)) : ℚ := total (fun x : ℚ => x) l

/-- What the construction does, up to `η` for an operation. -/
structure Near (n : Nat) (η : ℚ) (b l t t' : List (ℚ × Nat)) : Prop where
  len : t'.length = t.length
  keep : ∀ i, i ∉ l.map Prod.snd → t'[i]? = t[i]?
  mass : ∀ v, |mass t' l v - holds l v| ≤ |tot l - l.length| + 2 * η * l.length
  none : ∀ v, v ∉ l.map Prod.snd → Discrete.mass t' l v = 0
  zero : ∀ v, (0, v) ∈ b → Discrete.mass t' l v = 0 ∨ Discrete.mass t' l v = 1
  col : ∀ i ∈ l.map Prod.snd, ∃ x s, t'[i]? = some (x, s) ∧ 0 ≤ x ∧ x ≤ 1 ∧ (s < n ∨ x = 1 ∧ ∃ y, t[i]? = some (y, s))

theorem exact_arith (n : Nat) : Arith (fun x y : ℚ => some (x - y)) (fun _ => some 1) 1 (fun x : ℚ => x) (fun x => 0 ≤ x) (fun _ => 1) n :=
  ⟨fun x hx => hx, fun x y => Iff.rfl, fun x y _ _ h => ⟨x - y, rfl, rfl, by simpa using h⟩, fun i _ => ⟨rfl, zero_le_one⟩, fun i _ => le_refl _,
    fun x _ h i _ => le_of_lt h⟩

theorem fillRest_values (l t : List (ℚ × Nat)) : fillRest (fun _ => some (1 : ℚ)) l t = fillRest (fun _ => some 1) (l.map fun e => (1, e.2)) t := by
  induction l generalizing t with
  | nil => rfl
  | cons e l ih =>
    simp only [fillRest, List.map_cons]
    cases t[e.2]? with
    | none => rfl
    | some y => exact ih _

theorem holds_none {l : List (ℚ × Nat)} {v : Nat} (h : v ∉ l.map Prod.snd) : holds l v = 0 := by
  induction l with
  | nil => rfl
  | cons e l ih =>
    simp only [List.map_cons, List.mem_cons, not_or] at h
    unfold holds held
    rw [List.map_cons, List.sum_cons, if_neg (fun he => h.1 he.symm), zero_add]
    exact ih h.2

/-- Entries left over, all on one side of 1. -/
theorem leftover (l : List (ℚ × Nat)) (v : Nat) (h : (∀ e ∈ l, e.1 ≤ 1) ∨ (∀ e ∈ l, 1 ≤ e.1)) :
    |holds (l.map fun e => (1, e.2)) v - holds l v| ≤ |tot l - l.length| := by
  have key : ∀ l : List (ℚ × Nat), (∀ e ∈ l, e.1 ≤ 1) → 0 ≤ holds (l.map fun e => (1, e.2)) v - holds l v ∧
      holds (l.map fun e => (1, e.2)) v - holds l v ≤ l.length - tot l := by
    intro l
    induction l with
    | nil => intro _; simp [holds, held, tot, total]
    | cons e l ih =>
      intro hl
      obtain ⟨i1, i2⟩ := ih fun x hx => hl x (by simp [hx])
      have he := hl e (by simp)
      simp only [holds, held, tot, total, List.map_cons, List.sum_cons, List.length_cons, Nat.cast_add, Nat.cast_one] at i1 i2 ⊢
      by_cases hv : e.2 = v
      · simp only [hv, if_true]
        constructor <;> linarith
      · simp only [hv, if_false]
        constructor <;> linarith
  have key' : ∀ l : List (ℚ × Nat), (∀ e ∈ l, 1 ≤ e.1) → 0 ≤ holds l v - holds (l.map fun e => (1, e.2)) v ∧
      holds l v - holds (l.map fun e => (1, e.2)) v ≤ tot l - l.length := by
    intro l
    induction l with
    | nil => intro _; simp [holds, held, tot, total]
    | cons e l ih =>
      intro hl
      obtain ⟨i1, i2⟩ := ih fun x hx => hl x (by simp [hx])
      have he := hl e (by simp)
      simp only [holds, held, tot, total, List.map_cons, List.sum_cons, List.length_cons, Nat.cast_add, Nat.cast_one] at i1 i2 ⊢
      by_cases hv : e.2 = v
      · simp only [hv, if_true]
        constructor <;> linarith
      · simp only [hv, if_false]
        constructor <;> linarith
  rcases h with h | h
  · obtain ⟨h1, h2⟩ := key l h
    rw [abs_of_nonneg h1, abs_sub_comm]
    exact h2.trans (le_abs_self _)
  · obtain ⟨h1, h2⟩ := key' l h
    rw [abs_sub_comm, abs_of_nonneg h1]
    exact h2.trans (le_abs_self _)

theorem holds_ones {l : List (ℚ × Nat)} (hnd : (l.map Prod.snd).Nodup) {v : Nat} (h : v ∈ l.map Prod.snd) : holds (l.map fun e => (1, e.2)) v = 1 := by
  induction l with
  | nil => simp at h
  | cons e l ih =>
    rw [List.map_cons, List.nodup_cons] at hnd
    unfold holds held
    rw [List.map_cons, List.map_cons, List.sum_cons]
    simp only
    rw [List.map_cons, List.mem_cons] at h
    by_cases hv : e.2 = v
    · subst hv
      rw [if_pos rfl]
      have := holds_none (l := l.map fun e => ((1 : ℚ), e.2)) (v := e.2) (by simpa using hnd.1)
      unfold holds held at this
      rw [this, add_zero]
    · rw [if_neg hv, zero_add]
      exact ih hnd.2 (h.resolve_left fun h => hv h.symm)

theorem fill_near {n : Nat} {η : ℚ} (hη : 0 ≤ η) {b l t : List (ℚ × Nat)} (hnd : (l.map Prod.snd).Nodup) (hlt : ∀ e ∈ l, e.2 < n) (hlen : t.length = n)
    (hb : ∀ e ∈ b, e ∈ l) (h : (∀ e ∈ l, e.1 ≤ 1) ∨ (∀ e ∈ l, 1 ≤ e.1)) : ∃ t', fillRest (fun _ => some (1 : ℚ)) l t = some t' ∧ Near n η b l t t' := by
  have hsnd : (l.map fun e => ((1 : ℚ), e.2)).map Prod.snd = l.map Prod.snd := by rw [List.map_map]; rfl
  obtain ⟨t', h1, h2⟩ := fillRest_spec (exact_arith n) (l.map fun e => (1, e.2)) t (by rw [hsnd]; exact hnd)
    (fun e he => by obtain ⟨x, hx, rfl⟩ := List.mem_map.1 he; exact hlt x hx) hlen (fun e he => by obtain ⟨x, _, rfl⟩ := List.mem_map.1 he; rfl)
  have hm : ∀ v, Discrete.mass t' l v = holds (l.map fun e => (1, e.2)) v := fun v => by
    have := h2.mass v
    rw [List.map_map] at this
    exact this
  refine ⟨t', by rw [fillRest_values]; exact h1, ⟨h2.len, fun i hi => h2.keep i (by rw [hsnd]; exact hi), fun v => ?_, fun v hv => ?_, fun v hv => ?_, fun i hi => ?_⟩⟩
  · rw [hm v]
    have := leftover l v h
    have h0 : 0 ≤ 2 * η * (l.length : ℚ) := by positivity
    linarith
  · rw [hm v]
    exact holds_none (by rw [hsnd]; exact hv)
  · right
    rw [hm v]
    exact holds_ones hnd (List.mem_map.2 ⟨(0, v), hb _ hv, rfl⟩)
  · obtain ⟨x, s, e1, e2, e3, e4⟩ := h2.col i (by rw [hsnd]; exact hi)
    exact ⟨x, s, e1, e2, e3, e4⟩

/-- The loops. -/
theorem finish_near (R : Rel fl u) {n : Nat} {V : ℚ} (hV : 1 ≤ V) : ∀ (k : Nat) (b a t : List (ℚ × Nat)), b.length + a.length ≤ k →
    ((b ++ a).map Prod.snd).Nodup → (∀ e ∈ b ++ a, e.2 < n ∧ 0 ≤ e.1 ∧ e.1 ≤ V ∧ fl e.1 = e.1) → t.length = n →
    (∀ e ∈ b, e.1 < 1) → (∀ e ∈ a, 1 ≤ e.1) →
    ∃ t', finish (fun x y => some (fl (x - y))) (fun _ => some 1) 1 k b a t = some t' ∧ Near n (u * (1 + V)) b (b ++ a) t t'
  | k, [], a, t, _, hnd, hlt, hlen, _, ha => by
    obtain ⟨t', h1, h2⟩ := fill_near (b := []) (η := u * (1 + V)) (mul_nonneg R.pos (by linarith)) hnd (fun e he => (hlt e (by simpa using he)).1) hlen (by simp)
      (Or.inr fun e he => ha e (by simpa using he))
    refine ⟨t', ?_, h2⟩
    unfold finish
    cases k <;> simpa [pairLoop, fillRest] using h1
  | k, b :: bs, [], t, _, hnd, hlt, hlen, hb, _ => by
    rw [List.append_nil] at *
    obtain ⟨t', h1, h2⟩ := fill_near (b := b :: bs) (η := u * (1 + V)) (mul_nonneg R.pos (by linarith)) hnd (fun e he => (hlt e he).1) hlen (fun e he => he)
      (Or.inl fun e he => (hb e he).le)
    refine ⟨t', ?_, h2⟩
    unfold finish
    have hp : pairLoop (fun x y => some (fl (x - y))) (fun _ => some (1 : ℚ)) 1 k (b :: bs) [] t = some (b :: bs, [], t) := by cases k <;> rfl
    rw [hp]
    simp only [Option.bind_some, h1]
    rfl
  | 0, b :: bs, a :: as, t, hk, _, _, _, _, _ => by simp at hk
  | k + 1, (bv, bi) :: b, (av, ai) :: a, t, hk, hnd, hlt, hlen, hb, ha => by
    obtain ⟨hbi, hb0, _, _⟩ := hlt (bv, bi) (by simp)
    obtain ⟨hai, ha0, haV, hafl⟩ := hlt (av, ai) (by simp)
    simp only at hbi hai hb0 ha0 haV hafl
    have hb1 : bv < 1 := hb (bv, bi) (by simp)
    have ha1 : 1 ≤ av := ha (av, ai) (by simp)
    have hbt : bi < t.length := by omega
    obtain ⟨d, hd⟩ : ∃ d, fl (1 - bv) = d := ⟨_, rfl⟩
    obtain ⟨av', hav⟩ : ∃ z, fl (av - d) = z := ⟨_, rfl⟩
    have hd0 : 0 ≤ d := by rw [← hd, ← R.zero]; exact R.mono _ _ (by linarith)
    have hd1 : d ≤ 1 := by rw [← hd]; exact (R.mono _ _ (by linarith)).trans_eq R.one
    have hv0 : 0 ≤ av' := by rw [← hav, ← R.zero]; exact R.mono _ _ (by linarith)
    have hvle : av' ≤ av := by rw [← hav]; conv_rhs => rw [← hafl]
                               exact R.mono _ _ (by linarith)
    have hfl : fl av' = av' := by rw [← hav]; exact R.idem _
    have herr : |av' - (av - (1 - bv))| ≤ u * (1 + V) := by
      have e1 := R.rel (1 - bv)
      have e2 := R.rel (av - d)
      rw [hd, abs_of_nonneg (by linarith : (0 : ℚ) ≤ 1 - bv)] at e1
      rw [hav, abs_of_nonneg (by linarith : (0 : ℚ) ≤ av - d)] at e2
      have e3 : u * (1 - bv) ≤ u * 1 := mul_le_mul_of_nonneg_left (by linarith) R.pos
      have e4 : u * (av - d) ≤ u * V := mul_le_mul_of_nonneg_left (by linarith) R.pos
      rw [abs_le] at e1 e2 ⊢
      constructor <;> linarith [e1.1, e1.2, e2.1, e2.2]
    have hη : 0 ≤ u * (1 + V) := mul_nonneg R.pos (by linarith)
    have key : ∀ (b' a' : List (ℚ × Nat)), List.Perm (b' ++ a') ((av', ai) :: (b ++ a)) → b'.length + a'.length ≤ k →
        (∀ e ∈ b, e ∈ b') → (∀ e ∈ b', e.1 < 1) → (∀ e ∈ a', 1 ≤ e.1) →
        ∃ t', finish (fun x y => some (fl (x - y))) (fun _ => some 1) 1 k b' a' (t.set bi (bv, ai)) = some t' ∧
          Near n (u * (1 + V)) ((bv, bi) :: b) ((bv, bi) :: b ++ (av, ai) :: a) t t' := by
      intro b' a' hperm hk' hbb hb' ha'
      have hsnd : List.Perm ((bv, bi) :: b ++ (av, ai) :: a) ((bv, bi) :: (av, ai) :: (b ++ a)) := by
        rw [List.cons_append]
        exact List.Perm.cons _ List.perm_middle
      have hnd' : ((((bv, bi) :: (av, ai) :: (b ++ a)) : List (ℚ × Nat)).map Prod.snd).Nodup := (hsnd.map Prod.snd).nodup_iff.1 hnd
      simp only [List.map_cons, List.nodup_cons, List.mem_cons, not_or] at hnd'
      obtain ⟨⟨hbai, hbmem⟩, hamem, hndr⟩ := hnd'
      have hidx : List.Perm ((b' ++ a').map Prod.snd) (ai :: (b ++ a).map Prod.snd) := hperm.map Prod.snd
      obtain ⟨t', h1, h2⟩ := finish_near R hV k b' a' (t.set bi (bv, ai)) hk'
        (by rw [hidx.nodup_iff, List.nodup_cons]; exact ⟨hamem, hndr⟩)
        (by
          intro e he
          rw [hperm.mem_iff, List.mem_cons] at he
          rcases he with rfl | he
          · exact ⟨hai, hv0, hvle.trans haV, hfl⟩
          · apply hlt e
            rw [hsnd.mem_iff]
            simp [he])
        (by rw [List.length_set]; exact hlen) hb' ha'
      have hbnot : bi ∉ (b' ++ a').map Prod.snd := by
        rw [hidx.mem_iff, List.mem_cons, not_or]; exact ⟨hbai, hbmem⟩
      have ht'b : t'[bi]? = some (bv, ai) := by
        rw [h2.keep bi hbnot, List.getElem?_set_self hbt]
      have e4 : ∀ v, contrib (fun x : ℚ => x) (fun _ => 1) t' bi v = (if bi = v then bv else 0) + (if ai = v then 1 - bv else 0) := fun v => by
        unfold contrib; rw [ht'b]
      have em : ∀ v, Discrete.mass t' ((bv, bi) :: b ++ (av, ai) :: a) v =
          (if bi = v then bv else 0) + (if ai = v then 1 - bv else 0) + Discrete.mass t' (b' ++ a') v := fun v => by
        unfold Discrete.mass
        rw [(hsnd.map _).sum_eq, (hperm.map _).sum_eq, List.map_cons, List.sum_cons, List.map_cons, List.sum_cons, List.map_cons, List.sum_cons]
        simp only
        rw [e4 v]
      have hlen' : ((b' ++ a').length : ℚ) = (b ++ a).length + 1 := by rw [hperm.length_eq, List.length_cons]; push_cast; rfl
      have hlen2 : (((bv, bi) :: b ++ (av, ai) :: a).length : ℚ) = (b ++ a).length + 2 := by
        rw [hsnd.length_eq, List.length_cons, List.length_cons]; push_cast; ring
      refine ⟨t', h1, ⟨by rw [h2.len, List.length_set], fun j hj => ?_, fun v => ?_, fun v hv => ?_, fun v hv => ?_, fun j hj => ?_⟩⟩
      · rw [(hsnd.map Prod.snd).mem_iff] at hj
        simp only [List.map_cons, List.mem_cons, not_or] at hj
        rw [h2.keep j (by rw [hidx.mem_iff, List.mem_cons, not_or]; exact hj.2), List.getElem?_set_ne (fun h => hj.1 h.symm)]
      · have e1 := h2.mass v
        have e2 : holds (b' ++ a') v = (if ai = v then av' else 0) + holds (b ++ a) v := by
          unfold holds held; rw [(hperm.map _).sum_eq, List.map_cons, List.sum_cons]
        have e3 : holds ((bv, bi) :: b ++ (av, ai) :: a) v = (if bi = v then bv else 0) + ((if ai = v then av else 0) + holds (b ++ a) v) := by
          unfold holds held; rw [(hsnd.map _).sum_eq, List.map_cons, List.sum_cons, List.map_cons, List.sum_cons]
        have f1 : tot (b' ++ a') = av' + tot (b ++ a) := by
          unfold tot total; rw [(hperm.map _).sum_eq, List.map_cons, List.sum_cons]
        have f3 : tot ((bv, bi) :: b ++ (av, ai) :: a) = bv + (av + tot (b ++ a)) := by
          unfold tot total; rw [(hsnd.map _).sum_eq, List.map_cons, List.sum_cons, List.map_cons, List.sum_cons]
        have g1 : |tot (b' ++ a') - (b' ++ a').length| ≤ |tot ((bv, bi) :: b ++ (av, ai) :: a) - ((bv, bi) :: b ++ (av, ai) :: a).length| + u * (1 + V) := by
          rw [f1, f3, hlen', hlen2]
          refine le_trans (le_of_eq ?_) ((abs_add_le _ _).trans (add_le_add_right herr _))
          congr 1
          ring
        have g2 : |Discrete.mass t' ((bv, bi) :: b ++ (av, ai) :: a) v - holds ((bv, bi) :: b ++ (av, ai) :: a) v| ≤
            |Discrete.mass t' (b' ++ a') v - holds (b' ++ a') v| + u * (1 + V) := by
          rw [em v, e2, e3]
          by_cases hv : ai = v
          · simp only [hv, if_true]
            refine le_trans (le_of_eq ?_) ((abs_add_le _ _).trans (add_le_add_right herr _))
            congr 1
            ring
          · simp only [hv, if_false]
            refine le_trans (le_of_eq ?_) (le_add_of_nonneg_right hη)
            congr 1
            ring
        rw [hlen'] at e1 g1
        rw [hlen2] at g1 ⊢
        linarith
      · rw [(hsnd.map Prod.snd).mem_iff] at hv
        simp only [List.map_cons, List.mem_cons, not_or] at hv
        rw [em v, if_neg (fun h => hv.1 h.symm), if_neg (fun h => hv.2.1 h.symm), h2.none v (by rw [hidx.mem_iff, List.mem_cons, not_or]; exact hv.2)]
        norm_num
      · rcases List.mem_cons.1 hv with h | h
        · obtain ⟨h3, h4⟩ := Prod.mk.inj h
          left
          rw [em v, h4, if_pos rfl, if_neg (fun h => hbai h.symm), h2.none bi hbnot, ← h3]
          norm_num
        · have hvm : v ∈ (b ++ a).map Prod.snd := List.mem_map.2 ⟨(0, v), by simp [h], rfl⟩
          rw [em v, if_neg (fun h : bi = v => hbmem (h ▸ hvm)), if_neg (fun h : ai = v => hamem (h ▸ hvm)), zero_add, zero_add]
          exact h2.zero v (hbb _ h)
      · rw [(hsnd.map Prod.snd).mem_iff] at hj
        simp only [List.map_cons, List.mem_cons] at hj
        by_cases hjb : j = bi
        · subst hjb
          exact ⟨bv, ai, ht'b, hb0, hb1.le, Or.inl hai⟩
        · obtain ⟨x, s, c1, c2, c3, c4⟩ := h2.col j (by rw [hidx.mem_iff, List.mem_cons]; exact hj.resolve_left hjb)
          rw [List.getElem?_set_ne (fun h => hjb h.symm)] at c4
          exact ⟨x, s, c1, c2, c3, c4⟩
    simp only [List.length_cons] at hk
    unfold finish
    simp only [pairLoop, hbt, if_true, Option.bind_some, hd, hav]
    by_cases hlt' : av' < 1
    · rw [if_pos hlt']
      have hp : List.Perm ((av', ai) :: b ++ a) ((av', ai) :: (b ++ a)) := by rw [List.cons_append]
      exact key ((av', ai) :: b) a hp (by simp only [List.length_cons]; omega) (fun e he => by simp [he])
        (fun e he => by
          rcases List.mem_cons.1 he with rfl | he
          · exact hlt'
          · exact hb e (by simp [he]))
        (fun e he => ha e (by simp [he]))
    · rw [if_neg hlt']
      have hp : List.Perm (b ++ (av', ai) :: a) ((av', ai) :: (b ++ a)) := List.perm_middle
      exact key b ((av', ai) :: a) hp (by simp only [List.length_cons]; omega) (fun e he => he)
        (fun e he => hb e (by simp [he]))
        (fun e he => by
          rcases List.mem_cons.1 he with rfl | he
          · exact not_lt.1 hlt'
          · exact ha e (by simp [he]))

/-- The table as a whole. -/
theorem build_near (R : Rel fl u) {V : ℚ} (hV : 1 ≤ V) (vals : List ℚ) (t : List (ℚ × Nat)) (ht : t.length = vals.length)
    (hok : ∀ x ∈ vals, 0 ≤ x ∧ x ≤ V ∧ fl x = x) :
    ∃ t', build (fun x y => some (fl (x - y))) (fun _ => some 1) 1 vals t = some t' ∧ t'.length = vals.length ∧
      (∀ v, |((List.range vals.length).map fun i => contrib (fun x : ℚ => x) (fun _ => 1) t' i v).sum - vals.getD v 0| ≤
        |vals.sum - vals.length| + 2 * (u * (1 + V)) * vals.length) ∧
      (∀ v, vals[v]? = some 0 → ((List.range vals.length).map fun i => contrib (fun x : ℚ => x) (fun _ => 1) t' i v).sum = 0 ∨
        ((List.range vals.length).map fun i => contrib (fun x : ℚ => x) (fun _ => 1) t' i v).sum = 1) ∧
      ∀ i, i < vals.length → ∃ x s, t'[i]? = some (x, s) ∧ 0 ≤ x ∧ x ≤ 1 ∧ (s < vals.length ∨ x = 1 ∧ ∃ y, t[i]? = some (y, s)) := by
  obtain ⟨n, hn⟩ : ∃ n, vals.length = n := ⟨_, rfl⟩
  have hperm : List.Perm ((vals.zipIdx.filter fun e => e.1 < 1) ++ vals.zipIdx.filter fun e => ¬ e.1 < 1) vals.zipIdx := by
    have := List.filter_append_perm (fun e : ℚ × Nat => decide (e.1 < 1)) vals.zipIdx
    simpa [-not_lt] using this
  have hidx : vals.zipIdx.map Prod.snd = List.range n := by rw [List.zipIdx_map_snd, hn, List.range_eq_range']
  have hfst : vals.zipIdx.map Prod.fst = vals := List.zipIdx_map_fst _ _
  have hmem : ∀ e ∈ vals.zipIdx, e.2 < n ∧ 0 ≤ e.1 ∧ e.1 ≤ V ∧ fl e.1 = e.1 := by
    intro e he
    constructor
    · rw [← List.mem_range, ← hidx]; exact List.mem_map_of_mem he
    · apply hok; rw [← hfst]; exact List.mem_map_of_mem he
  obtain ⟨t', h1, h2⟩ := finish_near R hV vals.length (vals.zipIdx.filter fun e => e.1 < 1) (vals.zipIdx.filter fun e => ¬ e.1 < 1) t (n := n)
    (by rw [← List.length_append, hperm.length_eq, List.length_zipIdx])
    (by rw [(hperm.map Prod.snd).nodup_iff, hidx]; exact List.nodup_range)
    (fun e he => hmem e (hperm.mem_iff.1 he)) (by rw [ht, hn])
    (fun e he => by
      have := List.of_mem_filter he
      simpa using this)
    (fun e he => by
      have := List.of_mem_filter he
      simpa using this)
  have em : ∀ v, Discrete.mass t' ((vals.zipIdx.filter fun e => e.1 < 1) ++ vals.zipIdx.filter fun e => ¬ e.1 < 1) v =
      ((List.range vals.length).map fun i => contrib (fun x : ℚ => x) (fun _ => 1) t' i v).sum := fun v => by
    unfold Discrete.mass
    rw [(hperm.map _).sum_eq, hn, ← hidx, List.map_map]
    rfl
  refine ⟨t', h1, by rw [h2.len, ht], fun v => ?_, fun v hv => ?_, fun i hi => ?_⟩
  · have hm := h2.mass v
    have e1 : holds ((vals.zipIdx.filter fun e => e.1 < 1) ++ vals.zipIdx.filter fun e => ¬ e.1 < 1) v = vals.getD v 0 := by
      have : holds ((vals.zipIdx.filter fun e => e.1 < 1) ++ vals.zipIdx.filter fun e => ¬ e.1 < 1) v = held (fun x : ℚ => x) vals.zipIdx v := by
        unfold holds held; rw [(hperm.map _).sum_eq]
      rw [this, zipIdx_held, if_pos (Nat.zero_le _), Nat.sub_zero, List.getD_eq_getElem?_getD]
      cases vals[v]? <;> rfl
    have e2 : tot ((vals.zipIdx.filter fun e => e.1 < 1) ++ vals.zipIdx.filter fun e => ¬ e.1 < 1) = vals.sum := by
      unfold tot total
      rw [(hperm.map _).sum_eq]
      conv_rhs => rw [← hfst]
    rw [em v, e1, e2, hperm.length_eq, List.length_zipIdx] at hm
    exact hm
  · rw [← em v]
    refine h2.zero v (List.mem_filter.2 ⟨?_, by simp⟩)
    exact List.mem_zipIdx_iff_getElem?.2 hv
  · obtain ⟨x, s, e1, e2, e3, e4⟩ := h2.col i (by rw [(hperm.map Prod.snd).mem_iff, hidx]; exact List.mem_range.2 (by omega))
    exact ⟨x, s, e1, e2, e3, by rw [hn]; exact e4⟩

/-! ## The normalized weights -/

/-- Equal up to `k` rounding errors. -/
def Close (u : ℚ) (k : Nat) (x y : ℚ) : Prop := x * (1 - u) ^ k ≤ y ∧ y * (1 - u) ^ k ≤ x

theorem Close.round (R : Rel fl u) (hu : u ≤ 1) {x : ℚ} (hx : 0 ≤ x) : Close u 1 x (fl x) := by
  have h := R.rel x
  rw [abs_of_nonneg hx, abs_le] at h
  have h0 := R.pos
  unfold Close
  rw [pow_one]
  refine ⟨by linarith [h.1], ?_⟩
  have h1 : fl x * (1 - u) ≤ (x + u * x) * (1 - u) := mul_le_mul_of_nonneg_right (by linarith [h.2]) (by linarith)
  have h2 : 0 ≤ x * (u * u) := by positivity
  linarith

theorem Close.trans {j k : Nat} {x y z : ℚ} (hu0 : 0 ≤ 1 - u) (h1 : Close u j x y) (h2 : Close u k y z) : Close u (j + k) x z := by
  unfold Close at *
  have p1 : 0 ≤ (1 - u) ^ j := pow_nonneg hu0 _
  have p2 : 0 ≤ (1 - u) ^ k := pow_nonneg hu0 _
  constructor
  · calc x * (1 - u) ^ (j + k) = x * (1 - u) ^ j * (1 - u) ^ k := by ring
      _ ≤ y * (1 - u) ^ k := mul_le_mul_of_nonneg_right h1.1 p2
      _ ≤ z := h2.1
  · calc z * (1 - u) ^ (j + k) = z * (1 - u) ^ k * (1 - u) ^ j := by ring
      _ ≤ y * (1 - u) ^ j := mul_le_mul_of_nonneg_right h2.2 p1
      _ ≤ x := h1.2

theorem Close.add {k : Nat} {x y c : ℚ} (hu0 : 0 ≤ 1 - u) (hu1 : 1 - u ≤ 1) (hc : 0 ≤ c) (h : Close u k x y) : Close u k (x + c) (y + c) := by
  unfold Close at *
  have p : c * (1 - u) ^ k ≤ c * 1 := mul_le_mul_of_nonneg_left (pow_le_one₀ hu0 hu1) hc
  constructor <;> linarith [h.1, h.2]

theorem Close.div {k : Nat} {x y c : ℚ} (hx : 0 < x) (hy : 0 < y) (hc : 0 ≤ c) (h : Close u k x y) : Close u k (c / x) (c / y) := by
  unfold Close at *
  constructor
  · rw [div_mul_eq_mul_div, div_le_div_iff₀ hx hy]
    have := mul_le_mul_of_nonneg_left h.2 hc
    linarith
  · rw [div_mul_eq_mul_div, div_le_div_iff₀ hy hx]
    have := mul_le_mul_of_nonneg_left h.1 hc
    linarith

theorem Close.scale {k : Nat} {x y c : ℚ} (hc : 0 ≤ c) (h : Close u k x y) : Close u k (x / c) (y / c) := by
  unfold Close at *
  constructor
  · rw [div_mul_eq_mul_div]
    exact div_le_div_of_nonneg_right h.1 hc
  · rw [div_mul_eq_mul_div]
    exact div_le_div_of_nonneg_right h.2 hc

theorem Close.bound {k : Nat} {x y : ℚ} (hu0 : 0 ≤ u) (hk : k * u ≤ 1 / 2) (hu1 : u ≤ 1) (hx : 0 ≤ x) (hy : 0 ≤ y) (h : Close u k x y) :
    |y - x| ≤ 2 * (k * u) * x := by
  have hb : 1 - k * u ≤ (1 - u) ^ k := by
    have := one_add_mul_le_pow (a := -u) (by linarith) k
    rw [← sub_eq_add_neg] at this
    linarith
  unfold Close at h
  have a1 : x * (1 - k * u) ≤ y := (mul_le_mul_of_nonneg_left hb hx).trans h.1
  have a2 : y * (1 - k * u) ≤ x := (mul_le_mul_of_nonneg_left hb hy).trans h.2
  have hku : 0 ≤ k * u := by positivity
  have a3 : y * (k * u) ≤ y * (1 / 2) := mul_le_mul_of_nonneg_left hk hy
  have a4 : y ≤ 2 * x := by linarith
  have a5 : y * (k * u) ≤ 2 * x * (k * u) := mul_le_mul_of_nonneg_right a4 hku
  have a6 : 0 ≤ x * (k * u) := by positivity
  rw [abs_le]
  constructor <;> linarith

theorem sum_close (R : Rel fl u) (hu : u ≤ 1) : ∀ (ws : List ℚ) (s s' : ℚ) (k : Nat), (∀ x ∈ ws, 0 ≤ x) → 0 ≤ s' → Close u k s s' →
    0 ≤ ws.foldl (fun s x => fl (s + x)) s' ∧ Close u (k + ws.length) (s + ws.sum) (ws.foldl (fun s x => fl (s + x)) s')
  | [], s, s', k, _, h0, h => by simpa using ⟨h0, h⟩
  | x :: ws, s, s', k, hw, h0, h => by
    have hx := hw x (by simp)
    have h1 : Close u (k + 1) (s + x) (fl (s' + x)) := (h.add (by linarith) (by linarith [R.pos]) hx).trans (by linarith) (Close.round R hu (by linarith))
    have h2 : 0 ≤ fl (s' + x) := by rw [← R.zero]; exact R.mono _ _ (by linarith)
    obtain ⟨h3, h4⟩ := sum_close R hu ws (s + x) (fl (s' + x)) (k + 1) (fun y hy => hw y (by simp [hy])) h2 h1
    refine ⟨h3, ?_⟩
    have : k + (ws.length + 1) = k + 1 + ws.length := by omega
    rw [List.sum_cons, List.length_cons, this, ← add_assoc, List.foldl_cons]
    exact h4

theorem rel_of_nearest {p : Nat} (hp : 1 ≤ p) {fl : ℚ → ℚ} (H : Nearest p fl) : Rel fl (1 / 2 ^ p) := by
  have R := Nearest.rounding H
  refine ⟨R.mono, fun x => R.exact _ (R.repr x), R.exact 0 (Representable.zero p), R.exact 1 (Representable.one hp), fun x => ?_, by positivity⟩
  rw [abs_sub_comm]
  refine (Faure.nearest_rel hp H x).trans (le_of_eq ?_)
  ring

/-- The normalized weights and their exact values. -/
theorem normalized (R : Rel fl u) (ws : List ℚ) (hn : fl ws.length = ws.length) (hu : 2 * ((ws.length : ℚ) + 2) * u ≤ 1) (h0 : ∀ x ∈ ws, 0 ≤ x) (hs : 0 < ws.sum)
    (x : ℚ) (hx : 0 ≤ x) : 0 ≤ fl (x / realAverage fl ws) ∧
      |fl (x / realAverage fl ws) - x * ws.length / ws.sum| ≤ 2 * ((ws.length + 2) * u) * (x * ws.length / ws.sum) := by
  have hn0 : 0 < ws.length := List.length_pos_iff.2 (by rintro rfl; simp at hs)
  have hn1 : (0 : ℚ) < ws.length := by exact_mod_cast hn0
  have hp := R.pos
  have hu1 : u ≤ 1 / 4 := by nlinarith
  obtain ⟨s0, s1⟩ := sum_close R (by linarith) ws 0 0 0 h0 (le_refl _) (by unfold Close; simp)
  rw [zero_add, zero_add] at s1
  obtain ⟨S, hS⟩ : ∃ S, ws.foldl (fun s x => fl (s + x)) 0 = S := ⟨_, rfl⟩
  rw [hS] at s0 s1
  have ha : realAverage fl ws = fl (S / ws.length) := by unfold realAverage; rw [hS, hn]
  have a1 : Close u (ws.length + 1) (ws.sum / ws.length) (realAverage fl ws) := by
    rw [ha]
    exact (s1.scale hn1.le).trans (by linarith) (Close.round R (by linarith) (by positivity))
  have apos : 0 < realAverage fl ws := by
    refine lt_of_lt_of_le ?_ a1.1
    have : 0 < 1 - u := by linarith
    positivity
  have v1 : Close u (ws.length + 1 + 1) (x / (ws.sum / ws.length)) (fl (x / realAverage fl ws)) :=
    (a1.div (by positivity) apos hx).trans (by linarith) (Close.round R (by linarith) (by positivity))
  have v0 : 0 ≤ fl (x / realAverage fl ws) := by
    have := R.mono 0 (x / realAverage fl ws) (by positivity)
    rwa [R.zero] at this
  refine ⟨v0, ?_⟩
  have e : x / (ws.sum / ws.length) = x * ws.length / ws.sum := by field_simp
  rw [e] at v1
  have := v1.bound hp (by push_cast; linarith) (by linarith) (by positivity) v0
  push_cast at this
  refine this.trans (le_of_eq ?_)
  ring

theorem sum_map_close (f g : ℚ → ℚ) (c : ℚ) : ∀ ws : List ℚ, (∀ x ∈ ws, |f x - g x| ≤ c * g x) → |(ws.map f).sum - (ws.map g).sum| ≤ c * (ws.map g).sum
  | [], _ => by simp
  | x :: ws, h => by
    have h1 := h x (by simp)
    have h2 := sum_map_close f g c ws fun y hy => h y (by simp [hy])
    simp only [List.map_cons, List.sum_cons]
    rw [abs_le] at *
    constructor <;> linarith [h1.1, h1.2, h2.1, h2.2]

theorem le_sum_of_mem : ∀ {ws : List ℚ}, (∀ x ∈ ws, 0 ≤ x) → ∀ x ∈ ws, x ≤ ws.sum
  | [], _, x, hx => by simp at hx
  | y :: ws, h0, x, hx => by
    have hy := h0 y (by simp)
    have hnn : 0 ≤ ws.sum := List.sum_nonneg fun z hz => h0 z (by simp [hz])
    rw [List.sum_cons]
    rcases List.mem_cons.1 hx with rfl | hx
    · linarith
    · linarith [le_sum_of_mem (fun z hz => h0 z (by simp [hz])) x hx]

/-- The table of rounded weights. -/
theorem realInitRound_full (R : Rel fl u) (old : List (ℚ × Nat)) (ws : List ℚ) (hn : fl ws.length = ws.length) (hu : 2 * ((ws.length : ℚ) + 2) * u ≤ 1)
    (h0 : ∀ x ∈ ws, 0 ≤ x) (hs : 0 < ws.sum) :
    ∃ t, realInitRound fl old ws = some t ∧ t.length = ws.length ∧
      (∀ v, |((List.range ws.length).map fun i => contrib (fun x : ℚ => x) (fun _ => 1) t i v).sum - ws.getD v 0 * ws.length / ws.sum| ≤
        (8 * ws.length + 10) * u * ws.length) ∧
      (∀ v, ws[v]? = some 0 → ((List.range ws.length).map fun i => contrib (fun x : ℚ => x) (fun _ => 1) t i v).sum = 0 ∨
        ((List.range ws.length).map fun i => contrib (fun x : ℚ => x) (fun _ => 1) t i v).sum = 1) ∧
      ∀ i, i < ws.length → ∃ x s, t[i]? = some (x, s) ∧ 0 ≤ x ∧ x ≤ 1 ∧ (s < ws.length ∨ x = 1 ∧ ∃ y, (resize 0 ws.length old)[i]? = some (y, s)) := by
  have hne : ws ≠ [] := by rintro rfl; simp at hs
  have hn0 : 0 < ws.length := List.length_pos_iff.2 hne
  have hn1 : (1 : ℚ) ≤ ws.length := by exact_mod_cast hn0
  have hp := R.pos
  have hN := fun x hx => normalized R ws hn hu h0 hs x hx
  have hle : ∀ x, 0 ≤ x → x ≤ ws.sum → x * ws.length / ws.sum ≤ ws.length := fun x hx h => by
    rw [div_le_iff₀ hs]
    nlinarith
  have hV : ∀ x, 0 ≤ x → x ≤ ws.sum → fl (x / realAverage fl ws) ≤ 2 * ws.length := fun x hx h => by
    have h1 := (abs_le.1 (hN x hx).2).2
    have h2 := hle x hx h
    have h3 : 0 ≤ x * ws.length / ws.sum := by positivity
    have h4 : 2 * ((ws.length + 2) * u) * (x * ws.length / ws.sum) ≤ 1 * (x * ws.length / ws.sum) := mul_le_mul_of_nonneg_right (by linarith) h3
    linarith
  obtain ⟨t, h1, h2, h3, h4, h5⟩ := build_near R (V := 2 * ws.length) (by linarith) (ws.map fun x => fl (x / realAverage fl ws)) (resize 0 ws.length old)
    (by rw [List.length_map]; unfold resize; simp; omega) (fun y hy => by
      obtain ⟨x, hx, rfl⟩ := List.mem_map.1 hy
      exact ⟨(hN x (h0 x hx)).1, hV x (h0 x hx) (le_sum_of_mem h0 x hx), R.idem _⟩)
  rw [List.length_map] at h2 h3 h4 h5
  refine ⟨t, by unfold realInitRound; rw [if_neg hne]; exact h1, h2, fun v => ?_, fun v hv => ?_, h5⟩
  · have a1 := h3 v
    have a2 : |(ws.map fun x => fl (x / realAverage fl ws)).sum - ws.length| ≤ 2 * ((ws.length + 2) * u) * ws.length := by
      have := sum_map_close (fun x => fl (x / realAverage fl ws)) (fun x => x * ws.length / ws.sum) (2 * ((ws.length + 2) * u)) ws fun x hx => (hN x (h0 x hx)).2
      have e : (ws.map fun x => x * ws.length / ws.sum).sum = ws.length := by
        have : (fun x : ℚ => x * ws.length / ws.sum) = fun x => x * (ws.length / ws.sum) := by funext x; ring
        rw [this, List.sum_map_mul_right, List.map_id']
        field_simp
      rw [e] at this
      exact this
    have a3 : |(ws.map fun x => fl (x / realAverage fl ws)).getD v 0 - ws.getD v 0 * ws.length / ws.sum| ≤ 2 * ((ws.length + 2) * u) * ws.length := by
      rw [List.getD_eq_getElem?_getD, List.getD_eq_getElem?_getD, List.getElem?_map]
      have hnn : 0 ≤ 2 * (((ws.length : ℚ) + 2) * u) := by positivity
      cases h : ws[v]? with
      | none => simp; positivity
      | some x =>
        have hx := List.mem_of_getElem? h
        simp only [Option.map_some, Option.getD_some]
        exact (hN x (h0 x hx)).2.trans (mul_le_mul_of_nonneg_left (hle x (h0 x hx) (le_sum_of_mem h0 x hx)) hnn)
    have a4 := abs_sub_le (((List.range ws.length).map fun i => contrib (fun x : ℚ => x) (fun _ => 1) t i v).sum)
      ((ws.map fun x => fl (x / realAverage fl ws)).getD v 0) (ws.getD v 0 * ws.length / ws.sum)
    refine a4.trans ?_
    have : (8 * (ws.length : ℚ) + 10) * u * ws.length = 2 * ((ws.length + 2) * u) * ws.length + 2 * (u * (1 + 2 * ws.length)) * ws.length +
        2 * ((ws.length + 2) * u) * ws.length := by ring
    rw [this]
    linarith
  · apply h4 v
    rw [List.getElem?_map, hv, Option.map_some, zero_div, R.zero]

/-- The same without the old table. -/
theorem realInitRound_spec (R : Rel fl u) (old : List (ℚ × Nat)) (ws : List ℚ) (hn : fl ws.length = ws.length) (hu : 2 * ((ws.length : ℚ) + 2) * u ≤ 1)
    (h0 : ∀ x ∈ ws, 0 ≤ x) (hs : 0 < ws.sum) :
    ∃ t, realInitRound fl old ws = some t ∧ t.length = ws.length ∧
      (∀ v, |((List.range ws.length).map fun i => contrib (fun x : ℚ => x) (fun _ => 1) t i v).sum - ws.getD v 0 * ws.length / ws.sum| ≤
        (8 * ws.length + 10) * u * ws.length) ∧
      (∀ v, ws[v]? = some 0 → ((List.range ws.length).map fun i => contrib (fun x : ℚ => x) (fun _ => 1) t i v).sum = 0 ∨
        ((List.range ws.length).map fun i => contrib (fun x : ℚ => x) (fun _ => 1) t i v).sum = 1) ∧
      ∀ i, i < ws.length → ∃ x s, t[i]? = some (x, s) ∧ 0 ≤ x ∧ x ≤ 1 ∧ (s < ws.length ∨ x = 1) := by
  obtain ⟨t, h1, h2, h3, h4, h5⟩ := realInitRound_full R old ws hn hu h0 hs
  refine ⟨t, h1, h2, h3, h4, fun i hi => ?_⟩
  obtain ⟨x, s, c1, c2, c3, c4⟩ := h5 i hi
  exact ⟨x, s, c1, c2, c3, c4.imp id fun h => h.1⟩

/-- The columns with the test values `k/M`: the share of a value, up to one in `M`. -/
theorem pick_share {n : Nat} {t : List (ℚ × Nat)} (hcol : ∀ i, i < n → ∃ x s, t[i]? = some (x, s) ∧ 0 ≤ x ∧ x ≤ 1 ∧ (s < n ∨ x = 1)) {M : Nat} (hM : 0 < M)
    (v : Nat) : |((((Finset.range n ×ˢ Finset.range M).filter fun p => realPick t p.1 ((p.2 : ℚ) / M) = some v).card : ℚ)) -
      ((List.range n).map fun i => contrib (fun x : ℚ => x) (fun _ => 1) t i v).sum * M| ≤ n := by
  have hM0 : (0 : ℚ) < M := by exact_mod_cast hM
  rw [Finset.card_filter, Finset.sum_product, list_sum_range_rat, Finset.sum_mul, Nat.cast_sum, ← Finset.sum_sub_distrib]
  have e : ∀ i ∈ Finset.range n, |((∑ k ∈ Finset.range M, if realPick t i ((k : ℚ) / M) = some v then 1 else 0 : Nat) : ℚ) -
      contrib (fun x : ℚ => x) (fun _ => 1) t i v * M| ≤ 1 := by
    intro i hi
    obtain ⟨x, s, c1, c2, c3, _⟩ := hcol i (Finset.mem_range.1 hi)
    obtain ⟨m, hm⟩ : ∃ m, ⌈x * M⌉₊ = m := ⟨_, rfl⟩
    have hxM : 0 ≤ x * M := by positivity
    have m1 : x * M ≤ m := by rw [← hm]; exact Nat.le_ceil _
    have m2 : (m : ℚ) < x * M + 1 := by rw [← hm]; exact Nat.ceil_lt_add_one hxM
    have hmM : m ≤ M := by
      rw [← hm, Nat.ceil_le]
      nlinarith
    rw [← Finset.card_filter]
    have e1 : ((Finset.range M).filter fun k : Nat => realPick t i ((k : ℚ) / M) = some v) = (Finset.range M).filter fun k => (if k < m then i else s) = v := by
      apply Finset.filter_congr
      intro k _
      simp only [realPick, c1, Option.map_some, Option.some.injEq]
      have : (k : ℚ) / M < x ↔ k < m := by
        rw [div_lt_iff₀ hM0, ← hm, Nat.lt_ceil]
      simp only [this]
    rw [e1, card_pick i s m M v hmM]
    unfold contrib
    simp only [c1]
    push_cast [hmM]
    rw [abs_le]
    split <;> split <;> constructor <;> linarith
  refine (Finset.abs_sum_le_sum_abs _ _).trans ((Finset.sum_le_sum e).trans (le_of_eq ?_))
  simp

end Discrete
end Boost.Random
