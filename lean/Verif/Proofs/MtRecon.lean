import Verif.Model.MtJump
import Verif.Spec.MtJump
import Verif.Proofs.MtBack

/-!
# `reconstruct_state`: the array of the sequence whose low bits are given
-/

namespace Boost.Random
namespace Mt
open Spec

variable {P : Params}

theorem testBit_join (r x y i : Nat) : (mtJoin r x y).testBit i = if i < r then y.testBit i else x.testBit i := by
  unfold mtJoin
  rw [Nat.mul_comm, Nat.testBit_two_pow_mul_add _ (Nat.mod_lt _ (Nat.two_pow_pos r))]
  by_cases h : i < r
  · rw [if_pos h, if_pos h, Nat.testBit_mod_two_pow, decide_eq_true h, Bool.true_and]
  · rw [if_neg h, if_neg h, Nat.testBit_div_two_pow, Nat.sub_add_cancel (by omega)]

theorem testBit_mtA (a y i : Nat) : (mtA a y).testBit i = (y.testBit (i + 1) ^^ (y.testBit 0 && a.testBit i)) := by
  unfold mtA
  rw [Nat.testBit_xor, Nat.testBit_succ, Nat.testBit_zero]
  by_cases h : y % 2 = 1
  · simp [h]
  · simp [h]

theorem testBit_unshift (hb : P.bits = P.w) (b : Bool) (y : Nat) {i : Nat} (hi : i < P.w) :
    (unshift P b y).testBit i = if i = 0 then b else (y.testBit (i - 1) ^^ (b && P.a.testBit (i - 1))) := by
  unfold unshift
  cases b
  · rw [if_neg (by simp), Nat.testBit_mod_two_pow, hb, decide_eq_true hi, Nat.testBit_shiftLeft]
    by_cases h : i = 0
    · simp [h]
    · simp [h, show 1 ≤ i by omega]
  · rw [if_pos rfl, Nat.testBit_or, Nat.testBit_mod_two_pow, hb, decide_eq_true hi, Nat.testBit_shiftLeft, Nat.testBit_xor]
    by_cases h : i = 0
    · simp [h]
    · have : Nat.testBit 1 i = false := Nat.testBit_lt_two_pow (Nat.one_lt_two_pow h)
      simp [h, show 1 ≤ i by omega, this]

theorem unshift_lt (hb : P.bits = P.w) (hw : 1 ≤ P.w) (b : Bool) (y : Nat) : unshift P b y < 2 ^ P.w := by
  unfold unshift
  have := Nat.two_pow_pos P.w
  split
  · exact Nat.or_lt_two_pow (by rw [hb]; exact Nat.mod_lt _ this) (Nat.one_lt_two_pow (by omega))
  · rw [hb]; exact Nat.mod_lt _ this

/-- How much further bits must be known for bit `i` of a word. -/
def reach (P : Params) : Nat → Nat
  | 0 => 0
  | i + 1 => reach P i + if i + 1 < P.r then P.n - 1 else P.n

theorem reach_eq (hn : 1 ≤ P.n) (hr : 1 ≤ P.r) : ∀ i, reach P i = i * (P.n - 1) + (i + 1 - P.r)
  | 0 => by rw [reach]; omega
  | i + 1 => by
    rw [reach, reach_eq hn hr i, Nat.add_mul, Nat.one_mul]
    split <;> omega

theorem reach_mono (P : Params) {i j : Nat} (h : i ≤ j) : reach P i ≤ reach P j := by
  induction h with
  | refl => exact le_rfl
  | step _ ih => rw [reach]; omega

theorem mtBits_eq (hv : MtValid P) : mtBits P = reach P (P.w - 1) + (P.n - 1) := by
  have h1 := hv.r_lt; have h2 := hv.r_pos; have h3 := hv.m_lt
  rw [reach_eq (by omega) h2, mtBits]
  obtain ⟨n, hn⟩ : ∃ n, P.n = n + 1 := ⟨P.n - 1, by omega⟩
  obtain ⟨w, hw⟩ : ∃ w, P.w = w + 1 := ⟨P.w - 1, by omega⟩
  rw [hn, hw]
  simp only [Nat.add_sub_cancel, Nat.add_mul, Nat.mul_add, Nat.one_mul, Nat.mul_one]
  omega

theorem n_le_mtBits (hv : MtValid P) : 2 * (P.n - 1) ≤ mtBits P := by
  have h1 := hv.r_lt; have h2 := hv.r_pos; have h3 := hv.m_lt
  have := reach_mono P (show 1 ≤ P.w - 1 by omega)
  have e : reach P 1 ≥ P.n - 1 := by
    rw [reach, reach]; split <;> omega
  rw [mtBits_eq hv]; omega

variable {W : Nat → Nat} {p : Nat → Option Bool}

theorem getElem?_set' {x : List Nat} {i j v : Nat} (hi : i < x.length) : (x.set i v)[j]? = if i = j then some v else x[j]? := by
  rw [List.getElem?_set]
  by_cases h : i = j
  · rw [if_pos h, if_pos h, if_pos (h ▸ hi)]
  · rw [if_neg h, if_neg h]

theorem mod_ne {n a b : Nat} (h1 : a < b) (h2 : b < a + n) : a % n ≠ b % n := by
  intro h
  have := (Nat.modEq_iff_dvd' h1.le).1 h
  have := Nat.le_of_dvd (by omega) this
  omega

/-- The first loop. -/
theorem fillLast_spec (hn : 1 ≤ P.n) : ∀ (cnt j : Nat) (x : List Nat), cnt ≤ P.n → x.length = P.n → (∀ i, j ≤ i → i < j + cnt → p i = some ((W (i + 1)).testBit 0)) →
    ∃ x', fillLast P p cnt j x = some x' ∧ x'.length = P.n ∧ (∀ i, j ≤ i → i < j + cnt → x'[i % P.n]? = some ((W (i + 1)).testBit 0).toNat) ∧
      (∀ i, (∀ s, j ≤ s → s < j + cnt → i ≠ s % P.n) → x'[i]? = x[i]?)
  | 0, j, x, _, hl, _ => ⟨x, rfl, hl, fun i h1 h2 => by omega, fun _ _ => rfl⟩
  | c + 1, j, x, hc, hl, hp => by
    have hm : j % P.n < P.n := Nat.mod_lt _ hn
    obtain ⟨x', e1, e2, e3, e4⟩ := fillLast_spec hn c (j + 1) (x.set (j % P.n) ((W (j + 1)).testBit 0).toNat) (by omega) (by rw [List.length_set, hl])
      (fun i h1 h2 => hp i (by omega) (by omega))
    refine ⟨x', ?_, e2, fun i h1 h2 => ?_, fun i h => ?_⟩
    · rw [fillLast, hp j le_rfl (by omega), Option.bind_some, if_pos (by omega)]
      exact e1
    · rcases Nat.eq_or_lt_of_le h1 with rfl | h
      · rw [e4 _ (fun s h1 h2 => mod_ne (by omega) (by omega)), getElem?_set' (by omega), if_pos rfl]
      · exact e3 i (by omega) (by omega)
    · rw [e4 i (fun s h1 h2 => h s (by omega) (by omega)), getElem?_set' (by omega), if_neg (Ne.symm (h j le_rfl (by omega)))]

/-- What is known before the iterations with `cnt` words to be written. -/
structure Recon (P : Params) (W : Nat → Nat) (cnt y0 : Nat) (x : List Nat) : Prop where
  len : x.length = P.n
  lt : ∀ v ∈ x, v < 2 ^ P.w
  y_lt : y0 < 2 ^ P.w
  word : ∀ s, cnt ≤ s → s < cnt + P.n → s ≤ mtBits P → ∃ v, x[s % P.n]? = some v ∧ ∀ i < P.w, s + reach P i ≤ mtBits P → v.testBit i = (W (s + 1)).testBit i
  y : ∀ i, i + 1 < P.w → cnt + P.n - 1 + reach P i ≤ mtBits P → y0.testBit (i + 1) = (mtJoin P.r (W cnt) (W (cnt + 1))).testBit (i + 1)

theorem reconstructLoop_spec (hv : MtValid P) (hb : P.bits = P.w) (hW : IsMt P W) (hp : ∀ j ≤ mtBits P, p j = some ((W (j + 1)).testBit 0)) :
    ∀ (cnt y0 : Nat) (x : List Nat), cnt + P.n ≤ mtBits P + 3 → Recon P W cnt y0 x → ∃ x' y', reconstructLoop P p cnt y0 x = some x' ∧ Recon P W 0 y' x'
  | 0, y0, x, _, h => ⟨x, y0, rfl, h⟩
  | c + 1, y0, x, hc, h => by
    have h1 := hv.r_lt; have h2 := hv.r_pos; have h3 := hv.m_lt; have h4 := hv.m_two
    have hmod : ∀ i, i % P.n < P.n := fun i => Nat.mod_lt _ (by omega)
    have hj : c + 1 + P.n - 2 = c + P.n - 1 := by omega
    have hslot : (c + P.n - 1 + 1) % P.n = c % P.n := by rw [show c + P.n - 1 + 1 = c + P.n by omega, Nat.add_mod_right]
    have hslot2 : (c + P.n - 1 + P.m) % P.n = (c + P.m - 1) % P.n := by rw [show c + P.n - 1 + P.m = c + P.m - 1 + P.n by omega, Nat.add_mod_right]
    obtain ⟨xj, ej⟩ : ∃ v, x[(c + P.n - 1) % P.n]? = some v := ⟨_, List.getElem?_eq_getElem (by rw [h.len]; exact hmod _)⟩
    obtain ⟨xm, em⟩ : ∃ v, x[(c + P.m - 1) % P.n]? = some v := ⟨_, List.getElem?_eq_getElem (by rw [h.len]; exact hmod _)⟩
    rw [reconstructLoop]
    dsimp only
    rw [hj, ej, Option.bind_some, hslot2, em, Option.bind_some, hp (c + P.n - 1 + 1 - P.n) (by omega), show c + P.n - 1 + 1 - P.n = c by omega, Option.bind_some,
      hslot, if_pos (by rw [h.len]; exact hmod _)]
    obtain ⟨y1, hy1⟩ : ∃ y1, y1 = unshift P ((W (c + 1)).testBit 0) (xj ^^^ xm) := ⟨_, rfl⟩
    have y1lt : y1 < 2 ^ P.w := hy1 ▸ unshift_lt hb (by omega) _ _
    rw [← hy1]
    have y10 : y1.testBit 0 = (W (c + 1)).testBit 0 := by rw [hy1, testBit_unshift hb _ _ (by omega), if_pos rfl]
    have y1s : ∀ i, i + 1 < P.w → c + P.n - 1 + reach P i ≤ mtBits P → y1.testBit (i + 1) = (mtJoin P.r (W c) (W (c + 1))).testBit (i + 1) := by
      intro i hi hle
      obtain ⟨v, ev, hvb⟩ := h.word (c + P.n - 1) (by omega) (by omega) (by omega)
      obtain ⟨u, eu, hub⟩ := h.word (c + P.m - 1) (by omega) (by omega) (by omega)
      rw [ej] at ev; rw [em] at eu
      injection ev with ev; injection eu with eu
      subst ev eu
      have hrec := congrArg (fun t => t.testBit i) (hW c)
      simp only [Nat.testBit_xor, testBit_mtA] at hrec
      have b0 : (mtJoin P.r (W c) (W (c + 1))).testBit 0 = (W (c + 1)).testBit 0 := by rw [testBit_join, if_pos (by omega)]
      have k1 := hvb i (by omega) hle
      have k2 := hub i (by omega) (by omega)
      rw [show c + P.n - 1 + 1 = c + P.n by omega] at k1
      rw [show c + P.m - 1 + 1 = c + P.m by omega] at k2
      rw [hy1, testBit_unshift hb _ _ hi, if_neg (by omega), Nat.add_sub_cancel, Nat.testBit_xor, k1, k2, hrec, b0]
      generalize (W (c + P.m)).testBit i = a
      generalize (mtJoin P.r (W c) (W (c + 1))).testBit (i + 1) = b
      generalize ((W (c + 1)).testBit 0 && P.a.testBit i) = d
      revert a b d; decide
    have hlt : mix P y0 y1 < 2 ^ P.w := by
      rw [mix, mix_eq hv (hb ▸ h.y_lt) (hb ▸ y1lt)]
      refine Nat.lt_pow_two_of_testBit _ fun i hi => ?_
      rw [testBit_join, if_neg (by omega)]
      exact Nat.testBit_lt_two_pow (lt_of_lt_of_le h.y_lt (Nat.pow_le_pow_right (by omega) hi))
    refine reconstructLoop_spec hv hb hW hp c y1 _ (by omega) ⟨by rw [List.length_set, h.len], fun v hv => ?_, y1lt, fun s s1 s2 s3 => ?_, fun i hi hle => ?_⟩
    · rcases List.mem_or_eq_of_mem_set hv with hv | rfl
      · exact h.lt v hv
      · exact hlt
    · rcases Nat.eq_or_lt_of_le s1 with rfl | s1
      · refine ⟨_, by rw [getElem?_set' (by rw [h.len]; exact hmod _), if_pos rfl], fun i hi hle => ?_⟩
        rw [mix, mix_eq hv (hb ▸ h.y_lt) (hb ▸ y1lt), testBit_join]
        cases i with
        | zero => rw [if_pos (by omega), y10]
        | succ i =>
          rw [reach] at hle
          by_cases hir : i + 1 < P.r
          · rw [if_pos hir] at hle
            rw [if_pos hir, y1s i hi (by omega), testBit_join, if_pos hir]
          · rw [if_neg hir] at hle
            rw [if_neg hir, h.y i hi (by omega), testBit_join, if_neg hir]
      · obtain ⟨v, ev, hvb⟩ := h.word s (by omega) (by omega) s3
        exact ⟨v, by rw [getElem?_set' (by rw [h.len]; exact hmod _), if_neg (mod_ne s1 s2)]; exact ev, hvb⟩
    · exact y1s i hi hle

theorem reconstruct_spec (hv : MtValid P) (hb : P.bits = P.w) (hW : IsMt P W) (hlt : ∀ k, W k < 2 ^ P.w) (hp : ∀ j ≤ mtBits P, p j = some ((W (j + 1)).testBit 0))
    (x : List Nat) (hx : x.length = P.n) :
    ∃ x', reconstruct P p x = some ⟨x', 0⟩ ∧ x'.length = P.n ∧ ∀ s < P.n, x'[s]? = some (W (s + 1)) := by
  have h1 := hv.r_lt; have h2 := hv.r_pos; have h3 := hv.m_lt; have h4 := hv.m_two
  have hk := n_le_mtBits hv
  have hke : numBits P = mtBits P := rfl
  obtain ⟨x1, e1, l1, f1, -⟩ := fillLast_spec (W := W) (p := p) (by omega) P.n (mtBits P - P.n + 1) x le_rfl hx (fun i i1 i2 => hp i (by omega))
  have all : ∀ v ∈ x1, ∃ b : Bool, v = b.toNat := by
    intro v hv
    obtain ⟨t, ht⟩ := List.mem_iff_getElem?.1 hv
    have htl : t < P.n := by
      by_contra hc
      rw [List.getElem?_eq_none (by omega)] at ht
      cases ht
    obtain ⟨i, i1, i2, i3⟩ : ∃ i, mtBits P - P.n + 1 ≤ i ∧ i < mtBits P - P.n + 1 + P.n ∧ i % P.n = t := by
      obtain ⟨a, ha⟩ : ∃ a, a = mtBits P - P.n + 1 := ⟨_, rfl⟩
      rw [← ha]
      have d := Nat.div_add_mod a P.n
      have dm := Nat.mod_lt a (show 0 < P.n by omega)
      by_cases hat : a % P.n ≤ t
      · exact ⟨P.n * (a / P.n) + t, by omega, by omega, by rw [Nat.mul_add_mod, Nat.mod_eq_of_lt htl]⟩
      · exact ⟨P.n * (a / P.n) + P.n + t, by omega, by omega, by rw [Nat.add_assoc, Nat.mul_add_mod, Nat.add_mod_left, Nat.mod_eq_of_lt htl]⟩
    have := f1 i i1 i2
    rw [i3, ht] at this
    injection this with this
    exact ⟨_, this⟩
  obtain ⟨x', y', e2, r⟩ := reconstructLoop_spec hv hb hW hp (mtBits P + 3 - P.n) 0 x1 (by omega) ⟨l1, fun v hv => by
      obtain ⟨b, rfl⟩ := all v hv
      exact lt_of_le_of_lt (Bool.toNat_le b) (Nat.one_lt_two_pow (by omega)), Nat.two_pow_pos _, fun s s1 s2 s3 => ⟨_, f1 s (by omega) (by omega), fun i hi hle => by
        cases i with
        | zero => cases (W (s + 1)).testBit 0 <;> rfl
        | succ i => rw [reach] at hle; split at hle <;> omega⟩, fun i hi hle => by omega⟩
  refine ⟨x', ?_, r.len, fun s hs => ?_⟩
  · rw [reconstruct, hke, e1, Option.bind_some, e2, Option.map_some]
  · obtain ⟨v, ev, hvb⟩ := r.word s (by omega) (by omega) (by omega)
    rw [Nat.mod_eq_of_lt hs] at ev
    rw [ev]
    congr 1
    refine Nat.eq_of_testBit_eq fun i => ?_
    by_cases hi : i < P.w
    · have := reach_mono P (show i ≤ P.w - 1 by omega)
      exact hvb i hi (by rw [mtBits_eq hv]; omega)
    · have := Nat.pow_le_pow_right (n := 2) (by omega) (show P.w ≤ i by omega)
      rw [Nat.testBit_lt_two_pow (lt_of_lt_of_le (r.lt v (List.mem_of_getElem? ev)) this), Nat.testBit_lt_two_pow (lt_of_lt_of_le (hlt _) this)]

end Mt
end Boost.Random
