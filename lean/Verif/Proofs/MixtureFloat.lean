import Verif.Model.Mixture
import Verif.Proofs.GammaFloat
import Verif.Proofs.PiecewiseLinear

/-!
# The mixtures with a rounding and an engine
-/

namespace Boost.Random
open Spec RealDist

section
variable {o : RealOps ℚ} {E : EngInfo}

theorem SafeRun.mono {α : Type} {p q : α → Prop} {r : List Int → Run (List Int) α} (h : SafeRun p E r) (hpq : ∀ v, p v → q v) : SafeRun q E r := fun xs hO =>
  ⟨(h xs hO).1, fun v rest e => ⟨hpq v ((h xs hO).2 v rest e).1, ((h xs hO).2 v rest e).2⟩⟩

theorem index_safe (hE : EngOK E) {T : IntTy} (n : Nat) {m : Nat} (hm : 0 < m) (hP : ParamOK T 0 ((m : Int) - 1)) :
    SafeRun (fun i => i < m) E ((engineMixed o E T n).index m) := by
  intro xs hO
  unfold engineMixed
  simp only
  rw [UniformInt.generate_zero hE hP xs hO]
  cases hK : UniformInt.K E.b (dig E) (((m : Int) - 1).toNat + 1) xs with
  | more => exact ⟨by rintro ⟨⟩, by rintro _ _ ⟨⟩⟩
  | ub => exact absurd hK (UniformInt.core_rest (UniformInt.EngInfo.b_ge hE) _ _ xs (UniformInt.outputs_dig hE hO) (by omega)).2
  | done i r1 =>
    obtain ⟨k1, k2⟩ := UniformInt.K_done_lt hE (by omega) hO hK
    simp only [Draw.map, Draw.run, Run.bind, Int.toNat_natCast]
    refine ⟨by rintro ⟨⟩, ?_⟩
    rintro _ _ ⟨⟩
    exact ⟨by omega, k2⟩

theorem real_safe (H : Rounding 53 o.fl) (hE : EngOK E) (T : IntTy) (n : Nat) {a b : ℚ} (hab : a < b) (ha : Representable 53 a) :
    SafeRun (fun v => a ≤ v ∧ v < b) E ((engineMixed o E T n).real a b) := by
  intro xs hO
  obtain ⟨h1, h2⟩ := uniformReal_range H hE hab.le ha xs hO
  unfold engineMixed
  simp only
  generalize uniformReal o.fl E a b xs = r at *
  cases r with
  | ub => exact absurd rfl h1
  | more => exact ⟨by rintro ⟨⟩, by rintro _ _ ⟨⟩⟩
  | done v rest =>
    refine ⟨by rintro ⟨⟩, ?_⟩
    rintro _ _ ⟨⟩
    obtain ⟨c1, c2, _, c3⟩ := h2 v rest rfl
    exact ⟨⟨c1, c2⟩, c3⟩

/-- The alias table read with an engine: no access outside, and a component that has a weight. -/
theorem draw_safe (H : Rounding 53 o.fl) (hE : EngOK E) (hD : DiffOK E) {T : IntTy} (n : Nat) {ws : List ℚ} {t : List (ℚ × Nat)} (hh : HoldsReal ws t)
    (hm : 0 < ws.length) (hP : ParamOK T 0 ((ws.length : Int) - 1)) :
    SafeRun (fun i => i < ws.length ∧ ws.getD i 0 ≠ 0) E (Discrete.draw t (engineMixed o E T n)) := by
  refine (index_safe (o := o) hE n (m := t.length) (by rw [hh.len]; exact hm) (by rw [hh.len]; exact hP)).bind fun i hi => ?_
  refine SafeRun.bind (unif_safe H hE hD) fun u hu => ?_
  rw [hh.len] at hi
  obtain ⟨j, p1, p2, p3⟩ := hh.pick hi hu.1 hu.2
  unfold Discrete.realPick at p1
  cases ht : t[i]? with
  | none => rw [ht] at p1; simp at p1
  | some e =>
    rw [ht] at p1
    simp only [Option.map_some, Option.some.injEq] at p1
    refine SafeRun.done ?_
    rw [Rat.cast_id, p1]
    exact ⟨p2, p3⟩

/-- `Pc.sample` with an engine is `Pc.next`. -/
theorem pc_sample_eq (o : RealOps ℚ) (E : EngInfo) (n : Nat) (d : Pc) (xs : List Int) :
    (d.next o.fl E xs).run = d.sample (engineMixed o E ⟨64, false⟩ n) xs := by
  unfold Pc.next Pc.sample Discrete.draw
  have hi : (engineMixed o E ⟨64, false⟩ n).index d.bins.length xs = (UniformInt.generate E ⟨64, false⟩ 0 ((d.bins.length : Int) - 1) xs).run.bind fun i xs => .done i.toNat xs := rfl
  have hu : ∀ xs, (engineMixed o E ⟨64, false⟩ n).unif xs = (uniform01 o.fl E xs).run := fun _ => rfl
  have hr : ∀ a b xs, (engineMixed o E ⟨64, false⟩ n).real a b xs = (uniformReal o.fl E a b xs).run := fun _ _ _ => rfl
  rw [hi]
  cases UniformInt.generate E ⟨64, false⟩ 0 ((d.bins.length : Int) - 1) xs with
  | ub => rfl
  | more => rfl
  | done i r =>
    simp only [Draw.run, Draw.bind, Run.bind, hu]
    cases uniform01 o.fl E r with
    | ub => rfl
    | more => rfl
    | done t r =>
      unfold Discrete.realPick
      cases d.bins[i.toNat]? with
      | none => rfl
      | some e =>
        simp only [Option.map_some, Rat.cast_id]
        cases d.intervals[if t < e.1 then i.toNat else e.2]? with
        | none => rfl
        | some a =>
          cases d.intervals[(if t < e.1 then i.toNat else e.2) + 1]? with
          | none => rfl
          | some b =>
            simp only [hr]
            rfl

/-- A bin has a weight only when one of the two values at the ends of its interval is positive. -/
theorem binWeights_zero {fl : ℚ → ℚ} (h0 : fl 0 = 0) : ∀ (ivs ws W : List ℚ) (i : Nat) (a b : ℚ), ivs.length = ws.length → binWeights fl ivs ws = some W →
    ws[i / 2]? = some a → ws[i / 2 + 1]? = some b → a = 0 → b = 0 → W.getD i 0 = 0
  | [], _, _, _, _, _, _, h, _, _, _, _ => by simp [binWeights] at h
  | [_], [], _, _, _, _, h, _, _, _, _, _ => by simp at h
  | [_], [_], W, i, a, b, _, h, h1, h2, _, _ => by simp at h2
  | [_], _ :: _ :: _, _, _, _, _, h, _, _, _, _, _ => by simp at h
  | _ :: _ :: _, [], _, _, _, _, h, _, _, _, _, _ => by simp at h
  | _ :: _ :: _, [_], _, _, _, _, h, _, _, _, _, _ => by simp at h
  | x :: y :: l, v :: w :: ws, W, i, a, b, hl, h, h1, h2, ha, hb => by
    rw [binWeights, Option.map_eq_some_iff] at h
    obtain ⟨W', h3, rfl⟩ := h
    match i with
    | 0 =>
      simp only [Nat.zero_div, List.getElem?_cons_zero, Option.some.injEq, zero_add, List.getElem?_cons_succ] at h1 h2
      rw [h1, h2, ha, hb]
      simp [h0]
    | 1 =>
      simp only [show 1 / 2 = 0 from rfl, List.getElem?_cons_zero, Option.some.injEq, zero_add, List.getElem?_cons_succ] at h1 h2
      rw [h1, h2, ha, hb]
      simp [h0]
    | i + 2 =>
      rw [show (i + 2) / 2 = i / 2 + 1 by omega, List.getElem?_cons_succ] at h1 h2
      exact binWeights_zero h0 (y :: l) (w :: ws) W' i a b (by simpa using hl) h3 h1 h2 ha hb

/-- The sum of the weights of the bins is positive when a weight is. -/
theorem binWeights_pos {fl : ℚ → ℚ} (h0 : ∀ x, 0 ≤ x → 0 ≤ fl x) (hpos : ∀ x, 0 < x → 0 < fl x) (hne : ∀ x, x ≠ 0 → fl x ≠ 0) : ∀ (ivs ws W : List ℚ),
    2 ≤ ivs.length → ivs.Pairwise (· < ·) → ivs.length = ws.length → (∀ w ∈ ws, 0 ≤ w) → binWeights fl ivs ws = some W → (∃ w ∈ ws, 0 < w) → 0 < W.sum
  | [], _, _, h, _, _, _, _, _ => by simp at h
  | [_], _, _, h, _, _, _, _, _ => by simp at h
  | _ :: _ :: _, [], _, _, _, h, _, _, _ => by simp at h
  | _ :: _ :: _, [_], _, _, _, h, _, _, _ => by simp at h
  | x :: y :: l, v :: w :: ws, W, _, hp, hl, hw, h, hex => by
    have hnn := binWeights_nonneg h0 _ _ _ hp hw h
    obtain ⟨hp1, hp2⟩ := List.pairwise_cons.1 hp
    have hxy : 0 < fl (y - x) := hpos _ (by linarith [hp1 y (by simp)])
    rw [binWeights, Option.map_eq_some_iff] at h
    obtain ⟨W', h3, rfl⟩ := h
    have hv := hw v (by simp)
    have hw' := hw w (by simp)
    have n1 := hnn _ (List.mem_cons_self)
    have n2 := hnn _ (List.mem_cons_of_mem _ List.mem_cons_self)
    have n3 : 0 ≤ W'.sum := List.sum_nonneg fun z hz => hnn z (List.mem_cons_of_mem _ (List.mem_cons_of_mem _ hz))
    rw [List.sum_cons, List.sum_cons]
    by_cases hvw : 0 < v ∨ 0 < w
    · by_cases e : v = w
      · have : 0 < fl (min v w * fl (y - x)) := hpos _ (mul_pos (lt_min (by rcases hvw with h | h <;> linarith) (by rcases hvw with h | h <;> linarith)) hxy)
        linarith
      · have : 0 < fl (fl (|fl (v - w)| * fl (y - x)) / 2) := hpos _ (div_pos (hpos _ (mul_pos (abs_pos.2 (hne _ (sub_ne_zero.2 e))) hxy)) (by norm_num))
        linarith
    · rw [not_or, not_lt, not_lt] at hvw
      obtain ⟨c, hc, hc'⟩ := hex
      have hc2 : c ∈ w :: ws := by
        rcases List.mem_cons.1 hc with rfl | h
        · linarith [hvw.1]
        · exact h
      have h2 : 2 ≤ (y :: l).length := by
        rcases List.mem_cons.1 hc2 with rfl | h
        · linarith [hvw.2]
        · have := List.length_pos_of_mem h
          simp only [List.length_cons] at hl ⊢
          omega
      have := binWeights_pos h0 hpos hne (y :: l) (w :: ws) W' h2 hp2 (by simpa using hl) (fun z hz => hw z (List.mem_cons_of_mem _ hz)) h3 ⟨c, hc2, hc'⟩
      linarith

end
end Boost.Random
