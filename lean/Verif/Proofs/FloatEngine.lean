import Verif.Model.FloatEngine
import Verif.Spec.FloatEngine
import Verif.Proofs.Rounding
import Verif.Proofs.RealDist
import Verif.Props.UniformInt

/-!
# Distributions fed by an engine with floating-point results: proofs
-/

namespace Boost.Random
open Spec

theorem Spec.Representable.mul_two_pow {digits : Nat} {x : ℚ} (h : Representable digits x) (k : Nat) : Representable digits (x * 2 ^ k) := by
  obtain ⟨m, e, hm, rfl⟩ := h
  refine ⟨m, e + k, hm, ?_⟩
  rw [zpow_add₀ (by norm_num), zpow_natCast]; ring

theorem Spec.Representable.div_two_pow {digits : Nat} {x : ℚ} (h : Representable digits x) (k : Nat) : Representable digits (x / 2 ^ k) := by
  obtain ⟨m, e, hm, rfl⟩ := h
  refine ⟨m, e - k, hm, ?_⟩
  rw [zpow_sub₀ (by norm_num), zpow_natCast]; ring

theorem Spec.GridOutputs.real {eb digits : Nat} (h : eb ≤ digits) {xs : List ℚ} (hx : GridOutputs eb xs) : RealOutputs digits xs := by
  intro x hm
  obtain ⟨k, hk, rfl⟩ := hx x hm
  have hp : (0 : ℚ) < 2 ^ eb := by positivity
  refine ⟨by positivity, ?_, Representable.scaled (lt_of_lt_of_le hk (Nat.pow_le_pow_right (by norm_num) h)) eb⟩
  rw [div_lt_one hp]
  exact_mod_cast hk

namespace FloatEngine

theorem maxInt_eq {W eb : Nat} (h1 : 1 ≤ eb) (h2 : eb ≤ W) : maxInt W eb = 2 ^ eb - 1 := by
  have hd : (if eb < W then eb else W) = eb := by split <;> omega
  unfold maxInt
  simp only [hd]
  have h2e : 2 <<< (eb - 1) = 2 ^ eb := by
    rw [Nat.shiftLeft_eq]
    obtain ⟨e, rfl⟩ : ∃ e, eb = e + 1 := ⟨eb - 1, by omega⟩
    simp [pow_succ, Nat.mul_comm]
  rw [h2e]
  have hpe : 0 < 2 ^ eb := Nat.two_pow_pos _
  have hle : 2 ^ eb ≤ 2 ^ W := Nat.pow_le_pow_right (by norm_num) h2
  rcases Nat.lt_or_ge (2 ^ eb) (2 ^ W) with hlt | hge
  · rw [Nat.mod_eq_of_lt hlt, show 2 ^ eb + 2 ^ W - 1 = (2 ^ eb - 1) + 2 ^ W by omega, Nat.add_mod_right, Nat.mod_eq_of_lt (by omega)]
  · have : 2 ^ eb = 2 ^ W := le_antisymm hle hge
    rw [this, Nat.mod_self, Nat.zero_add, Nat.mod_eq_of_lt (by have := Nat.two_pow_pos W; omega)]

theorem info_ok {W eb : Nat} (h1 : 1 ≤ eb) (h2 : eb ≤ W) : EngOK (info W eb) := by
  have hpe : 2 ≤ 2 ^ eb := by
    calc 2 = 2 ^ 1 := rfl
      _ ≤ 2 ^ eb := Nat.pow_le_pow_right (by norm_num) h1
  have hle : 2 ^ eb ≤ 2 ^ W := Nat.pow_le_pow_right (by norm_num) h2
  have hm := maxInt_eq h1 h2
  have hW : ((2 ^ W : Nat) : Int) = 2 ^ W := by push_cast; rfl
  refine ⟨show 1 ≤ W by omega, ?_, ?_, ?_⟩
  · show InTy ⟨W, false⟩ 0
    unfold InTy
    simp
  · show InTy ⟨W, false⟩ (maxInt W eb : Int)
    unfold InTy
    rw [if_neg (by simp)]
    refine ⟨by positivity, ?_⟩
    show (maxInt W eb : Int) < 2 ^ W
    rw [← hW, hm]
    exact_mod_cast (by omega : 2 ^ eb - 1 < 2 ^ W)
  · show (0 : Int) < (maxInt W eb : Int)
    rw [hm]
    exact_mod_cast (by omega : 0 < 2 ^ eb - 1)

section
variable {pb : Nat} {flb : ℚ → ℚ} (H : Rounding pb flb)
include H

theorem range_eq {W eb : Nat} (h1 : 1 ≤ eb) (h2 : eb ≤ W) (hp : eb ≤ pb) : flb (flb (maxInt W eb) + 1) = 2 ^ eb := by
  have hpe : 0 < 2 ^ eb := Nat.two_pow_pos _
  have hle : 2 ^ eb ≤ 2 ^ pb := Nat.pow_le_pow_right (by norm_num) hp
  rw [maxInt_eq h1 h2, H.exact ((2 ^ eb - 1 : Nat) : ℚ) (Representable.natCast (by omega)),
    show (((2 ^ eb - 1 : Nat) : ℚ) + 1) = 2 ^ eb by rw [Nat.cast_sub (by omega)]; push_cast; ring]
  exact H.exact _ (Representable.two_pow (by omega) eb)

theorem next_eq {W eb : Nat} (h1 : 1 ≤ eb) (h2 : eb ≤ W) (hp : eb ≤ pb) {x : ℚ} (hx : 0 ≤ x ∧ x < 1 ∧ Representable pb x) :
    next flb W eb x = some ⌊x * 2 ^ eb⌋.toNat := by
  have hpe : (0 : ℚ) < 2 ^ eb := by positivity
  have hle : (2 : ℚ) ^ eb ≤ 2 ^ W := pow_le_pow_right₀ (by norm_num) h2
  unfold next toUnsigned
  simp only [range_eq H h1 h2 hp]
  rw [H.exact _ (hx.2.2.mul_two_pow eb), if_pos]
  refine ⟨lt_of_lt_of_le (by norm_num) (mul_nonneg hx.1 hpe.le), lt_of_lt_of_le ?_ hle⟩
  calc x * 2 ^ eb < 1 * 2 ^ eb := mul_lt_mul_of_pos_right hx.2.1 hpe
    _ = _ := one_mul _

omit H in
theorem floor_bounds {eb : Nat} {x : ℚ} (h0 : 0 ≤ x) (h1 : x < 1) : 0 ≤ ⌊x * 2 ^ eb⌋ ∧ ⌊x * 2 ^ eb⌋ < 2 ^ eb := by
  have hpe : (0 : ℚ) < 2 ^ eb := by positivity
  refine ⟨Int.floor_nonneg.2 (mul_nonneg h0 hpe.le), Int.floor_lt.2 ?_⟩
  push_cast
  calc x * 2 ^ eb < 1 * 2 ^ eb := mul_lt_mul_of_pos_right h1 hpe
    _ = _ := one_mul _

theorem convert_eq {W eb : Nat} (h1 : 1 ≤ eb) (h2 : eb ≤ W) (hp : eb ≤ pb) : ∀ xs : List ℚ, RealOutputs pb xs →
    convert flb W eb xs = xs.map fun x => ⌊x * 2 ^ eb⌋ := by
  intro xs
  induction xs with
  | nil => intro _; rfl
  | cons x xs ih =>
    intro hO
    have hx := hO x (by simp)
    unfold convert
    rw [next_eq H h1 h2 hp hx]
    simp only [List.map_cons]
    rw [ih (fun y hy => hO y (by simp [hy])), Int.toNat_of_nonneg (floor_bounds hx.1 hx.2.1).1]

theorem convert_outputs {W eb : Nat} (h1 : 1 ≤ eb) (h2 : eb ≤ W) (hp : eb ≤ pb) (xs : List ℚ) (hO : RealOutputs pb xs) :
    Outputs (info W eb) (convert flb W eb xs) := by
  rw [convert_eq H h1 h2 hp xs hO]
  intro k hk
  obtain ⟨x, hx, rfl⟩ := List.mem_map.1 hk
  obtain ⟨a, b⟩ := floor_bounds (eb := eb) (hO x hx).1 (hO x hx).2.1
  refine ⟨a, ?_⟩
  show _ ≤ (maxInt W eb : Int)
  rw [maxInt_eq h1 h2]
  have := Nat.two_pow_pos eb
  push_cast [Nat.cast_sub (show 1 ≤ 2 ^ eb from this)]
  omega

theorem uniformInt_eq {W eb : Nat} (h1 : 1 ≤ eb) (h2 : eb ≤ W) (hp : eb ≤ pb) (T : IntTy) (mn mx : Int) (xs : List ℚ) (hO : RealOutputs pb xs) :
    uniformInt flb W eb T mn mx xs =
      match UniformInt.generate (info W eb) T mn mx (xs.map fun x => ⌊x * 2 ^ eb⌋) with
      | .done v rest => .done v (xs.drop (xs.length - rest.length))
      | .more => .more
      | .ub => .ub := by
  unfold uniformInt
  simp only [convert_eq H h1 h2 hp xs hO, List.length_map, if_true]
  rfl

/-- What holds of the results and the reading of `uniform_int_distribution` on the wrapper holds on the engine. -/
theorem uniformInt_runs {W eb : Nat} (h1 : 1 ≤ eb) (h2 : eb ≤ W) (hp : eb ≤ pb) (T : IntTy) (mn mx : Int) (hP : ParamOK T mn mx) (xs : List ℚ)
    (hO : RealOutputs pb xs) (P : Int → Prop)
    (hv : ∀ v rest, UniformInt.generate (info W eb) T mn mx (convert flb W eb xs) = .done v rest → P v) :
    RunsIn (uniformInt flb W eb T mn mx) xs P := by
  have hno := (c38_no_ub (info W eb) (info_ok h1 h2) T mn mx hP _ (convert_outputs H h1 h2 hp xs hO))
  rw [convert_eq H h1 h2 hp xs hO] at hno hv
  unfold RunsIn
  rw [uniformInt_eq H h1 h2 hp T mn mx xs hO]
  cases hg : UniformInt.generate (info W eb) T mn mx (xs.map fun x => ⌊x * 2 ^ eb⌋) with
  | ub => exact absurd hg hno.1
  | more => exact ⟨by simp, by simp⟩
  | done v rest =>
    refine ⟨by simp, ?_⟩
    intro v' rest' h
    simp only [Run.done.injEq] at h
    obtain ⟨rfl, rfl⟩ := h
    exact ⟨hv _ _ hg, List.drop_suffix _ _⟩

end

theorem gridTuples_eq {W eb : Nat} (h1 : 1 ≤ eb) (h2 : eb ≤ W) : ∀ n, gridTuples eb n =
    (tuples (info W eb) n).map (List.map fun k : Int => (k : ℚ) / 2 ^ eb) := by
  intro n
  have hr : ((info W eb).max - (info W eb).min).toNat + 1 = 2 ^ eb := by
    show ((maxInt W eb : Int) - 0).toNat + 1 = _
    rw [maxInt_eq h1 h2]
    have := Nat.two_pow_pos eb
    omega
  induction n with
  | zero => rfl
  | succ n ih =>
    unfold gridTuples tuples
    rw [hr, List.map_flatMap, ih]
    refine congrArg (fun g => List.flatMap g (List.range (2 ^ eb))) (funext fun k => ?_)
    rw [List.map_map, List.map_map]
    congr 1
    funext t
    show _ = ((0 + (k : Int) : Int) : ℚ) / 2 ^ eb :: _
    simp

theorem mem_tuples {E : EngInfo} (hE : E.min ≤ E.max) : ∀ n t, t ∈ tuples E n → t.length = n ∧ Outputs E t := by
  intro n
  induction n with
  | zero => intro t ht; simp [tuples] at ht; subst ht; exact ⟨rfl, by intro x hx; cases hx⟩
  | succ n ih =>
    intro t ht
    unfold tuples at ht
    obtain ⟨d, hd, ht⟩ := List.mem_flatMap.1 ht
    obtain ⟨t', ht', rfl⟩ := List.mem_map.1 ht
    obtain ⟨a, b⟩ := ih t' ht'
    refine ⟨by simp [a], ?_⟩
    intro x hx
    rcases List.mem_cons.1 hx with rfl | hx
    · have := List.mem_range.1 hd
      omega
    · exact b x hx

theorem grid_of_outputs {W eb : Nat} (h1 : 1 ≤ eb) (h2 : eb ≤ W) {t : List Int} (h : Outputs (info W eb) t) :
    GridOutputs eb (t.map fun k : Int => (k : ℚ) / 2 ^ eb) ∧ (t.map fun k : Int => (k : ℚ) / 2 ^ eb).map (fun x => ⌊x * 2 ^ eb⌋) = t := by
  have hpe : (0 : ℚ) < 2 ^ eb := by positivity
  constructor
  · intro x hx
    obtain ⟨k, hk, rfl⟩ := List.mem_map.1 hx
    obtain ⟨a, b⟩ := h k hk
    have a' : 0 ≤ k := a
    have b' : k ≤ (maxInt W eb : Int) := b
    rw [maxInt_eq h1 h2] at b'
    have := Nat.two_pow_pos eb
    refine ⟨k.toNat, by omega, ?_⟩
    congr 1
    exact_mod_cast (Int.toNat_of_nonneg a').symm
  · rw [List.map_map]
    conv_rhs => rw [← List.map_id t]
    apply List.map_congr_left
    intro k _
    show ⌊(k : ℚ) / 2 ^ eb * 2 ^ eb⌋ = k
    rw [div_mul_cancel₀ _ hpe.ne', Int.floor_intCast]

theorem uniformInt_count {pb : Nat} {flb : ℚ → ℚ} (H : Rounding pb flb) {W eb : Nat} (h1 : 1 ≤ eb) (h2 : eb ≤ W) (hp : eb ≤ pb) (T : IntTy) (mn mx : Int)
    (hP : ParamOK T mn mx) (n : Nat) (v : Int) :
    gridCount eb (uniformInt flb W eb T mn mx) n v = count (info W eb) (UniformInt.generate (info W eb) T mn mx) n v := by
  unfold gridCount count
  rw [gridTuples_eq h1 h2 n, List.countP_map]
  apply List.countP_congr
  intro t ht
  obtain ⟨hl, hO⟩ := mem_tuples (info_ok h1 h2).lt.le n t ht
  obtain ⟨hg, hm⟩ := grid_of_outputs h1 h2 hO
  have hno := (c38_no_ub (info W eb) (info_ok h1 h2) T mn mx hP t hO).2
  simp only [Function.comp, decide_eq_true_eq]
  rw [uniformInt_eq H h1 h2 hp T mn mx _ (hg.real hp), hm]
  cases hgen : UniformInt.generate (info W eb) T mn mx t with
  | ub => simp
  | more => simp
  | done w rest =>
    have hs := (hno w rest hgen).length_le
    simp only [Run.done.injEq, Draw.done.injEq, List.drop_eq_nil_iff, List.length_map]
    constructor
    · rintro ⟨rfl, h⟩
      refine ⟨rfl, List.length_eq_zero_iff.1 (by omega)⟩
    · rintro ⟨rfl, rfl⟩
      exact ⟨rfl, by simp⟩

end FloatEngine
end Boost.Random
