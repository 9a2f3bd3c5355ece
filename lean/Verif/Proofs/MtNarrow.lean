import Verif.Model.MtNarrow
import Verif.Spec.MtNarrow
import Verif.Proofs.MtBack

/-! # Lemmas on the Mersenne Twister on a narrow type -/

namespace Boost.Random
open Spec
namespace MtNarrow

variable {P : Mt.Params}

theorem masks_true (h : Spec.MtNarrow P) : masks P true = some (Mt.upperMask P, Mt.lowerMask P) := by
  have key : ∀ bits < 17, ∀ r < bits,
      ((shl true (-1) r).map fun u => (conv bits u, conv bits (-(conv bits u : Int) - 1))) =
        some (((2 ^ bits - 1) <<< r) % 2 ^ bits, (2 ^ bits - 1) ^^^ (((2 ^ bits - 1) <<< r) % 2 ^ bits)) := by
    decide +kernel
  exact key P.bits (by have := h.narrow; omega) P.r (by have := h.r_lt; have := h.w_le; omega)

theorem masks_false : masks P false = none := by
  unfold masks shl
  simp

theorem shl_true (b : Bool) {v k : Nat} (h : v * 2 ^ k < 2 ^ 31) (hk : k < 32) : shl b v k = some ((v * 2 ^ k : Nat) : Int) := by
  unfold shl
  rw [if_neg (by omega)]
  have h1 : ((v : Int) * 2 ^ k) = ((v * 2 ^ k : Nat) : Int) := by push_cast; ring
  have h2 : ((v * 2 ^ k : Nat) : Int) < 2147483648 := by exact_mod_cast h
  rw [h1, if_pos (Or.inr ⟨by omega, by norm_num; push_cast at h2; omega⟩), Int.bmod_eq_of_le (by omega) (by omega)]

theorem conv_nat (bits v : Nat) : conv bits (v : Int) = v % 2 ^ bits := by
  unfold conv
  have : ((v : Int) % 2 ^ bits) = ((v % 2 ^ bits : Nat) : Int) := by push_cast; rfl
  rw [this, Int.toNat_natCast]

theorem word_eq (h : Spec.MtNarrow P) (x0 x1 x2 : Nat) :
    word P (Mt.upperMask P) (Mt.lowerMask P) x0 x1 x2 = Mt.word P x0 x1 x2 := by
  have ha : P.a < 2 ^ P.bits := lt_of_lt_of_le h.a_lt (Nat.pow_le_pow_right (by norm_num) h.w_le)
  have : (x1 &&& 1) * P.a < 2 ^ P.bits := by
    rw [Nat.and_one_is_mod]
    rcases Nat.mod_two_eq_zero_or_one x1 with e | e <;> rw [e] <;> omega
  unfold word Mt.word
  rw [Nat.mod_eq_of_lt this]

theorem twist_eq (h : Spec.MtNarrow P) (x : List Nat) : twist P true x = Mt.twist P x := by
  have hb : ∀ j j1 j2, body P (Mt.upperMask P) (Mt.lowerMask P) j j1 j2 = Mt.body P j j1 j2 := by
    intro j j1 j2
    funext x
    unfold body Mt.body
    simp only [word_eq h]
  unfold twist Mt.twist
  rw [masks_true h]
  simp only [Option.bind_some, hb]

theorem temperLeft_eq (h : Spec.MtNarrow P) (b : Bool) {k q z : Nat} (hz : z < 2 ^ P.bits) (hk : k < P.bits) (hq : q < 2 ^ P.w) :
    temperLeft b k q z = some (z ^^^ (((z <<< k) % 2 ^ P.bits) &&& q)) := by
  have hn := h.narrow
  have hz' : z < 2 ^ 16 := lt_of_lt_of_le hz (Nat.pow_le_pow_right (by norm_num) hn)
  have hzk : z * 2 ^ k < 2 ^ 31 := by
    have h1 : 2 ^ k ≤ 2 ^ 15 := Nat.pow_le_pow_right (by norm_num) (by omega)
    have h2 : z * 2 ^ k ≤ z * 2 ^ 15 := Nat.mul_le_mul_left _ h1
    omega
  unfold temperLeft
  rw [shl_true b hzk (by omega), Option.map_some, conv_nat, Nat.mod_eq_of_lt (by omega), Nat.shiftLeft_eq]
  congr 2
  apply Nat.eq_of_testBit_eq
  intro i
  rw [Nat.testBit_and, Nat.testBit_and, Nat.testBit_mod_two_pow]
  by_cases hi : i < P.bits
  · simp [hi]
  · have : q.testBit i = false := Nat.testBit_lt_two_pow (lt_of_lt_of_le hq
      (Nat.pow_le_pow_right (by norm_num) (by have := h.w_le; omega)))
    simp [this]

theorem temper_eq (h : Spec.MtNarrow P) (b : Bool) {z : Nat} (hz : z < 2 ^ P.w) : temper P b z = some (Mt.temper P z) := by
  have hb : z < 2 ^ P.bits := lt_of_lt_of_le hz (Nat.pow_le_pow_right (by norm_num) h.w_le)
  obtain ⟨_, _, _, _, _, hs, ht, _⟩ := h.shifts
  have hc : ∀ q, q < 2 ^ P.w → q < 2 ^ P.bits := fun q hq => lt_of_lt_of_le hq (Nat.pow_le_pow_right (by norm_num) h.w_le)
  have h1 : z ^^^ ((z >>> P.u) &&& P.d) < 2 ^ P.bits := by
    refine Nat.xor_lt_two_pow hb (lt_of_le_of_lt Nat.and_le_left ?_)
    rw [Nat.shiftRight_eq_div_pow]
    exact lt_of_le_of_lt (Nat.div_le_self _ _) hb
  unfold temper Mt.temper
  rw [temperLeft_eq h b h1 hs h.b_lt]
  simp only [Option.bind_some]
  rw [temperLeft_eq h b (Nat.xor_lt_two_pow h1 (lt_of_le_of_lt Nat.and_le_right (hc _ h.b_lt))) ht h.c_lt]
  rfl

theorem untwist_eq (h : Spec.MtNarrow P) (b : Bool) {y : Nat} (hy : y < 2 ^ P.w) : untwist P b y = some (Mt.untwist P y) := by
  have hn := h.narrow
  have hw := h.w_le
  have hr := h.r_lt
  have hp : 2 ^ P.w ≤ 2 ^ 16 := Nat.pow_le_pow_right (by norm_num) (by omega)
  have hbit : 2 ^ (P.w - 1) ≤ 2 ^ 15 := Nat.pow_le_pow_right (by norm_num) (by omega)
  have hlt : 2 ^ (P.w - 1) < 2 ^ P.bits := Nat.pow_lt_pow_right (by norm_num) (by omega)
  have hx : y ^^^ P.a < 2 ^ P.w := Nat.xor_lt_two_pow hy h.a_lt
  unfold untwist Mt.untwist
  have e1 := shl_true b (v := 1) (k := P.w - 1) (by omega) (by omega)
  rw [Nat.cast_one] at e1
  rw [e1, Option.bind_some, conv_nat, one_mul, Nat.mod_eq_of_lt (a := 2 ^ (P.w - 1)) (by omega), Nat.shiftLeft_eq 1, one_mul,
    Nat.mod_eq_of_lt hlt]
  split
  · rw [shl_true b (by omega) (by norm_num), Option.map_some, conv_nat, conv_nat, Nat.mod_eq_of_lt (b := 2 ^ 32) (by omega)]
    congr 1
    rw [Nat.or_mod_two_pow, Nat.shiftLeft_eq]
    congr 1
    refine Nat.mod_eq_of_lt (Nat.one_lt_two_pow (by omega))
  · rw [shl_true b (by omega) (by norm_num), Option.map_some, conv_nat, Nat.shiftLeft_eq]

theorem normalize_eq (h : Spec.MtNarrow P) {x : List Nat} (hx : ∀ v ∈ x, v < 2 ^ P.w) :
    normalize P true x = Mt.normalize P x := by
  have hn := h.narrow
  have hw := h.w_le
  have hbit : 2 ^ (P.w - 1) ≤ 2 ^ 15 := Nat.pow_le_pow_right (by norm_num) (by omega)
  unfold normalize Mt.normalize
  rw [masks_true h, Option.bind_some]
  simp only
  cases ea : x[P.m - 1]? with
  | none => rfl
  | some a =>
    cases eb : x[P.n - 1]? with
    | none => rfl
    | some b =>
      simp only [Option.bind_some]
      have ha := hx a (List.mem_of_getElem? ea)
      have hb := hx b (List.mem_of_getElem? eb)
      rw [untwist_eq h true (Nat.xor_lt_two_pow ha hb), Option.bind_some]
      cases e0 : x[0]? with
      | none => rfl
      | some x0 =>
        simp only [Option.bind_some, Option.map_some]
        have e1 := shl_true true (v := 1) (k := P.w - 1) (by omega) (by omega)
        rw [Nat.cast_one] at e1
        rw [e1, Option.map_some, conv_nat, one_mul, Nat.shiftLeft_eq, one_mul]
        unfold Mt.mix
        split <;> rfl

theorem maxv_lt (h : Spec.MtNarrow P) : Mt.maxv P < 2 ^ P.bits := by
  have h1 : 2 ^ P.w ≤ 2 ^ P.bits := Nat.pow_le_pow_right (by norm_num) h.w_le
  have h2 := Nat.two_pow_pos P.w
  unfold Mt.maxv; omega

theorem and_maxv_lt (v : Nat) : v &&& Mt.maxv P < 2 ^ P.w := by
  unfold Mt.maxv
  rw [Nat.and_two_pow_sub_one_eq_mod]
  exact Nat.mod_lt _ (Nat.two_pow_pos _)

theorem seedLoop_eq (h : Spec.MtNarrow P) (hf : P.f * (2 ^ P.w - 1) < 2 ^ 31) :
    ∀ (k i prev : Nat), prev < 2 ^ P.w → seedLoop P k i prev = some (Mt.seedLoop P k i prev)
  | 0, _, _, _ => rfl
  | k + 1, i, prev, hp => by
    have hx : prev ^^^ (prev >>> (P.w - 2)) < 2 ^ P.w := by
      refine Nat.xor_lt_two_pow hp ?_
      rw [Nat.shiftRight_eq_div_pow]
      exact lt_of_le_of_lt (Nat.div_le_self _ _) hp
    have hpr : P.f * (prev ^^^ (prev >>> (P.w - 2))) < 2 ^ 31 :=
      lt_of_le_of_lt (Nat.mul_le_mul_left _ (by omega)) hf
    have hn := h.narrow
    have hw := h.w_le
    have key : ∀ q, (q % 2 ^ 64 &&& Mt.maxv P) % 2 ^ P.bits = q % 2 ^ P.bits &&& Mt.maxv P := by
      intro q
      rw [Nat.mod_eq_of_lt (lt_of_le_of_lt Nat.and_le_right (maxv_lt h))]
      unfold Mt.maxv
      rw [Nat.and_two_pow_sub_one_eq_mod, Nat.and_two_pow_sub_one_eq_mod,
        Nat.mod_mod_of_dvd _ (Nat.pow_dvd_pow 2 (by omega)), Nat.mod_mod_of_dvd _ (Nat.pow_dvd_pow 2 hw)]
    unfold seedLoop Mt.seedLoop
    simp only
    rw [if_neg (by omega), key, seedLoop_eq h hf k (i + 1) _ (and_maxv_lt _)]
    rfl

end MtNarrow
end Boost.Random
