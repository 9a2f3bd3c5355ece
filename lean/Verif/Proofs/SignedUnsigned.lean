import Verif.Model.SignedUnsigned
import Mathlib.Tactic.Ring
import Mathlib.Tactic.Linarith
import Mathlib.Tactic.Positivity

namespace Boost.Random

theorem pow_half (w : Nat) (hw : 1 ≤ w) : (2 : Int) ^ w = 2 * 2 ^ (w - 1) := by
  obtain ⟨k, rfl⟩ := Nat.exists_eq_add_of_le' hw
  simp [pow_succ]; ring

theorem toUnsigned_nonneg (w : Nat) (v : Int) (h0 : 0 ≤ v) (h : v < 2 ^ w) :
    toUnsigned w v = v.toNat := by
  unfold toUnsigned; rw [Int.emod_eq_of_lt h0 h]

theorem toSigned_small (w : Nat) (v : Nat) (hw : 1 ≤ w) (h : (v : Int) < 2 ^ (w - 1)) :
    toSigned w v = v := by
  have h2 : v < 2 ^ (w - 1) := by exact_mod_cast h
  have h3 : 2 ^ (w - 1) ≤ 2 ^ w := Nat.pow_le_pow_right (by norm_num) (by omega)
  unfold toSigned
  rw [Nat.mod_eq_of_lt (by omega)]
  simp [h2]

theorem signedResult_some {w : Nat} {v : Int} (h : InSigned w v) : signedResult w v = some v := by
  simp [signedResult, h]

theorem signedArith_some {w : Nat} {v : Int} (h : InSigned w v) : signedArith w v = some v := by
  unfold signedArith
  split
  · next hw =>
    have h1 : (2 : Int) ^ (w - 1) ≤ 2 ^ (32 - 1) := pow_le_pow_right₀ (by norm_num) (by omega)
    obtain ⟨h2, h3⟩ := h
    exact signedResult_some ⟨by omega, by omega⟩
  · exact signedResult_some h

theorem wrapSigned_eq {w : Nat} (hw : 1 ≤ w) {v : Int} (h : InSigned w v) : wrapSigned w v = v := by
  have hp := pow_half w hw
  obtain ⟨h1, h2⟩ := h
  unfold wrapSigned
  rcases lt_or_ge v 0 with hv | hv
  · have : v % 2 ^ w = v + 2 ^ w := by
      rw [← Int.add_emod_right, Int.emod_eq_of_lt (by omega) (by omega)]
    simp only [this]
    rw [if_neg (by omega)]; omega
  · rw [Int.emod_eq_of_lt hv (by omega)]
    simp only
    rw [if_pos h2]

/-- A sum of signed values that fits their type, returned as that type. -/
theorem signedArith_wrap {w : Nat} (hw : 1 ≤ w) {v : Int} (h : InSigned w v) :
    (signedArith w v).map (wrapSigned w) = some v := by
  rw [signedArith_some h, Option.map_some, wrapSigned_eq hw h]

theorem subtractSigned_spec (w : Nat) (hw : 1 ≤ w) (x y : Int) (hx : InSigned w x) (hy : InSigned w y)
    (hxy : y ≤ x) : subtractSigned w x y = some (x - y).toNat := by
  have hp := pow_half w hw
  have hpos : (0:Int) < 2 ^ (w - 1) := by positivity
  obtain ⟨hx1, hx2⟩ := hx
  obtain ⟨hy1, hy2⟩ := hy
  have hcast : ((2 ^ w : Nat) : Int) = 2 ^ w := by push_cast; rfl
  unfold subtractSigned
  split
  · next h =>
    rw [toUnsigned_nonneg w x (by omega) (by omega), toUnsigned_nonneg w y h (by omega)]
    congr 1
    have : x.toNat + 2 ^ w - y.toNat = (x - y).toNat + 2 ^ w := by omega
    rw [this, Nat.add_mod_right, Nat.mod_eq_of_lt (by omega)]
  · split
    · rw [signedArith_some ⟨by omega, by omega⟩]
      simp only [Option.bind_eq_bind, Option.bind_some]
      rw [signedArith_some ⟨by omega, by omega⟩]
      simp only [Option.bind_some]
      rw [toUnsigned_nonneg w x (by omega) (by omega), toUnsigned_nonneg w _ (by omega) (by omega)]
      congr 1
      have : x.toNat + (-(y + 1)).toNat + 1 = (x - y).toNat := by omega
      rw [this, Nat.mod_eq_of_lt (by omega)]
    · rw [signedArith_some ⟨by omega, by omega⟩]
      simp only [Option.bind_eq_bind, Option.bind_some]
      rw [toUnsigned_nonneg w _ (by omega) (by omega)]

theorem addSigned_spec (w1 w2 : Nat) (hw2 : 1 ≤ w2) (hw : w2 - 1 ≤ w1) (x : Nat) (y : Int)
    (hx : x < 2 ^ w1) (hy : InSigned w2 y) (hsum : InSigned w2 (x + y)) :
    addSigned w1 w2 x y = some (x + y) := by
  have hpos : (0:Int) < 2 ^ (w2 - 1) := by positivity
  have hle : (2 : Int) ^ (w2 - 1) ≤ 2 ^ w1 := by
    exact_mod_cast Nat.pow_le_pow_right (n := 2) (by norm_num) hw
  obtain ⟨hy1, hy2⟩ := hy
  obtain ⟨hs1, hs2⟩ := hsum
  have hcast : ((2 ^ w1 : Nat) : Int) = 2 ^ w1 := by push_cast; rfl
  unfold addSigned
  split
  · rw [toSigned_small w2 x hw2 (by omega)]
    exact signedArith_wrap hw2 ⟨hs1, hs2⟩
  · rw [signedArith_some ⟨by omega, by omega⟩]
    simp only [Option.bind_eq_bind, Option.bind_some]
    rw [signedArith_some ⟨by omega, by omega⟩]
    simp only [Option.bind_some]
    rw [toUnsigned_nonneg w1 _ (by omega) (by omega)]
    split
    · have : x + 2 ^ w1 - (-(y + 1)).toNat + 2 ^ w1 - 1 = ((x : Int) + y).toNat + 2 ^ w1 + 2 ^ w1 := by
        omega
      rw [this, Nat.add_mod_right, Nat.add_mod_right, Nat.mod_eq_of_lt (by omega),
        toSigned_small w2 _ hw2 (by omega)]
      congr 1; omega
    · rw [toSigned_small w2 x hw2 (by omega)]
      exact signedArith_wrap hw2 ⟨hs1, hs2⟩

end Boost.Random
