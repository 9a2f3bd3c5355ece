import Verif.Model.SeedSeq
import Verif.Spec.SeedSeq
import Mathlib.Tactic.Common
import Mathlib.Data.List.GetD
import Mathlib.Tactic.Ring
import Mathlib.Tactic.NormNum

namespace Boost.Random
namespace SeedSeq
open Spec

/-- The array `xs` holds the range `a`. -/
structure Holds (n : Nat) (xs : List Nat) (a : SeedSeqStd.Range) : Prop where
  len : xs.length = n
  el : ∀ i, el xs i = (a i).toNat

theorem and_mask (x : Nat) : x &&& mask = x % 2 ^ 32 := by
  rw [show mask = 2 ^ 32 - 1 by norm_num [mask], Nat.and_two_pow_sub_one_eq_mod]

theorem holds_put {n : Nat} (hn : 0 < n) {xs : List Nat} {a : SeedSeqStd.Range} (h : Holds n xs a) (i x : Nat) (y : BitVec 32)
    (hx : x = y.toNat) : Holds n (put xs i x) (SeedSeqStd.store n a i y) := by
  have hl := h.len
  refine ⟨by simp [put, hl], fun j => ?_⟩
  have hj := h.el j
  unfold el put SeedSeqStd.store at *
  rw [List.length_set, hl]
  have hjn : j % n < xs.length := by rw [hl]; exact Nat.mod_lt _ hn
  rw [List.getD_eq_getElem _ _ (by rwa [List.length_set]), List.getElem_set]
  by_cases hji : j % n = i % n
  · rw [if_pos hji.symm, if_pos hji, hx]
  · rw [if_neg (fun hc => hji hc.symm), if_neg hji, ← hj]
    simp only [hl]
    rw [List.getD_eq_getElem _ _ hjn]

theorem T_toNat (y : BitVec 32) : (SeedSeqStd.T y).toNat = y.toNat ^^^ (y.toNat >>> 27) := by
  unfold SeedSeqStd.T
  rw [BitVec.toNat_xor, BitVec.toNat_ushiftRight]

theorem body1_spec {n : Nat} (hn : 0 < n) {xs : List Nat} {a : SeedSeqStd.Range} (h : Holds n xs a)
    (v : List (BitVec 32)) (k : Nat) :
    Holds n (body1 32 (v.map BitVec.toNat) xs k) (SeedSeqStd.pass1 n v a k) := by
  unfold body1 SeedSeqStd.pass1
  have hl := h.len
  simp only [hl, and_mask, List.length_map]
  have hp : pOf n = SeedSeqStd.p n := rfl
  have hq : qOf n = SeedSeqStd.q n := rfl
  rw [hp, hq]
  have e1 : (el xs k ^^^ el xs (k + SeedSeqStd.p n) ^^^ el xs (k + n - 1)) % 2 ^ 32
      = (a k ^^^ a (k + SeedSeqStd.p n) ^^^ a (k + n - 1)).toNat := by
    rw [h.el, h.el, h.el, BitVec.toNat_xor, BitVec.toNat_xor, Nat.mod_eq_of_lt]
    exact Nat.xor_lt_two_pow (Nat.xor_lt_two_pow (BitVec.isLt _) (BitVec.isLt _)) (BitVec.isLt _)
  rw [e1, ← T_toNat]
  generalize a k ^^^ a (k + SeedSeqStd.p n) ^^^ a (k + n - 1) = y
  have e2 : (SeedSeqStd.T y).toNat * 1664525 % 2 ^ 32 % 2 ^ 32 = (1664525#32 * SeedSeqStd.T y).toNat := by
    rw [Nat.mod_mod, BitVec.toNat_mul, Nat.mul_comm]; rfl
  rw [e2]
  generalize 1664525#32 * SeedSeqStd.T y = r1
  set ex : BitVec 32 := (if k = 0 then BitVec.ofNat 32 v.length
                  else if k ≤ v.length then BitVec.ofNat 32 (k % n) + v.getD (k - 1) 0
                  else BitVec.ofNat 32 (k % n)) with hex
  have e3 : (r1.toNat + (if k = 0 then v.length else if k ≤ v.length then k % n + (v.map BitVec.toNat).getD (k - 1) 0 else k % n))
      % 2 ^ 64 % 2 ^ 32 = (r1 + ex).toNat := by
    rw [Nat.mod_mod_of_dvd _ (Nat.pow_dvd_pow 2 (by norm_num)), BitVec.toNat_add]
    have : (if k = 0 then v.length else if k ≤ v.length then k % n + (v.map BitVec.toNat).getD (k - 1) 0 else k % n) % 2 ^ 32
        = ex.toNat := by
      rw [hex]
      by_cases h0 : k = 0
      · simp [h0]
      · by_cases h1 : k ≤ v.length
        · simp only [h0, if_false, h1, if_true]
          rw [BitVec.toNat_add, BitVec.toNat_ofNat, Nat.mod_add_mod]
          congr 2
          rw [List.getD_eq_getElem _ _ (by rw [List.length_map]; omega), List.getElem_map, List.getD_eq_getElem _ _ (by omega)]
        · simp only [h0, if_false, h1, BitVec.toNat_ofNat]
    rw [Nat.add_mod, this, Nat.mod_eq_of_lt (BitVec.isLt r1)]
  rw [e3]
  generalize r1 + ex = r2
  have h1 := holds_put hn h (k + SeedSeqStd.p n) ((el xs (k + SeedSeqStd.p n) + r1.toNat) % 2 ^ 32 % 2 ^ 32)
    (a (k + SeedSeqStd.p n) + r1) (by rw [h.el, BitVec.toNat_add, Nat.mod_mod])
  have h2 := holds_put hn h1 (k + SeedSeqStd.q n) ((el _ (k + SeedSeqStd.q n) + r2.toNat) % 2 ^ 32 % 2 ^ 32)
    (_ + r2) (by rw [h1.el, BitVec.toNat_add, Nat.mod_mod])
  exact holds_put hn h2 k r2.toNat r2 rfl

theorem body2_spec {n : Nat} (hn : 0 < n) {xs : List Nat} {a : SeedSeqStd.Range} (h : Holds n xs a) (k : Nat) :
    Holds n (body2 32 xs k) (SeedSeqStd.pass2 n a k) := by
  unfold body2 SeedSeqStd.pass2
  have hl := h.len
  simp only [hl, and_mask]
  have hp : pOf n = SeedSeqStd.p n := rfl
  have hq : qOf n = SeedSeqStd.q n := rfl
  rw [hp, hq]
  have e1 : (el xs k + el xs (k + SeedSeqStd.p n) + el xs (k + n - 1)) % 2 ^ 32 % 2 ^ 32
      = (a k + a (k + SeedSeqStd.p n) + a (k + n - 1)).toNat := by
    rw [h.el, h.el, h.el, BitVec.toNat_add, BitVec.toNat_add, Nat.mod_mod, Nat.mod_add_mod]
  rw [e1, ← T_toNat]
  generalize a k + a (k + SeedSeqStd.p n) + a (k + n - 1) = y
  have e2 : (SeedSeqStd.T y).toNat * 1566083941 % 2 ^ 32 % 2 ^ 32 = (1566083941#32 * SeedSeqStd.T y).toNat := by
    rw [Nat.mod_mod, BitVec.toNat_mul, Nat.mul_comm]; rfl
  rw [e2]
  generalize 1566083941#32 * SeedSeqStd.T y = r3
  have e3 : (r3.toNat + (2 ^ 64 - k % n % 2 ^ 64)) % 2 ^ 64 % 2 ^ 32 = (r3 - BitVec.ofNat 32 (k % n)).toNat := by
    rw [BitVec.toNat_sub, BitVec.toNat_ofNat]
    generalize k % n = z
    omega
  rw [e3]
  generalize r3 - BitVec.ofNat 32 (k % n) = r4
  have h1 := holds_put hn h (k + SeedSeqStd.p n) (el xs (k + SeedSeqStd.p n) ^^^ r3.toNat)
    (a (k + SeedSeqStd.p n) ^^^ r3) (by rw [h.el, BitVec.toNat_xor])
  have h2 := holds_put hn h1 (k + SeedSeqStd.q n) (el _ (k + SeedSeqStd.q n) ^^^ r4.toNat)
    (_ ^^^ r4) (by rw [h1.el, BitVec.toNat_xor])
  exact holds_put hn h2 k r4.toNat r4 rfl

theorem foldl_iter {n : Nat} (f : List Nat → Nat → List Nat) (g : SeedSeqStd.Range → Nat → SeedSeqStd.Range)
    (hfg : ∀ xs a k, Holds n xs a → Holds n (f xs k) (g a k)) :
    ∀ (c i : Nat) (xs : List Nat) (a : SeedSeqStd.Range), Holds n xs a →
      Holds n (((List.range c).map (i + ·)).foldl f xs) (SeedSeqStd.iter g c i a)
  | 0, i, xs, a, h => by simpa [SeedSeqStd.iter] using h
  | c + 1, i, xs, a, h => by
    rw [List.range_succ_eq_map, List.map_cons, List.foldl_cons, List.map_map]
    have := foldl_iter f g hfg c (i + 1) _ _ (hfg xs a i h)
    have e : ((fun x => i + x) ∘ Nat.succ) = (fun x => i + 1 + x) := by
      funext x; simp only [Function.comp]; omega
    rw [e]
    exact this

theorem generate_spec (v : List (BitVec 32)) (n : Nat) (hn : 0 < n) :
    generate 32 (v.map BitVec.toNat) n = some ((SeedSeqStd.generated v n).map BitVec.toNat) := by
  unfold generate SeedSeqStd.generated
  rw [if_neg (by omega), List.length_map]
  simp only
  congr 1
  have h0 : Holds n (List.replicate n 0x8b8b8b8b) (fun _ => 0x8b8b8b8b#32) := by
    refine ⟨by simp, fun i => ?_⟩
    unfold el
    rw [List.getD_eq_getElem _ _ (by simpa using Nat.mod_lt _ hn)]
    simp
  have h1 := foldl_iter (body1 32 (v.map BitVec.toNat)) (SeedSeqStd.pass1 n v) (fun xs a k h => body1_spec hn h v k)
    (max (v.length + 1) n) 0 _ _ h0
  simp only [Nat.zero_add, List.map_id_fun', id_eq] at h1
  have h2 := foldl_iter (body2 32) (SeedSeqStd.pass2 n) (fun xs a k h => body2_spec hn h k) n (max (v.length + 1) n) _ _ h1
  have hl := h2.len
  apply List.ext_getElem
  · simpa using hl
  · intro i hi1 hi2
    have hin : i < n := by omega
    have := h2.el i
    unfold el at this
    rw [hl, Nat.mod_eq_of_lt hin, List.getD_eq_getElem _ _ hi1] at this
    simpa using this

end SeedSeq
end Boost.Random
