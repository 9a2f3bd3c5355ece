import Verif.Model.SeedAll
import Verif.Props.SeedImpl
import Mathlib.Data.Nat.Log

/-! # Lemmas on seeding from a sequence -/

namespace Boost.Random
open Spec SeedImpl

theorem wordCount_clog (T : IntTy) (m : Nat) (hT : AnyTy T) (hm : m ≤ T.maxv) (h1 : m ≠ 1) :
    wordCount T m = Nat.clog (2 ^ 32) (modulus T m) := by
  obtain ⟨k1, k2, k3⟩ := wordCount_spec T m hT hm h1
  rw [pow_mul] at k2 k3
  refine le_antisymm ?_ ((Nat.clog_le_iff_le_pow (by norm_num)).2 k3)
  by_contra hc
  have : Nat.clog (2 ^ 32) (modulus T m) ≤ wordCount T m - 1 := by omega
  have := (Nat.clog_le_iff_le_pow (by norm_num)).1 this
  omega

theorem getOneInt_clog (T : IntTy) (m : Nat) (hT : AnyTy T) (hm : m ≤ T.maxv) (h1 : m ≠ 1) (hw : WideOK m) (ws : List Nat)
    (hws : ∀ w ∈ ws, w ≤ T.maxv) :
    getOneInt T m ws = if ws.length < Nat.clog (2 ^ 32) (modulus T m) then .throws
      else .ok (number (2 ^ 32) (ws.take (Nat.clog (2 ^ 32) (modulus T m))) % modulus T m)
        (ws.drop (Nat.clog (2 ^ 32) (modulus T m))) := by
  obtain ⟨k1, k2, k3⟩ := wordCount_spec T m hT hm h1
  rw [← wordCount_clog T m hT hm h1]
  unfold getOneInt
  rw [getLoop_spec T m hT hm hw _ _ _ ws hws _ (ConstMod.modulus_pos T m)]
  · simp
  · intro i hi
    refine lt_of_le_of_lt (Nat.pow_le_pow_right (by norm_num) ?_) k2
    omega

/-- The sequence in terms of the range, for unsigned types, to which the words are reduced first. -/
theorem seedOneInt_range (T : IntTy) (m : Nat) (hT : AnyTy T) (hu : T.signed = false) (hm : m ≤ T.maxv) (h1 : m ≠ 1)
    (hw : WideOK m) (gen : Nat → List Nat) (hg : ∀ n, (gen n).length = n) :
    ∃ s, s < modulus T m ∧ seedOneInt T m gen = some s ∧
      getOneInt T m ((gen (Nat.clog (2 ^ 32) (modulus T m) + 3)).drop 3) = .ok s [] := by
  obtain ⟨k1, k2, k3⟩ := wordCount_spec T m hT hm h1
  rw [← wordCount_clog T m hT hm h1]
  have hl : ((gen (wordCount T m + 3)).drop 3).length = wordCount T m := by rw [List.length_drop, hg]; omega
  have hloop := getLoop_any T m hT hm hw (· % 2 ^ T.bits) (wordCount T m) 0 0 ((gen (wordCount T m + 3)).drop 3)
    (fun w _ => fit_unsigned T hu w) (fun i hi => by
      refine lt_of_le_of_lt (Nat.pow_le_pow_right (by norm_num) ?_) k2
      omega) (ConstMod.modulus_pos T m)
  rw [if_neg (by rw [hl]; omega), List.drop_of_length_le (l := List.drop 3 _) (by rw [hl])] at hloop
  refine ⟨(0 + 2 ^ (32 * 0) * number (2 ^ 32)
    ((((gen (wordCount T m + 3)).drop 3).take (wordCount T m)).map (· % 2 ^ T.bits))) % modulus T m,
    Nat.mod_lt _ (ConstMod.modulus_pos T m), ?_, ?_⟩
  · unfold seedOneInt
    have hb := wordCount_buffer T m
    simp only
    rw [if_pos (by omega), hloop]
  · unfold getOneInt
    rw [hloop]

/-- The array in terms of the range. -/
theorem seedArrayInt_range (bits w n : Nat) (hw : w ≤ bits) (gen : Nat → List Nat) (hg : ∀ n, (gen n).length = n) :
    ∃ xs, seedArrayInt bits w n gen = some xs ∧ fillArrayInt bits w n (gen ((w + 31) / 32 * n)) = .ok xs [] := by
  refine ⟨_, c25_seed_array bits w n hw gen hg, ?_⟩
  rw [fillArrayInt_spec bits w hw, if_neg (by rw [hg]; omega), List.drop_of_length_le (by rw [hg])]

theorem clog_words (w : Nat) : Nat.clog (2 ^ 32) (2 ^ w) = (w + 31) / 32 := by
  refine le_antisymm ((Nat.clog_le_iff_le_pow (by norm_num)).2 ?_) ?_
  · rw [← pow_mul]
    exact Nat.pow_le_pow_right (by norm_num) (by omega)
  · have := (Nat.clog_le_iff_le_pow (b := 2 ^ 32) (x := 2 ^ w) (by norm_num)).1 le_rfl
    rw [← pow_mul] at this
    have := (Nat.pow_le_pow_iff_right (by norm_num)).1 this
    omega

theorem lfsr_mod (L : Lfsr) (hL : L.Valid) (h64 : L.bits ≤ 64) :
    AnyTy ⟨L.bits, false⟩ ∧ L.seedMod ≤ (⟨L.bits, false⟩ : IntTy).maxv ∧ L.seedMod ≠ 1 ∧ WideOK L.seedMod ∧
      modulus ⟨L.bits, false⟩ L.seedMod = 2 ^ L.w ∧ Nat.clog (2 ^ 32) (2 ^ L.w) = (L.w + 31) / 32 := by
  obtain ⟨h1, h2, h3, h4, h5, h6, h7, h8, h9⟩ := hL
  have e : L.seedMod = 2 ^ L.w % 2 ^ L.bits := by
    unfold Lfsr.seedMod
    rw [Nat.shiftLeft_eq, ← pow_succ', show L.w - 1 + 1 = L.w by omega]
  have hb : (⟨L.bits, false⟩ : IntTy).maxv = 2 ^ L.bits - 1 := by simp [IntTy.maxv]
  have hp := Nat.two_pow_pos L.bits
  refine ⟨⟨by simp only; omega, h64⟩, ?_, ?_, ?_, ?_, clog_words _⟩
  · rw [e, hb]
    have := Nat.mod_lt (2 ^ L.w) hp
    omega
  · rcases Nat.lt_or_ge L.w L.bits with h | h
    · rw [e, Nat.mod_eq_of_lt (Nat.pow_lt_pow_right (by norm_num) h)]
      have := Nat.one_lt_two_pow (n := L.w) (by omega)
      omega
    · rw [e, show L.w = L.bits by omega, Nat.mod_self]; norm_num
  · rcases Nat.lt_or_ge L.w L.bits with h | h
    · rw [e, Nat.mod_eq_of_lt (Nat.pow_lt_pow_right (by norm_num) h)]
      exact Or.inr (Or.inl ⟨_, rfl⟩)
    · rw [e, show L.w = L.bits by omega, Nat.mod_self]; exact Or.inl (by norm_num)
  · rcases Nat.lt_or_ge L.w L.bits with h | h
    · rw [e, Nat.mod_eq_of_lt (Nat.pow_lt_pow_right (by norm_num) h)]
      exact ConstMod.modulus_of_pos _ _ (Nat.two_pow_pos _)
    · rw [e, show L.w = L.bits by omega, Nat.mod_self]
      unfold modulus
      rw [if_pos rfl, hb]
      omega

theorem swcSeeder_valid : LcgValid swcSeeder :=
  ⟨⟨by decide, by decide⟩, by decide, by decide, by decide, by decide, Or.inl (by decide), by decide⟩

theorem swc_words : ∀ (n s : Nat), s < 2147483563 →
    fromGenerator (fun x => (swcSeeder.next x).map fun y => (y, y)) n s =
      some ((List.range n).map fun k => 40014 ^ (k + 1) * s % 2147483563)
  | 0, s, _ => rfl
  | n + 1, s, hs => by
    have h1 := Lcg.calls_spec swcSeeder_valid 1 s hs
    have h2 : swcSeeder.next s = some (40014 * s % 2147483563) := by
      cases hn : swcSeeder.next s with
      | none => simp [calls, hn] at h1
      | some y =>
        simp only [calls, hn, Option.bind_some, Option.some.injEq, Function.iterate_one] at h1
        rw [h1]; rfl
    have hlt : 40014 * s % 2147483563 < 2147483563 := Nat.mod_lt _ (by norm_num)
    unfold fromGenerator
    rw [h2]
    simp only [Option.map_some, Option.bind_some]
    rw [swc_words n _ hlt, Option.map_some, List.range_succ_eq_map, List.map_cons, List.map_map,
      Nat.mod_eq_of_lt (lt_trans hlt (by norm_num))]
    have e0 : 40014 ^ (0 + 1) * s = 40014 * s := by rw [Nat.zero_add, pow_one]
    have e1 : ∀ k, 40014 ^ (k + 1) * (40014 * s % 2147483563) % 2147483563 = 40014 ^ (k + 1 + 1) * s % 2147483563 := by
      intro k
      rw [Nat.mul_mod_mod, pow_succ 40014 (k + 1), Nat.mul_assoc]
    rw [e0]
    simp only [Function.comp_def, Nat.succ_eq_add_one, e1]

end Boost.Random
