import Verif.Proofs.FloatEngineDist
import Verif.Proofs.Canonical
import Mathlib.Data.Nat.Digits.Lemmas

/-!
# `generate_canonical` and `generate_int_float_pair` on an engine with floating-point results: proofs
-/

namespace Boost.Random
namespace FloatEngine
open Spec
open RealDist (fl_zero fl_nonneg fl_fl nearest_eq)

section
variable {p pb : Nat} {fl flb : ℚ → ℚ} (H : Rounding p fl) (Hb : Rounding pb flb) (hp : 1 ≤ p) (hpb : 1 ≤ pb)

include H hp in
/-- One round of the loop reads the integer `k`. -/
theorem canonicalLoop_cons {eb b j k : Nat} (heb : eb ≤ p) (hk : k < 2 ^ eb) (hj : j < b) (xs : List ℚ) (S : ℚ) :
    canonicalLoop fl (2 ^ eb) (2 ^ b) ((k : ℚ) / 2 ^ eb :: xs) S (2 ^ j) =
      canonicalLoop fl (2 ^ eb) (2 ^ b) xs (fl (S + (k : ℚ) * 2 ^ j)) (2 ^ (j + eb)) := by
  have hpe : (0 : ℚ) < 2 ^ eb := by positivity
  have hk' : k < 2 ^ p := lt_of_lt_of_le hk (Nat.pow_le_pow_right (by norm_num) heb)
  rw [canonicalLoop]
  rw [if_pos (pow_lt_pow_right₀ (by norm_num) hj)]
  simp only [fl_zero H, sub_zero, H.exact _ (Representable.scaled hk' eb), div_mul_cancel₀ _ hpe.ne', H.exact _ (Representable.natCast hk'),
    Int.floor_natCast, Int.cast_natCast, H.exact _ (Representable.scaledUp hk' j), ← pow_add, H.exact _ (Representable.two_pow hp (j + eb))]

theorem canonicalLoop_end {R limit : ℚ} {mult : ℚ} (h : ¬ mult < limit) (xs : List ℚ) (S : ℚ) :
    canonicalLoop fl R limit xs S mult = .done (fl (S / mult)) xs := by
  cases xs <;> simp [canonicalLoop, h]

include H hp in
theorem canonicalLoop_in {eb b : Nat} (hb : b ≤ p) : ∀ (xs : List ℚ) (S : ℚ) (j : Nat), GridOutputs eb xs → eb ≤ j → 0 ≤ S → S ≤ 2 ^ j →
    RunsIn (fun xs => canonicalLoop fl (2 ^ eb) (2 ^ b) xs S (2 ^ j)) xs fun v => 0 ≤ v ∧ v ≤ 1 := by
  have fin : ∀ (S : ℚ) (j : Nat), 0 ≤ S → S ≤ 2 ^ j → 0 ≤ fl (S / 2 ^ j) ∧ fl (S / 2 ^ j) ≤ 1 := by
    intro S j h0 h1
    have hpj : (0 : ℚ) < 2 ^ j := by positivity
    refine ⟨fl_nonneg H (by positivity), ?_⟩
    rw [← H.exact 1 (Representable.one hp)]
    exact H.mono _ _ (by rw [div_le_one hpj]; exact h1)
  intro xs
  induction xs with
  | nil =>
    intro S j _ _ h0 h1
    unfold RunsIn
    simp only [canonicalLoop]
    by_cases hc : (2 : ℚ) ^ j < 2 ^ b
    · rw [if_pos hc]; exact ⟨by simp, by simp⟩
    · rw [if_neg hc]
      refine ⟨by simp, ?_⟩
      intro v rest e
      simp only [Run.done.injEq] at e
      obtain ⟨rfl, rfl⟩ := e
      exact ⟨fin S j h0 h1, List.suffix_refl _⟩
  | cons x xs ih =>
    intro S j hG hj h0 h1
    unfold RunsIn
    simp only
    by_cases hc : j < b
    · obtain ⟨k, hk, rfl⟩ := hG x (by simp)
      rw [canonicalLoop_cons H hp (by omega) hk hc]
      have hkq : (k : ℚ) + 1 ≤ 2 ^ eb := by exact_mod_cast hk
      have hpj : (0 : ℚ) < 2 ^ j := by positivity
      obtain ⟨i1, i2⟩ := ih (fl (S + (k : ℚ) * 2 ^ j)) (j + eb) (fun y hy => hG y (by simp [hy])) (by omega)
        (fl_nonneg H (by positivity)) (by
          rw [← H.exact _ (Representable.two_pow hp (j + eb))]
          apply H.mono
          rw [pow_add]
          nlinarith)
      exact ⟨i1, fun v rest e => ⟨(i2 v rest e).1, (i2 v rest e).2.trans (List.suffix_cons _ _)⟩⟩
    · rw [canonicalLoop_end (by rw [not_lt]; exact pow_le_pow_right₀ (by norm_num) (by omega))]
      refine ⟨by simp, ?_⟩
      intro v rest e
      simp only [Run.done.injEq] at e
      obtain ⟨rfl, rfl⟩ := e
      exact ⟨fin S j h0 h1, List.suffix_refl _⟩

include H Hb hp in
theorem canonical_in {eb bits : Nat} (heb : eb ≤ pb) (xs : List ℚ) (hG : GridOutputs eb xs) :
    RunsIn (canonical fl flb p bits eb) xs fun v => 0 ≤ v ∧ v < 1 := by
  unfold RunsIn canonical
  cases xs with
  | nil => exact ⟨by simp [canonicalImpl, Run.bind], by simp [canonicalImpl, Run.bind]⟩
  | cons x xs =>
    obtain ⟨a, b, c⟩ := hG.real heb x (by simp)
    have h1 : fl x ≤ 1 := by rw [← H.exact 1 (Representable.one hp)]; exact H.mono _ _ b.le
    have h2 : (1 : ℚ) ≤ 2 ^ eb := one_le_pow₀ (by norm_num)
    have hin := canonicalLoop_in H hp (eb := eb) (b := Nat.min bits p) (Nat.min_le_right _ _) xs (fl x) eb
      (fun y hy => hG y (by simp [hy])) le_rfl (fl_nonneg H a) (h1.trans h2)
    unfold RunsIn at hin
    simp only [canonicalImpl, value_eq Hb c]
    cases hl : canonicalLoop fl (2 ^ eb) (2 ^ Nat.min bits p) xs (fl x) (2 ^ eb) with
    | ub => exact absurd hl hin.1
    | more => exact ⟨by simp [Run.bind], by simp [Run.bind]⟩
    | done v rest =>
      refine ⟨by simp [Run.bind], ?_⟩
      intro v' rest' e
      simp only [Run.bind, Run.done.injEq] at e
      obtain ⟨rfl, rfl⟩ := e
      obtain ⟨⟨v0, v1⟩, hs⟩ := hin.2 v rest hl
      refine ⟨?_, hs.trans (List.suffix_cons _ _)⟩
      by_cases hv : v = 1
      · rw [if_pos hv, hv]
        obtain ⟨q, rfl⟩ : ∃ q, p = q + 1 := ⟨p - 1, by omega⟩
        have hpq : (0 : ℚ) < 2 ^ (q + 1) := by positivity
        have e1 : (1 : ℚ) - 1 / 2 ^ (q + 1 - 1) / 2 = ((2 ^ (q + 1) - 1 : Nat) : ℚ) / 2 ^ (q + 1) := by
          rw [Nat.cast_sub (Nat.one_le_two_pow)]
          push_cast
          rw [pow_succ]
          field_simp
        rw [e1, H.exact _ (Representable.scaled (by have := Nat.two_pow_pos (q + 1); omega) (q + 1))]
        refine ⟨by positivity, ?_⟩
        rw [div_lt_one hpq, Nat.cast_sub (Nat.one_le_two_pow)]
        push_cast
        linarith
      · rw [if_neg hv]
        exact ⟨v0, lt_of_le_of_ne v1 hv⟩

include H Hb hp in
/-- With enough bits in one engine value the loop is not entered. -/
theorem canonical_short {eb bits : Nat} (heb : Nat.min bits p ≤ eb) (h0 : 1 ≤ eb) {x : ℚ} (hx : 0 ≤ x ∧ x < 1 ∧ Representable pb x) (xs : List ℚ) :
    canonical fl flb p bits eb (x :: xs) = .done (fl x / 2 ^ eb) xs ∧ fl x ≤ 1 := by
  have h1 : fl x ≤ 1 := by rw [← H.exact 1 (Representable.one hp)]; exact H.mono _ _ hx.2.1.le
  refine ⟨?_, h1⟩
  have hpe : (2 : ℚ) ≤ 2 ^ eb := by
    calc (2 : ℚ) = 2 ^ 1 := by norm_num
      _ ≤ 2 ^ eb := pow_le_pow_right₀ (by norm_num) h0
  unfold canonical canonicalImpl
  simp only [value_eq Hb hx.2.2]
  rw [canonicalLoop_end (by rw [not_lt]; exact pow_le_pow_right₀ (by norm_num) heb), H.exact _ (Representable.div_two_pow (H.repr x) eb)]
  simp only [Run.bind]
  rw [if_neg]
  intro h
  rw [div_eq_one_iff_eq (by positivity)] at h
  linarith

end

/-- Two engine values, rounding to nearest: the first one is lost. -/
theorem canonical_lost {p pb : Nat} {fl flb : ℚ → ℚ} (N : Nearest p fl) (Hb : Rounding pb flb) {eb bits : Nat} (heb : eb < Nat.min bits p)
    (hpe : p < 2 * eb) (hpb : eb ≤ pb) (k0 k1 : Nat) (h0 : k0 < 2 ^ eb) (h1 : 2 ^ (eb - 1) < k1) (h1' : k1 < 2 ^ eb) (xs : List ℚ) :
    canonical fl flb p bits eb ((k0 : ℚ) / 2 ^ eb :: (k1 : ℚ) / 2 ^ eb :: xs) = .done ((k1 : ℚ) / 2 ^ eb) xs := by
  have H := Nearest.rounding N
  have hbp : Nat.min bits p ≤ p := Nat.min_le_right _ _
  have hp : 1 ≤ p := by omega
  have hpq : (0 : ℚ) < 2 ^ eb := by positivity
  have hk0 : (k0 : ℚ) < 2 ^ eb := by exact_mod_cast h0
  have hk1 : (k1 : ℚ) < 2 ^ eb := by exact_mod_cast h1'
  have hlift : ∀ k, k < 2 ^ eb → k < 2 ^ p := fun k h => lt_of_lt_of_le h (Nat.pow_le_pow_right (by norm_num) (by omega))
  unfold canonical canonicalImpl
  simp only [value_eq Hb (Representable.scaled (lt_of_lt_of_le h0 (Nat.pow_le_pow_right (by norm_num) hpb)) eb)]
  rw [H.exact _ (Representable.scaled (hlift k0 h0) eb), canonicalLoop_cons H hp (by omega) h1' heb,
    canonicalLoop_end (by rw [not_lt]; exact pow_le_pow_right₀ (by norm_num) (by omega))]
  obtain ⟨a, ha⟩ : ∃ a, p = eb + a := ⟨p - eb, by omega⟩
  obtain ⟨c, hc⟩ : ∃ c, eb = a + c + 1 := ⟨eb - a - 1, by omega⟩
  have hS : fl ((k0 : ℚ) / 2 ^ eb + (k1 : ℚ) * 2 ^ eb) = (k1 : ℚ) * 2 ^ eb := by
    have e1 : (k1 : ℚ) * 2 ^ eb = ((k1 * 2 ^ a : Nat) : ℚ) * 2 ^ ((c + 1 : Nat) : ℤ) := by
      rw [zpow_natCast]; push_cast; rw [show (2 : ℚ) ^ eb = 2 ^ a * 2 ^ (c + 1) by rw [← pow_add]; congr 1]; ring
    rw [e1]
    apply nearest_eq N
    · rw [show p - 1 = (eb - 1) + a by omega, pow_add]
      exact Nat.mul_lt_mul_of_pos_right h1 (Nat.two_pow_pos a)
    · rw [ha, pow_add]
      exact Nat.mul_lt_mul_of_pos_right h1' (Nat.two_pow_pos a)
    · rw [add_sub_cancel_right, abs_of_nonneg (by positivity), zpow_natCast, pow_succ, mul_div_assoc, div_self (by norm_num), mul_one]
      refine lt_of_lt_of_le ((div_lt_one hpq).2 hk0) (one_le_pow₀ (by norm_num))
  rw [hS, show (k1 : ℚ) * 2 ^ eb / 2 ^ (eb + eb) = (k1 : ℚ) / 2 ^ eb by rw [pow_add]; field_simp, H.exact _ (Representable.scaled (hlift k1 h1') eb)]
  simp only [Run.bind]
  rw [if_neg]
  rw [div_eq_one_iff_eq hpq.ne']
  exact hk1.ne

/-- In exact arithmetic: the loop puts the digits it reads above the number it starts with. -/
theorem canonicalLoop_digits {eb b : Nat} : ∀ (ks : List Nat) (S : ℚ) (m : Nat) (rest : List ℚ),
    (∀ k ∈ ks, k < 2 ^ eb) → (ks ≠ [] → eb * (m + ks.length - 1) < b) → b ≤ eb * (m + ks.length) → 1 ≤ m →
    canonicalLoop id (2 ^ eb) (2 ^ b) (ks.map (fun k : Nat => (k : ℚ) / 2 ^ eb) ++ rest) S (2 ^ (eb * m)) =
      .done ((S + 2 ^ (eb * m) * (Nat.ofDigits (2 ^ eb) ks : Nat)) / 2 ^ (eb * (m + ks.length))) rest := by
  intro ks
  induction ks with
  | nil =>
    intro S m rest _ _ hb _
    rw [List.map_nil, List.nil_append, canonicalLoop_end (by rw [not_lt]; exact pow_le_pow_right₀ (by norm_num) hb)]
    simp
  | cons k ks ih =>
    intro S m rest hk h1 h2 hm
    have hlen : (k :: ks).length = ks.length + 1 := rfl
    have hlt : eb * m < b := by
      have h3 := h1 (by simp)
      refine lt_of_le_of_lt (Nat.mul_le_mul_left _ ?_) h3
      omega
    have hpe : (0 : ℚ) < 2 ^ eb := by positivity
    rw [List.map_cons, List.cons_append, canonicalLoop, if_pos (pow_lt_pow_right₀ (by norm_num) hlt)]
    simp only [id, sub_zero, div_mul_cancel₀ _ hpe.ne', Int.floor_natCast, Int.cast_natCast, ← pow_add]
    have hme : eb * m + eb = eb * (m + 1) := by ring
    rw [hme, ih (S + (k : ℚ) * 2 ^ (eb * m)) (m + 1) rest (fun x hx => hk x (by simp [hx]))
      (by intro hne
          have h3 := h1 (by simp)
          rw [hlen] at h3
          refine lt_of_le_of_lt (Nat.mul_le_mul_left _ ?_) h3
          omega)
      (by rw [hlen] at h2; refine h2.trans (Nat.mul_le_mul_left _ (by omega))) (by omega)]
    rw [hlen, show m + (ks.length + 1) = m + 1 + ks.length by ring, Nat.ofDigits_cons]
    congr 2
    push_cast
    rw [← hme, pow_add]
    ring

/-! ## An integer and a fraction -/

theorem bits_param {w : Nat} (h1 : 1 ≤ w) (hw : w ≤ 30) : ParamOK ⟨32, true⟩ 0 (2 ^ w - 1) := by
  have hw30 : (2 : Int) ^ w ≤ 2 ^ 30 := pow_le_pow_right₀ (by norm_num) hw
  have hw1 : (2 : Int) ≤ 2 ^ w := by
    calc (2 : Int) = 2 ^ 1 := by norm_num
      _ ≤ 2 ^ w := pow_le_pow_right₀ (by norm_num) h1
  refine ⟨by norm_num, by decide, ?_, by omega⟩
  unfold InTy InSigned
  rw [if_pos rfl]
  constructor
  · have : -(2 : Int) ^ (32 - 1) ≤ 0 := by norm_num
    show -(2 : Int) ^ (32 - 1) ≤ _
    omega
  · show _ < (2 : Int) ^ (32 - 1)
    have : (2 : Int) ^ (32 - 1) = 2 * 2 ^ 30 := by norm_num
    have : (0 : Int) < 2 ^ 30 := by norm_num
    omega

theorem uniformInt_bits {pb : Nat} {flb : ℚ → ℚ} (H : Rounding pb flb) {W eb w : Nat} (h1 : 1 ≤ w) (h2 : w ≤ eb) (h3 : eb ≤ W) (h4 : eb ≤ pb)
    (hw : w ≤ 30) {x : ℚ} (xs : List ℚ) (hO : RealOutputs pb (x :: xs)) :
    uniformInt flb W eb ⟨32, true⟩ 0 (2 ^ w - 1) (x :: xs) = .done ⌊x * 2 ^ w⌋ xs := by
  have heb : 1 ≤ eb := by omega
  have hE := info_ok heb h3
  obtain ⟨x0, x1, xr⟩ := hO x (by simp)
  have hP := bits_param h1 hw
  have hOut : Outputs (info W eb) ((x :: xs).map fun x => ⌊x * 2 ^ eb⌋) := by
    rw [← convert_eq H heb h3 h4 _ hO]
    exact convert_outputs H heb h3 h4 _ hO
  rw [uniformInt_eq H heb h3 h4 _ _ _ _ hO, UniformInt.generate_eq_K hE hP _ hOut]
  have hb : (info W eb).b = 2 ^ eb := by
    show ((maxInt W eb : Int) - 0).toNat + 1 = _
    rw [maxInt_eq heb h3]
    have := Nat.two_pow_pos eb
    omega
  have hN : ((2 : Int) ^ w - 1 - 0).toNat + 1 = 2 ^ w := by
    have hz : ((2 ^ w : Nat) : Int) = 2 ^ w := by push_cast; rfl
    rw [← hz]
    have := Nat.two_pow_pos w
    omega
  obtain ⟨f0, f1⟩ := floor_bounds (eb := eb) x0 x1
  have hdig : dig (info W eb) ⌊x * 2 ^ eb⌋ = ⌊x * 2 ^ eb⌋.toNat := by unfold dig; show (⌊x * 2 ^ eb⌋ - 0).toNat = _; rw [sub_zero]
  have hK : UniformInt.K (info W eb).b (dig (info W eb)) (((2 : Int) ^ w - 1 - 0).toNat + 1) ((x :: xs).map fun x => ⌊x * 2 ^ eb⌋) =
      Draw.done ⌊x * 2 ^ w⌋.toNat (xs.map fun x => ⌊x * 2 ^ eb⌋) := by
    rw [hN, hb, List.map_cons]
    rcases Nat.lt_or_ge w eb with hlt | hge
    · have hpow : 2 ^ w < 2 ^ eb := Nat.pow_lt_pow_right (by norm_num) hlt
      rw [UniformInt.K_bucket (by have : 2 ^ 1 ≤ 2 ^ w := Nat.pow_le_pow_right (by norm_num) h1
                                  omega) hpow]
      have hdiv : 2 ^ eb / 2 ^ w = 2 ^ (eb - w) := Nat.pow_div h2 (by norm_num)
      have hfl : ⌊x * 2 ^ eb⌋.toNat / 2 ^ (eb - w) = ⌊x * 2 ^ w⌋.toNat := by
        have e1 : x * 2 ^ w = x * 2 ^ eb / ((2 ^ (eb - w) : Nat) : ℚ) := by
          rw [show (2 : ℚ) ^ eb = 2 ^ w * 2 ^ (eb - w) by rw [← pow_add]; congr 1; omega]
          push_cast
          field_simp
        rw [e1, Int.floor_div_natCast]
        obtain ⟨n, hn⟩ : ∃ n : Nat, (n : Int) = ⌊x * 2 ^ eb⌋ := ⟨_, Int.toNat_of_nonneg f0⟩
        rw [← hn, Int.toNat_natCast, ← Int.natCast_ediv, Int.toNat_natCast]
      rw [UniformInt.cBucket, hdig, hdiv, hfl, if_pos]
      have g := floor_bounds (eb := w) x0 x1
      have hz : ((2 ^ w : Nat) : Int) = 2 ^ w := by push_cast; rfl
      rw [← hz] at g
      omega
    · have : w = eb := le_antisymm h2 hge
      subst this
      rw [UniformInt.K_b_cons (by have : 2 ^ 1 ≤ 2 ^ w := Nat.pow_le_pow_right (by norm_num) h1
                                  omega), hdig]
  rw [hK]
  simp only [Draw.map, List.length_map, List.length_cons, Run.done.injEq]
  have g := floor_bounds (eb := w) x0 x1
  refine ⟨?_, by rw [show xs.length + 1 - xs.length = 1 by omega]; rfl⟩
  unfold UniformInt.out
  split
  · rename_i hep
    exfalso
    obtain ⟨k, hk, he⟩ := hep
    have hmax : (info W eb).max - (info W eb).min + 1 = (2 : Int) ^ eb := by
      show (maxInt W eb : Int) - 0 + 1 = _
      rw [maxInt_eq heb h3, Nat.cast_sub Nat.one_le_two_pow]
      push_cast
      ring
    rw [hmax, ← pow_mul, show (2 : Int) ^ w - 1 - 0 + 1 = 2 ^ w by ring] at he
    have := Int.pow_right_injective (a := 2) (by norm_num) he
    nlinarith
  · rw [zero_add, Int.toNat_of_nonneg g.1]

theorem intFloatPair_eq {pb : Nat} {fl flb : ℚ → ℚ} (Hb : Rounding pb flb) {W eb w : Nat} (h1 : 1 ≤ w)
    (h2 : w ≤ eb) (h3 : eb ≤ W) (h4 : eb ≤ pb) (hw : w ≤ 30) {x : ℚ} (xs : List ℚ) (hO : RealOutputs pb (x :: xs)) :
    intFloatPair fl flb W eb w (x :: xs) = (uniform01 fl flb xs).bind fun r xs => .done (r, ⌊x * 2 ^ w⌋) xs := by
  unfold intFloatPair RealDist.shlInt
  have hlt : 2 ^ w < 2 ^ 31 := Nat.pow_lt_pow_right (by norm_num) (by omega)
  rw [if_pos ⟨by omega, by rw [one_mul]; exact hlt⟩]
  simp only [one_mul]
  rw [show (((2 ^ w : Nat) : Int) - 1) = 2 ^ w - 1 by push_cast; rfl, uniformInt_bits Hb h1 h2 h3 h4 hw xs hO]
  simp only [Run.bind]

theorem generate_nil {W eb w : Nat} (h1 : 1 ≤ w) (h2 : w ≤ eb) (h3 : eb ≤ W) (hw : w ≤ 30) :
    UniformInt.generate (info W eb) ⟨32, true⟩ 0 (2 ^ w - 1) [] = .more := by
  have heb : 1 ≤ eb := by omega
  rw [UniformInt.generate_eq_K (info_ok heb h3) (bits_param h1 hw) [] (by intro x hx; cases hx)]
  have hb : (info W eb).b = 2 ^ eb := by
    show ((maxInt W eb : Int) - 0).toNat + 1 = _
    rw [maxInt_eq heb h3]
    have := Nat.two_pow_pos eb
    omega
  have hN : ((2 : Int) ^ w - 1 - 0).toNat + 1 = 2 ^ w := by
    have hz : ((2 ^ w : Nat) : Int) = 2 ^ w := by push_cast; rfl
    rw [← hz]
    have := Nat.two_pow_pos w
    omega
  have h2w : 2 ≤ 2 ^ w := by
    calc 2 = 2 ^ 1 := rfl
      _ ≤ 2 ^ w := Nat.pow_le_pow_right (by norm_num) h1
  have h2e : 2 ≤ 2 ^ eb := h2w.trans (Nat.pow_le_pow_right (by norm_num) h2)
  rw [hN, hb]
  rcases Nat.lt_or_ge w eb with hlt | hge
  · rw [UniformInt.K_bucket (by omega) (Nat.pow_lt_pow_right (by norm_num) hlt), UniformInt.cBucket, Draw.map]
  · rw [le_antisymm h2 hge, UniformInt.K_b_nil h2e, Draw.map]

theorem uniformInt_nil (flb : ℚ → ℚ) {W eb : Nat} {T : IntTy} {mn mx : Int} (h : UniformInt.generate (info W eb) T mn mx [] = .more) :
    uniformInt flb W eb T mn mx [] = .more := by
  unfold uniformInt
  simp only [convert, h, List.length_nil]
  rw [if_pos trivial]

theorem intFloatPair_nil (fl flb : ℚ → ℚ) {W eb w : Nat} (h1 : 1 ≤ w) (h2 : w ≤ eb) (h3 : eb ≤ W) (hw : w ≤ 30) :
    intFloatPair fl flb W eb w [] = .more := by
  have hlt : 2 ^ w < 2 ^ 31 := Nat.pow_lt_pow_right (by norm_num) (by omega)
  have hs : RealDist.shlInt 1 w = some (2 ^ w) := by
    unfold RealDist.shlInt
    rw [if_pos ⟨by omega, by rw [one_mul]; exact hlt⟩, one_mul]
  unfold intFloatPair
  rw [hs]
  simp only
  rw [show (((2 ^ w : Nat) : Int) - 1) = 2 ^ w - 1 by push_cast; rfl, uniformInt_nil flb (generate_nil h1 h2 h3 hw), Run.bind]

end FloatEngine
end Boost.Random
