import Verif.Proofs.Qrng

/-!
# The Gray-coded engines are lawful
-/

namespace Boost.Random
namespace Qrng
open Spec

/-! ## Gray codes -/

theorem grayCode_testBit (n k : Nat) : (grayCode n).testBit k = (n.testBit k ^^ n.testBit (k + 1)) := by
  unfold grayCode
  rw [Nat.testBit_xor, Nat.testBit_div_two]

theorem grayCode_half (n : Nat) : grayCode n / 2 = grayCode (n / 2) := by
  apply Nat.eq_of_testBit_eq
  intro k
  rw [Nat.testBit_div_two, grayCode_testBit, grayCode_testBit, Nat.testBit_div_two, Nat.testBit_div_two]

theorem grayCode_lt {n w : Nat} (h : n < 2 ^ w) : grayCode n < 2 ^ w := by
  unfold grayCode
  exact Nat.xor_lt_two_pow h (by omega)

theorem grayCode_ge {n w : Nat} (h : 2 ^ w ≤ n) : 2 ^ w ≤ grayCode n := by
  have h0 : n ≠ 0 := by have := Nat.two_pow_pos w; omega
  have hl : w ≤ n.log2 := (Nat.le_log2 h0).2 h
  have : (grayCode n).testBit n.log2 = true := by
    rw [grayCode_testBit, Nat.testBit_log2 h0, Nat.testBit_lt_two_pow (i := n.log2 + 1) Nat.lt_log2_self]
    rfl
  exact le_trans (Nat.pow_le_pow_right (by decide) hl) (Nat.ge_two_pow_of_testBit this)

theorem grayCode_inj : ∀ {m n : Nat}, grayCode m = grayCode n → m = n := by
  intro m
  induction m using Nat.strong_induction_on with
  | _ m ih =>
    intro n h
    have h2 : grayCode (m / 2) = grayCode (n / 2) := by rw [← grayCode_half, ← grayCode_half, h]
    by_cases hm : m = 0
    · subst hm
      by_contra hn
      have : 2 ^ 0 ≤ grayCode n := grayCode_ge (by omega)
      have h0 : grayCode 0 = 0 := rfl
      omega
    · have hh := ih (m / 2) (by omega) h2
      have hb := congrArg (·.testBit 0) h
      simp only [grayCode_testBit, Nat.zero_add] at hb
      have e1 : m.testBit 1 = n.testBit 1 := by
        have := congrArg (·.testBit 0) hh
        simpa only [Nat.testBit_div_two] using this
      rw [e1] at hb
      have := Bool.xor_left_inj.1 hb
      rw [Nat.testBit_zero, Nat.testBit_zero] at this
      have := decide_eq_decide.1 this
      omega

/-! ## Exclusive or of a selection -/

theorem xorSelect_zero (v : Nat → Nat) (n : Nat) : xorSelect v 0 n = 0 := by
  induction n with
  | zero => rfl
  | succ n ih => simp [xorSelect, ih]

theorem xorSelect_low (v : Nat → Nat) (c n : Nat) :
    xorSelect v c (n + 1) = (if c.testBit 0 then v 0 else 0) ^^^ xorSelect (fun k => v (k + 1)) (c / 2) n := by
  induction n with
  | zero => simp [xorSelect]
  | succ n ih => rw [xorSelect, ih, xorSelect, Nat.xor_assoc, Nat.testBit_div_two]

theorem xorSelect_xor (v : Nat → Nat) (c c' n : Nat) : xorSelect v (c ^^^ c') n = xorSelect v c n ^^^ xorSelect v c' n := by
  induction n with
  | zero => simp [xorSelect]
  | succ n ih =>
    rw [xorSelect, xorSelect, xorSelect, ih, Nat.testBit_xor]
    have e : (if (c.testBit n ^^ c'.testBit n) = true then v n else 0) = (if c.testBit n then v n else 0) ^^^ (if c'.testBit n then v n else 0) := by
      cases c.testBit n <;> cases c'.testBit n <;> simp
    rw [e]
    ac_rfl

theorem xorSelect_two_pow (v : Nat → Nat) {r n : Nat} (h : r < n) : xorSelect v (2 ^ r) n = v r := by
  induction n with
  | zero => omega
  | succ n ih =>
    rw [xorSelect, Nat.testBit_two_pow]
    by_cases hr : r = n
    · subst hr
      have : ∀ m, m ≤ r → xorSelect v (2 ^ r) m = 0 := by
        intro m
        induction m with
        | zero => intro _; rfl
        | succ m ih =>
          intro hm
          rw [xorSelect, ih (by omega), Nat.testBit_two_pow]
          simp [show ¬ r = m by omega]
      rw [this r (le_refl _)]
      simp
    · rw [ih (by omega)]
      simp [hr]

theorem xorSelect_congr {v v' : Nat → Nat} (c : Nat) {n : Nat} (h : ∀ k < n, v k = v' k) : xorSelect v c n = xorSelect v' c n := by
  induction n with
  | zero => rfl
  | succ n ih => rw [xorSelect, xorSelect, ih (fun k hk => h k (by omega)), h n (by omega)]

/-! ## One step of the Gray code -/

theorem countrZero_spec (w : Nat) : ∀ (fuel s : Nat), w ≤ fuel → s < 2 ^ w - 1 →
    countrZero fuel (s ^^^ (2 ^ w - 1)) < w ∧ grayCode (s + 1) = grayCode s ^^^ 2 ^ countrZero fuel (s ^^^ (2 ^ w - 1)) := by
  induction w with
  | zero => intro fuel s _ h; simp at h
  | succ w ih =>
    intro fuel s hf hs
    obtain ⟨f, rfl⟩ : ∃ f, fuel = f + 1 := ⟨fuel - 1, by omega⟩
    have hpow : 2 ^ (w + 1) = 2 * 2 ^ w := by rw [Nat.pow_succ]; omega
    have hp := Nat.two_pow_pos w
    have hhalf : (s ^^^ (2 ^ (w + 1) - 1)) / 2 = (s / 2) ^^^ (2 ^ w - 1) := by
      rw [Nat.xor_div_two, show (2 ^ (w + 1) - 1) / 2 = 2 ^ w - 1 by omega]
    have hodd : (s ^^^ (2 ^ (w + 1) - 1)) % 2 = (s + 1) % 2 := by
      have h1 : (2 ^ (w + 1) - 1) % 2 = 1 := by omega
      have h2 := Nat.xor_mod_two_pow (a := s) (b := 2 ^ (w + 1) - 1) (n := 1)
      rw [Nat.pow_one, h1] at h2
      have h3 : s % 2 = 0 ∨ s % 2 = 1 := by omega
      rcases h3 with h | h <;> rw [h2, h]
      · show 1 = _; omega
      · show 0 = _; omega
    rw [countrZero, hodd]
    by_cases he : s % 2 = 0
    · rw [if_pos (by omega)]
      refine ⟨by omega, ?_⟩
      apply Nat.eq_of_testBit_eq
      intro k
      cases k with
      | zero =>
        rw [Nat.testBit_xor, grayCode_testBit, grayCode_testBit]
        have e1 : (s + 1).testBit (0 + 1) = s.testBit (0 + 1) := by
          rw [← Nat.testBit_div_two, ← Nat.testBit_div_two]
          congr 1
          omega
        rw [e1, Nat.testBit_zero, Nat.testBit_zero, show (s + 1) % 2 = 1 by omega, he]
        cases s.testBit (0 + 1) <;> rfl
      | succ k =>
        rw [Nat.testBit_xor, ← Nat.testBit_div_two, ← Nat.testBit_div_two, grayCode_half, grayCode_half, show (s + 1) / 2 = s / 2 by omega]
        rw [Nat.testBit_two_pow]
        simp
    · rw [if_neg (by omega), hhalf]
      obtain ⟨h1, h2⟩ := ih f (s / 2) (by omega) (by omega)
      refine ⟨by omega, ?_⟩
      generalize countrZero f (s / 2 ^^^ (2 ^ w - 1)) = r at *
      apply Nat.eq_of_testBit_eq
      intro k
      cases k with
      | zero =>
        rw [Nat.testBit_xor, grayCode_testBit, grayCode_testBit, Nat.testBit_two_pow, ← Nat.testBit_div_two, ← Nat.testBit_div_two]
        rw [Nat.testBit_zero, Nat.testBit_zero, Nat.testBit_zero, Nat.testBit_zero]
        rw [show (s + 1) % 2 = 0 by omega, show s % 2 = 1 by omega, show (s + 1) / 2 = s / 2 + 1 by omega]
        have : s / 2 % 2 = 0 ∨ s / 2 % 2 = 1 := by omega
        rcases this with h | h
        · rw [show (s / 2 + 1) % 2 = 1 by omega, h]; simp
        · rw [show (s / 2 + 1) % 2 = 0 by omega, h]; simp
      | succ k =>
        rw [Nat.testBit_xor, ← Nat.testBit_div_two, ← Nat.testBit_div_two, grayCode_half, grayCode_half,
          show (s + 1) / 2 = s / 2 + 1 by omega, h2, Nat.testBit_xor, Nat.testBit_two_pow, Nat.testBit_two_pow]
        simp

/-! ## The vectors -/

theorem updateQuasi_eq {w dim : Nat} {l : List Nat} (hl : l.length = w * dim) (f : Nat → Nat) {r : Nat} (hr : r < w) :
    updateQuasi l ((List.range dim).map f) r = .ok ((List.range dim).map fun d => f d ^^^ l.getD (dim * r + d) 0) := by
  have hle : r * dim + dim ≤ w * dim := by
    calc r * dim + dim = (r + 1) * dim := by ring
      _ ≤ w * dim := Nat.mul_le_mul_right _ hr
  unfold updateQuasi
  simp only [List.length_map, List.length_range]
  rw [if_pos (by omega)]
  congr 1
  apply List.ext_getElem
  · simp; omega
  · intro i h1 h2
    simp only [List.length_map, List.length_range] at h2
    simp only [List.getElem_zipWith, List.getElem_map, List.getElem_range, List.getElem_drop]
    congr 1
    rw [List.getD_eq_getElem?_getD, Nat.mul_comm dim r, List.getElem?_eq_getElem (by omega)]
    rfl

theorem seedLoop_eq {w dim : Nat} {l : List Nat} (hl : l.length = w * dim) : ∀ (fuel r code : Nat) (f : Nat → Nat), r ≤ w → w - r ≤ fuel →
    code < 2 ^ (w - r) → seedLoop l fuel r code ((List.range dim).map f) =
      .ok ((List.range dim).map fun d => f d ^^^ xorSelect (fun k => l.getD (dim * (r + k) + d) 0) code (w - r)) := by
  intro fuel
  induction fuel with
  | zero =>
    intro r code f hr hf hc
    have : w - r = 0 := by omega
    rw [this]
    simp [seedLoop, xorSelect]
  | succ fuel ih =>
    intro r code f hr hf hc
    rw [seedLoop]
    by_cases h0 : code = 0
    · rw [if_pos h0, h0]
      simp [xorSelect_zero]
    · rw [if_neg h0]
      have hrw : r < w := by
        by_contra h
        rw [show w - r = 0 by omega] at hc
        omega
      obtain ⟨n, hn⟩ : ∃ n, w - r = n + 1 := ⟨w - r - 1, by omega⟩
      have hn' : w - (r + 1) = n := by omega
      rw [hn] at hc ⊢
      have hc2 : code / 2 < 2 ^ (w - (r + 1)) := by
        rw [hn']
        rw [Nat.pow_succ] at hc
        omega
      have hfun : ∀ d, xorSelect (fun k => l.getD (dim * (r + 1 + k) + d) 0) (code / 2) n =
          xorSelect (fun k => l.getD (dim * (r + (k + 1)) + d) 0) (code / 2) n := fun d =>
        xorSelect_congr _ fun k _ => by rw [show r + 1 + k = r + (k + 1) by omega]
      by_cases hodd : code % 2 = 1
      · rw [if_pos hodd, updateQuasi_eq hl f hrw]
        simp only [Res.bind]
        rw [ih _ _ _ (by omega) (by omega) hc2, hn']
        congr 1
        apply List.map_congr_left
        intro d _
        rw [xorSelect_low, Nat.testBit_zero, hodd, hfun d]
        simp only [decide_true, if_true, Nat.add_zero]
        rw [Nat.xor_assoc]
      · rw [if_neg hodd, ih _ _ _ (by omega) (by omega) hc2, hn']
        congr 1
        apply List.map_congr_left
        intro d _
        rw [xorSelect_low, Nat.testBit_zero, show code % 2 = 0 by omega, hfun d]
        simp

/-! ## Lawfulness -/

/-- The lattice of a dimension. -/
def latticeOf (resize : Nat → Res (List Nat)) (dim : Nat) : List Nat :=
  match resize dim with
  | .ok l => l
  | _ => []

/-- The points of a Gray-coded engine. -/
def grayPt (w : Nat) (resize : Nat → Res (List Nat)) (dim i : Nat) : List Nat := grayPoint w (latticeOf resize dim) dim i

theorem map_zero (xs : List Nat) {dim : Nat} (h : xs.length = dim) : (xs.map fun _ => 0) = (List.range dim).map fun _ => 0 := by
  subst h
  apply List.ext_getElem <;> simp

theorem gray_lawful {w digits : Nat} {resize : Nat → Res (List Nat)} (hw : 1 ≤ w) (hwd : w ≤ digits) (hd : digits ≤ 64)
    (hres : ∀ dim l, resize dim = .ok l → l.length = w * dim) :
    Lawful (gray w digits resize) (fun dim l => resize dim = .ok l) (grayPt w resize) (2 ^ w - 1) := by
  have hpow : 2 ^ w ≤ 2 ^ digits := Nat.pow_le_pow_right (by decide) hwd
  have hp2 : 2 ≤ 2 ^ w := by
    calc 2 = 2 ^ 1 := rfl
      _ ≤ 2 ^ w := Nat.pow_le_pow_right (by decide) hw
  have hlat : ∀ dim l, resize dim = .ok l → latticeOf resize dim = l := by
    intro dim l h; unfold latticeOf; rw [h]
  refine ⟨hd, by omega, by show 2 ^ w - 1 ≤ 2 ^ digits; omega, ?_, ?_, ?_, ?_, ?_, ?_, fun _ _ h => h, fun _ l h => ⟨l, h⟩⟩
  · intro l dim i _
    simp [grayPt, grayPoint]
  · intro l dim i hl hi
    refine ⟨l, ?_, hl⟩
    have hs : i + 1 < 2 ^ w - 1 := hi
    obtain ⟨h1, h2⟩ := countrZero_spec w digits (i + 1) hwd hs
    show (if (i + 1) ^^^ (2 ^ w - 1) = 0 then Res.throw else _) = _
    have hne : (i + 1) ^^^ (2 ^ w - 1) ≠ 0 := by
      intro h
      have e : (i + 1) ^^^ ((i + 1) ^^^ (2 ^ w - 1)) = (i + 1) ^^^ 0 := by rw [h]
      rw [← Nat.xor_assoc, Nat.xor_self, Nat.zero_xor, Nat.xor_zero] at e
      omega
    rw [if_neg hne, if_neg (by omega)]
    unfold grayPt grayPoint
    rw [hlat dim l hl, updateQuasi_eq (hres dim l hl) _ h1]
    simp only [Res.bind]
    congr 2
    apply List.map_congr_left
    intro d _
    rw [h2, xorSelect_xor, xorSelect_two_pow _ h1]
  · intro l dim i hl hi _
    show (if (i + 1) ^^^ (2 ^ w - 1) = 0 then Res.throw else _) = _
    rw [if_pos (by rw [hi, Nat.xor_self])]
  · intro l dim quasi seq init hl hq hor hi
    refine ⟨l, ?_, hl⟩
    show (if init = seq then Res.ok (l, quasi) else _) = _
    by_cases he : init = seq
    · rw [if_pos he]
      rcases hor with h | h
      · exact absurd he h
      · rw [h]
    · rw [if_neg he]
      simp only
      rw [Nat.mod_eq_of_lt (by omega : init + 1 < 2 ^ digits), if_neg (by omega)]
      have hg : (init + 1) ^^^ ((init + 1) >>> 1) = grayCode (init + 1) := by
        rw [Nat.shiftRight_eq_div_pow]; rfl
      rw [hg]
      have hglt : grayCode (init + 1) < 2 ^ w := grayCode_lt (by omega)
      rw [if_neg (by omega), map_zero quasi hq, seedLoop_eq (hres dim l hl) digits 0 _ _ (by omega) (by omega) (by simpa using hglt)]
      simp only [Res.bind]
      unfold grayPt grayPoint
      rw [hlat dim l hl]
      congr 2
      apply List.map_congr_left
      intro d _
      simp
  · intro l dim quasi seq init hl hne hi hi2
    show (if init = seq then Res.ok (l, quasi) else _) = _
    rw [if_neg hne]
    simp only
    by_cases hwrap : init + 1 = 2 ^ digits
    · rw [hwrap, Nat.mod_self, if_pos (by omega)]
    · have hi3 : init < 2 ^ digits := hi2
      rw [Nat.mod_eq_of_lt (by omega : init + 1 < 2 ^ digits), if_neg (by omega)]
      have hg : (init + 1) ^^^ ((init + 1) >>> 1) = grayCode (init + 1) := by
        rw [Nat.shiftRight_eq_div_pow]; rfl
      rw [hg, if_pos]
      refine ⟨?_, ?_⟩
      · by_contra hnw
        have : w = digits := by omega
        subst this
        omega
      · have := grayCode_ge (n := init + 1) (w := w) (by omega)
        omega
  · intro l dim quasi hl hq
    refine ⟨l, ?_, hl⟩
    show (updateQuasi l (quasi.map fun _ => 0) 0).bind _ = _
    rw [map_zero quasi hq, updateQuasi_eq (hres dim l hl) _ (by omega)]
    simp only [Res.bind]
    unfold grayPt grayPoint
    rw [hlat dim l hl]
    congr 2
    apply List.map_congr_left
    intro d _
    have : grayCode (0 + 1) = 2 ^ 0 := rfl
    rw [this, xorSelect_two_pow _ (by omega : 0 < w), Nat.zero_xor]

end Qrng
end Boost.Random
