import Verif.Proofs.QrngGray
import Mathlib.Data.Finset.Card
import Mathlib.Data.Finset.Range
import Mathlib.Data.List.Nodup
import Mathlib.Data.List.Perm.Subperm
import Mathlib.Data.List.Range

/-!
# The Sobol lattice
-/

namespace Boost.Random
namespace Qrng
open Spec

/-! ## Columns -/

/-- Element `j` is odd and below `2^(j+1)`. -/
def GoodCol (n : Nat) (m : List Nat) : Prop := m.length = n ∧ ∀ j < n, m.getD j 0 % 2 = 1 ∧ m.getD j 0 < 2 ^ (j + 1)

theorem xor_mod_two (a b : Nat) : (a ^^^ b) % 2 = (a + b) % 2 := by
  have h := Nat.xor_mod_two_pow (a := a) (b := b) (n := 1)
  rw [Nat.pow_one] at h
  have ha : a % 2 = 0 ∨ a % 2 = 1 := by omega
  have hb : b % 2 = 0 ∨ b % 2 = 1 := by omega
  rcases ha with ha | ha <;> rcases hb with hb | hb <;> rw [h, ha, hb]
  · show 0 = _; omega
  · show 1 = _; omega
  · show 1 = _; omega
  · show 0 = _; omega

theorem even_mod_two_pow {a d : Nat} (hd : 1 ≤ d) : (a % 2 ^ d) % 2 = a % 2 := by
  have : 2 ∣ 2 ^ d := Dvd.dvd.pow (dvd_refl 2) (by omega)
  exact Nat.mod_mod_of_dvd _ this

theorem sobolTerms_good {digits n degree : Nat} {m : List Nat} (hd : 1 ≤ digits) (hm : GoodCol n m) (hdeg : degree ≤ n) :
    ∀ (c k p acc : Nat), k + c = degree → acc % 2 = 1 → acc < 2 ^ (n + 1) →
      sobolTerms digits m degree c k p acc % 2 = 1 ∧ sobolTerms digits m degree c k p acc < 2 ^ (n + 1) := by
  intro c
  induction c with
  | zero => intro k p acc _ h1 h2; exact ⟨h1, h2⟩
  | succ c ih =>
    intro k p acc hk h1 h2
    rw [sobolTerms]
    have hrem : 1 ≤ degree - k := by omega
    generalize hr : degree - k = rem at *
    have hle : rem ≤ n := by omega
    have hlen := hm.1
    have hb := (hm.2 (n - rem) (by omega)).2
    rw [hlen]
    have hval : (p % 2) * m.getD (n - rem) 0 <<< rem < 2 ^ (n + 1) := by
      rw [Nat.shiftLeft_eq]
      have h3 : m.getD (n - rem) 0 * 2 ^ rem < 2 ^ (n - rem + 1) * 2 ^ rem := Nat.mul_lt_mul_of_pos_right hb (Nat.two_pow_pos _)
      rw [← Nat.pow_add, show n - rem + 1 + rem = n + 1 by omega] at h3
      have : p % 2 ≤ 1 := by omega
      calc (p % 2) * (m.getD (n - rem) 0 * 2 ^ rem) ≤ 1 * (m.getD (n - rem) 0 * 2 ^ rem) := Nat.mul_le_mul_right _ this
        _ < 2 ^ (n + 1) := by omega
    have heven : ((p % 2) * m.getD (n - rem) 0 <<< rem) % 2 = 0 := by
      obtain ⟨t, rfl⟩ : ∃ t, rem = t + 1 := ⟨rem - 1, by omega⟩
      rw [Nat.shiftLeft_eq, Nat.pow_succ, ← Nat.mul_assoc, ← Nat.mul_assoc]
      exact Nat.mul_mod_left _ _
    apply ih (k + 1) (p / 2) _ (by omega)
    · rw [xor_mod_two, Nat.add_mod, even_mod_two_pow hd, heven, h1]
    · exact Nat.xor_lt_two_pow h2 (lt_of_le_of_lt (Nat.mod_le _ _) hval)

theorem GoodCol.append {n : Nat} {m : List Nat} (hm : GoodCol n m) {x : Nat} (h1 : x % 2 = 1) (h2 : x < 2 ^ (n + 1)) : GoodCol (n + 1) (m ++ [x]) := by
  refine ⟨by simp [hm.1], fun j hj => ?_⟩
  rw [List.getD_eq_getElem?_getD]
  by_cases h : j < n
  · rw [List.getElem?_append_left (by rw [hm.1]; exact h), ← List.getD_eq_getElem?_getD]
    exact hm.2 j h
  · have : j = m.length := by rw [hm.1]; omega
    subst this
    rw [List.getElem?_append_right (le_refl _), Nat.sub_self]
    have := hm.1
    subst this
    exact ⟨h1, h2⟩

theorem sobolStep_good {digits poly degree n : Nat} {m : List Nat} (hd : 1 ≤ digits) (hm : GoodCol n m) (h1 : 1 ≤ degree) (hdeg : degree ≤ n) :
    GoodCol (n + 1) (sobolStep digits poly degree m) := by
  unfold sobolStep
  have hb := hm.2 (n - degree) (by omega)
  obtain ⟨g1, g2⟩ := sobolTerms_good hd hm hdeg degree 0 poly (m.getD (n - degree) 0) (by omega) hb.1
    (lt_of_lt_of_le hb.2 (Nat.pow_le_pow_right (by decide) (by omega)))
  rw [hm.1]
  exact hm.append g1 g2

theorem iterate_good {digits poly degree : Nat} (hd : 1 ≤ digits) (h1 : 1 ≤ degree) (k : Nat) : ∀ {n : Nat} {m : List Nat},
    GoodCol n m → degree ≤ n → GoodCol (n + k) (Nat.iterate (sobolStep digits poly degree) k m) := by
  induction k with
  | zero => intro n m hm _; exact hm
  | succ k ih =>
    intro n m hm hn
    have := ih (sobolStep_good hd hm h1 hn (poly := poly)) (by omega)
    rw [show n + (k + 1) = n + 1 + k by omega]
    exact this

/-- What a table must provide for the coordinates `1, 2, ...`: a polynomial of degree at least one and at most `w`, and odd initial values. -/
def GoodRow (w digits : Nat) (T : SobolTable) (i : Nat) : Prop :=
  2 ≤ T.polynomial i ∧ T.polynomial i < 2 ^ digits ∧ (T.polynomial i).log2 ≤ w ∧
    ∀ k < (T.polynomial i).log2, T.minit i k % 2 = 1 ∧ T.minit i k < 2 ^ (k + 1)

theorem sobolColumn_good {w digits : Nat} {T : SobolTable} (hd : 1 ≤ digits) {dim : Nat} (h : GoodRow w digits T (dim - 1)) :
    ∃ c, sobolColumn w digits T dim = .ok c ∧ GoodCol w c := by
  obtain ⟨h1, h2, h3, h4⟩ := h
  unfold sobolColumn
  simp only
  rw [if_neg (by omega), if_neg (by omega), if_neg (by omega)]
  refine ⟨_, rfl, ?_⟩
  have hdeg : 1 ≤ (T.polynomial (dim - 1)).log2 := (Nat.le_log2 (by omega)).2 (by simpa using h1)
  generalize (T.polynomial (dim - 1)).log2 = degree at *
  have hm : GoodCol degree ((List.range degree).map fun k => T.minit (dim - 1) k % 2 ^ digits) := by
    refine ⟨by simp, fun j hj => ?_⟩
    rw [List.getD_eq_getElem?_getD, List.getElem?_map, List.getElem?_range hj]
    obtain ⟨g1, g2⟩ := h4 j hj
    simp only [Option.map_some, Option.getD_some]
    exact ⟨by rw [even_mod_two_pow hd]; exact g1, lt_of_le_of_lt (Nat.mod_le _ _) g2⟩
  have := iterate_good hd hdeg (w - degree) hm (le_refl _) (poly := T.polynomial (dim - 1))
  rwa [show degree + (w - degree) = w by omega] at this

theorem replicate_good (w : Nat) : GoodCol w (List.replicate w 1) := by
  refine ⟨by simp, fun j hj => ?_⟩
  rw [List.getD_eq_getElem?_getD, List.getElem?_replicate, if_pos hj]
  exact ⟨rfl, Nat.one_lt_two_pow (by omega)⟩

theorem sobolColumns_good {w digits : Nat} {T : SobolTable} (hd : 1 ≤ digits) (n : Nat) : ∀ dim,
    (∀ i, dim ≤ i → i < dim + n → 1 ≤ i → GoodRow w digits T (i - 1)) →
    ∃ cols, sobolColumns w digits T n dim = .ok cols ∧ cols.length = n ∧ ∀ c ∈ cols, GoodCol w c := by
  induction n with
  | zero => intro dim _; exact ⟨[], rfl, rfl, by simp⟩
  | succ n ih =>
    intro dim h
    obtain ⟨cs, h1, h2, h3⟩ := ih (dim + 1) (fun i a b c => h i (by omega) (by omega) c)
    have hc : ∃ c, (if dim = 0 then Res.ok (List.replicate w 1) else sobolColumn w digits T dim) = .ok c ∧ GoodCol w c := by
      by_cases h0 : dim = 0
      · rw [if_pos h0]; exact ⟨_, rfl, replicate_good w⟩
      · rw [if_neg h0]; exact sobolColumn_good hd (h dim (le_refl _) (by omega) (by omega))
    obtain ⟨c, h4, h5⟩ := hc
    refine ⟨c :: cs, ?_, by simp [h2], ?_⟩
    · rw [sobolColumns, h4]
      simp only [Res.bind, h1]
    · intro c' hc'
      rcases List.mem_cons.1 hc' with rfl | h
      · exact h5
      · exact h3 c' h

theorem sobolColumns_length {w digits : Nat} {T : SobolTable} (n : Nat) : ∀ {dim cols}, sobolColumns w digits T n dim = .ok cols → cols.length = n := by
  induction n with
  | zero => intro dim cols h; injection h with h; rw [← h]; rfl
  | succ n ih =>
    intro dim cols h
    rw [sobolColumns] at h
    match hc : (if dim = 0 then Res.ok (List.replicate w 1) else sobolColumn w digits T dim), hcs : sobolColumns w digits T n (dim + 1) with
    | .ok c, .ok cs =>
      rw [hc, hcs] at h
      injection h with h
      rw [← h, List.length_cons, ih hcs]
    | .ok c, .throw => rw [hc, hcs] at h; exact absurd h (by simp [Res.bind])
    | .ok c, .ub => rw [hc, hcs] at h; exact absurd h (by simp [Res.bind])
    | .throw, _ => rw [hc] at h; exact absurd h (by simp [Res.bind])
    | .ub, _ => rw [hc] at h; exact absurd h (by simp [Res.bind])

theorem flatMap_length {β γ : Type} (f : β → List γ) (n : Nat) (xs : List β) (h : ∀ x ∈ xs, (f x).length = n) : (xs.flatMap f).length = xs.length * n := by
  induction xs with
  | nil => simp
  | cons x xs ih =>
    rw [List.flatMap_cons, List.length_append, h x (by simp), ih (fun y hy => h y (List.mem_cons_of_mem _ hy)), List.length_cons]
    ring

theorem sobolLattice_length {w digits : Nat} {T : SobolTable} {dim : Nat} {l : List Nat} (h : sobolLattice w digits T dim = .ok l) : l.length = w * dim := by
  unfold sobolLattice at h
  split at h
  · exact absurd h (by simp)
  · match hc : sobolColumns w digits T dim 0 with
    | .ok cols =>
      rw [hc] at h
      injection h with h
      rw [← h, flatMap_length _ dim _ (fun j _ => by simp [sobolColumns_length dim hc]), List.length_range]
    | .throw => rw [hc] at h; exact absurd h (by simp [Res.bind])
    | .ub => rw [hc] at h; exact absurd h (by simp [Res.bind])

theorem flatMap_getD {β : Type} (f : β → List Nat) (n : Nat) : ∀ (xs : List β), (∀ x ∈ xs, (f x).length = n) →
    ∀ j d, d < n → (xs.flatMap f).getD (n * j + d) 0 = ((xs[j]?).map fun x => (f x).getD d 0).getD 0 := by
  intro xs
  induction xs with
  | nil => intro _ j d _; simp
  | cons x xs ih =>
    intro h j d hd
    have hx := h x (by simp)
    rw [List.flatMap_cons, List.getD_eq_getElem?_getD]
    cases j with
    | zero =>
      rw [Nat.mul_zero, Nat.zero_add, List.getElem?_append_left (by omega)]
      simp [List.getD_eq_getElem?_getD]
    | succ j =>
      rw [List.getElem?_append_right (by rw [hx, Nat.mul_succ]; omega), hx, show n * (j + 1) + d - n = n * j + d by rw [Nat.mul_succ]; omega,
        ← List.getD_eq_getElem?_getD, ih (fun y hy => h y (List.mem_cons_of_mem _ hy)) j d hd]
      simp

/-- The direction number of coordinate `d`, row `j`. -/
theorem sobolLattice_good {w digits : Nat} {T : SobolTable} (hw : 1 ≤ w) (hwd : w ≤ digits) {dim : Nat} (h0 : 0 < dim) (hmax : dim ≤ T.maxDimension)
    (hT : ∀ i, i + 1 < dim → GoodRow w digits T i) :
    ∃ l, sobolLattice w digits T dim = .ok l ∧ ∀ d < dim, ∀ j < w, ∃ m, m % 2 = 1 ∧ m < 2 ^ (j + 1) ∧ l.getD (dim * j + d) 0 = m * 2 ^ (w - 1 - j) := by
  obtain ⟨cols, h1, h2, h3⟩ := sobolColumns_good (w := w) (T := T) (by omega : 1 ≤ digits) dim 0 (fun i _ hi hi1 => hT (i - 1) (by omega))
  unfold sobolLattice
  rw [if_neg (by omega), h1]
  refine ⟨_, rfl, fun d hd j hj => ?_⟩
  have hd' : d < cols.length := by omega
  have hg := h3 cols[d] (List.getElem_mem hd')
  obtain ⟨g1, g2⟩ := hg.2 j hj
  refine ⟨cols[d].getD j 0, g1, g2, ?_⟩
  rw [flatMap_getD _ dim _ (fun x _ => by simp [h2]) j d hd, List.getElem?_range hj]
  simp only [Option.map_some, Option.getD_some]
  rw [List.getD_eq_getElem?_getD, List.getElem?_map, List.getElem?_eq_getElem hd']
  simp only [Option.map_some, Option.getD_some]
  rw [Nat.shiftLeft_eq, Nat.mod_eq_of_lt]
  have h4 : cols[d].getD j 0 * 2 ^ (w - 1 - j) < 2 ^ (j + 1) * 2 ^ (w - 1 - j) := Nat.mul_lt_mul_of_pos_right g2 (Nat.two_pow_pos _)
  rw [← Nat.pow_add, show j + 1 + (w - 1 - j) = w by omega] at h4
  exact lt_of_lt_of_le h4 (Nat.pow_le_pow_right (by decide) hwd)

/-! ## The coordinates are permutations -/

theorem xorSelect_lt {v : Nat → Nat} {b : Nat} (code : Nat) {n : Nat} (h : ∀ r < n, v r < 2 ^ b) : xorSelect v code n < 2 ^ b := by
  induction n with
  | zero => exact Nat.two_pow_pos _
  | succ n ih =>
    rw [xorSelect]
    refine Nat.xor_lt_two_pow (ih fun r hr => h r (by omega)) ?_
    split
    · exact h n (by omega)
    · exact Nat.two_pow_pos _

theorem odd_mul_testBit {m k : Nat} (h : m % 2 = 1) : (m * 2 ^ k).testBit k = true := by
  rw [Nat.testBit_mul_two_pow]
  simp [h]

theorem mul_testBit_low {m k i : Nat} (h : i < k) : (m * 2 ^ k).testBit i = false := by
  rw [Nat.testBit_mul_two_pow]
  simp [show ¬ k ≤ i by omega]

/-- Below row `n` the direction numbers have no bit under `w - n`. -/
theorem xorSelect_testBit_low {w : Nat} {v : Nat → Nat} (hv : ∀ j < w, ∃ m, m % 2 = 1 ∧ m < 2 ^ (j + 1) ∧ v j = m * 2 ^ (w - 1 - j)) (code : Nat) :
    ∀ n ≤ w, ∀ i, i < w - n → (xorSelect v code n).testBit i = false := by
  intro n
  induction n with
  | zero => intro _ i _; simp [xorSelect]
  | succ n ih =>
    intro hn i hi
    rw [xorSelect, Nat.testBit_xor, ih (by omega) i (by omega)]
    split
    · obtain ⟨m, _, _, h⟩ := hv n (by omega)
      rw [h, mul_testBit_low (by omega)]
      rfl
    · simp

theorem xorSelect_ne_zero {w : Nat} {v : Nat → Nat} (hv : ∀ j < w, ∃ m, m % 2 = 1 ∧ m < 2 ^ (j + 1) ∧ v j = m * 2 ^ (w - 1 - j)) {code : Nat} :
    ∀ n ≤ w, code ≠ 0 → code < 2 ^ n → xorSelect v code n ≠ 0 := by
  intro n
  induction n with
  | zero => intro _ h0 h; rw [Nat.pow_zero] at h; omega
  | succ n ih =>
    intro hn h0 h
    rw [xorSelect]
    by_cases hb : code.testBit n = true
    · rw [if_pos hb]
      intro he
      have := congrArg (·.testBit (w - 1 - n)) he
      obtain ⟨m, h1, _, h2⟩ := hv n (by omega)
      simp only [Nat.testBit_xor, Nat.zero_testBit] at this
      rw [xorSelect_testBit_low hv code n (by omega) _ (by omega), h2, odd_mul_testBit h1] at this
      exact absurd this (by decide)
    · rw [if_neg hb, Nat.xor_zero]
      apply ih (by omega) h0
      by_contra hge
      apply hb
      have h2 : code = 2 ^ n + (code - 2 ^ n) := by omega
      rw [h2, Nat.testBit_two_pow_add_eq, Nat.testBit_lt_two_pow (by rw [Nat.pow_succ] at h; omega)]
      rfl

theorem xorSelect_inj {w : Nat} {v : Nat → Nat} (hv : ∀ j < w, ∃ m, m % 2 = 1 ∧ m < 2 ^ (j + 1) ∧ v j = m * 2 ^ (w - 1 - j)) {c c' : Nat}
    (hc : c < 2 ^ w) (hc' : c' < 2 ^ w) (h : xorSelect v c w = xorSelect v c' w) : c = c' := by
  by_contra hne
  refine xorSelect_ne_zero hv w (le_refl _) (code := c ^^^ c') ?_ (Nat.xor_lt_two_pow hc hc') ?_
  · intro h0
    apply hne
    have e : c ^^^ (c ^^^ c') = c ^^^ 0 := by rw [h0]
    rw [← Nat.xor_assoc, Nat.xor_self, Nat.zero_xor, Nat.xor_zero] at e
    exact e.symm
  · rw [xorSelect_xor, h, Nat.xor_self]

theorem perm_of_inj {n : Nat} (f : Nat → Nat) (hlt : ∀ i < n, 1 ≤ f i ∧ f i ≤ n) (hinj : ∀ i < n, ∀ j < n, f i = f j → i = j) :
    ((List.range n).map f).Perm (List.range' 1 n) := by
  have hnd : ((List.range n).map f).Nodup := by
    rw [List.nodup_map_iff_inj_on List.nodup_range]
    intro i hi j hj h
    exact hinj i (List.mem_range.1 hi) j (List.mem_range.1 hj) h
  have hsub : (List.range n).map f ⊆ List.range' 1 n := by
    intro x hx
    obtain ⟨i, hi, rfl⟩ := List.mem_map.1 hx
    have := hlt i (List.mem_range.1 hi)
    rw [List.mem_range'_1]
    omega
  exact (List.subperm_of_subset hnd hsub).perm_of_length_le (by simp)

theorem sobol_coordinate {w digits : Nat} {T : SobolTable} (hw : 1 ≤ w) (hwd : w ≤ digits) {dim : Nat} (h0 : 0 < dim) (hmax : dim ≤ T.maxDimension)
    (hT : ∀ i, i + 1 < dim → GoodRow w digits T i) {d : Nat} (hd : d < dim) :
    ((List.range (2 ^ w - 1)).map fun i => (grayPt w (sobolLattice w digits T) dim i).getD d 0).Perm (List.range' 1 (2 ^ w - 1)) := by
  obtain ⟨l, h1, h2⟩ := sobolLattice_good hw hwd h0 hmax hT
  have hl : latticeOf (sobolLattice w digits T) dim = l := by unfold latticeOf; rw [h1]
  have hv := h2 d hd
  have hval : ∀ i, (grayPt w (sobolLattice w digits T) dim i).getD d 0 = xorSelect (fun r => l.getD (dim * r + d) 0) (grayCode (i + 1)) w := by
    intro i
    unfold grayPt grayPoint
    rw [hl, List.getD_eq_getElem?_getD, List.getElem?_map, List.getElem?_range hd]
    rfl
  simp only [hval]
  have hp := Nat.two_pow_pos w
  apply perm_of_inj
  · intro i hi
    have hlt : xorSelect (fun r => l.getD (dim * r + d) 0) (grayCode (i + 1)) w < 2 ^ w := by
      apply xorSelect_lt
      intro r hr
      obtain ⟨m, _, g2, g3⟩ := hv r hr
      simp only [g3]
      have h4 : m * 2 ^ (w - 1 - r) < 2 ^ (r + 1) * 2 ^ (w - 1 - r) := Nat.mul_lt_mul_of_pos_right g2 (Nat.two_pow_pos _)
      rwa [← Nat.pow_add, show r + 1 + (w - 1 - r) = w by omega] at h4
    have hne := xorSelect_ne_zero hv w (le_refl _) (code := grayCode (i + 1)) (by
      have : 2 ^ 0 ≤ grayCode (i + 1) := grayCode_ge (by omega)
      omega) (grayCode_lt (by omega))
    omega
  · intro i hi j hj h
    have := grayCode_inj (xorSelect_inj hv (grayCode_lt (by omega)) (grayCode_lt (by omega)) h)
    omega

end Qrng
end Boost.Random
