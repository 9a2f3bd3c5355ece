import Verif.Model.Niederreiter
import Verif.Proofs.NbAlgebra
import Verif.Proofs.Gf2

/-!
# The columns of the Niederreiter lattice
-/

namespace Boost.Random
namespace Nb
open Polynomial Mt Spec Qrng Gf2

/-! ## Polynomials as numbers -/

theorem lt_two_pow_iff {n k : Nat} : n < 2 ^ k ↔ ∀ j, k ≤ j → (ofNat n).coeff j = 0 := by
  refine ⟨fun h j hj => coeff_ofNat_of_lt h hj, fun h => Nat.lt_pow_two_of_testBit _ fun i hi => ?_⟩
  have := h i hi
  rw [coeff_ofNat] at this
  cases ht : n.testBit i
  · rfl
  · rw [ht] at this; exact absurd this (by decide)

theorem natDegree_ofNat {n : Nat} (h : n ≠ 0) : (ofNat n).natDegree = n.log2 ∧ (ofNat n).Monic := by
  have h1 : (ofNat n).coeff n.log2 = 1 := by rw [coeff_ofNat, Nat.testBit_log2 h]; rfl
  have h2 : (ofNat n).natDegree ≤ n.log2 := by
    rw [natDegree_le_iff_coeff_eq_zero]
    intro j hj
    exact coeff_ofNat_of_lt (Nat.lt_log2_self (n := n)) hj
  have h3 : (ofNat n).natDegree = n.log2 := le_antisymm h2 (le_natDegree_of_ne_zero (by rw [h1]; exact one_ne_zero))
  refine ⟨h3, ?_⟩
  rw [Monic, leadingCoeff, h3, h1]

theorem ofNat_inj {m n : Nat} (h : ofNat m = ofNat n) : m = n := by
  apply Nat.eq_of_testBit_eq
  intro i
  have := congrArg (·.coeff i) h
  simp only [coeff_ofNat] at this
  cases h1 : m.testBit i <;> cases h2 : n.testBit i <;> rw [h1, h2] at this <;> first | rfl | exact absurd this (by decide)

theorem ofNat_half (P : Nat) : ofNat P = (if P % 2 = 1 then 1 else 0) + X * ofNat (P / 2) := by
  have h := ofNat_split P 1
  rw [pow_one, Nat.shiftRight_one] at h
  rw [← h, pow_one]
  congr 1
  rcases Nat.mod_two_eq_zero_or_one P with h0 | h0 <;> rw [h0]
  · simp
  · rw [if_pos rfl]
    have := ofNat_two_pow 0
    rwa [pow_zero, pow_zero] at this

/-! ## The product -/

theorem mod2Loop_spec (size : Nat) : ∀ (f P v pt a b : Nat), P < 2 ^ f → P < 2 ^ b → v < 2 ^ a → a + b ≤ size + 1 →
    ofNat (mod2Loop size f P v pt) = ofNat pt + ofNat P * ofNat v := by
  intro f
  induction f with
  | zero => intro P v pt a b h _ _ _; rw [Nat.pow_zero] at h; obtain rfl : P = 0 := by omega
            simp [mod2Loop]
  | succ f ih =>
    intro P v pt a b hf hb ha hs
    rw [mod2Loop]
    by_cases h0 : P = 0
    · rw [if_pos h0, h0]; simp
    · rw [if_neg h0]
      have hf' : P / 2 < 2 ^ f := by rw [Nat.pow_succ] at hf; omega
      have hpt : ofNat (if P % 2 = 1 then pt ^^^ v else pt) = ofNat pt + (if P % 2 = 1 then 1 else 0) * ofNat v := by
        split
        · rw [ofNat_xor, one_mul]
        · rw [zero_mul, add_zero]
      by_cases h1 : P / 2 = 0
      · have e : mod2Loop size f (P / 2) ((v <<< 1) % 2 ^ size) (if P % 2 = 1 then pt ^^^ v else pt) = if P % 2 = 1 then pt ^^^ v else pt := by
          rw [h1]
          cases f with
          | zero => rfl
          | succ f => rw [mod2Loop, if_pos rfl]
        rw [e, hpt, ofNat_half P, h1]
        simp
      · have hb0 : b ≠ 0 := by rintro rfl; rw [Nat.pow_zero] at hb; omega
        obtain ⟨b, rfl⟩ := Nat.exists_eq_succ_of_ne_zero hb0
        have hb' : P / 2 < 2 ^ b := by rw [Nat.pow_succ] at hb; omega
        have hb1 : b ≠ 0 := by rintro rfl; rw [Nat.pow_zero] at hb'; omega
        have hv : v <<< 1 < 2 ^ (a + 1) := by rw [Nat.shiftLeft_eq, Nat.pow_succ]; omega
        have hm : (v <<< 1) % 2 ^ size = v <<< 1 := Nat.mod_eq_of_lt (lt_of_lt_of_le hv (Nat.pow_le_pow_right (by decide) (by omega)))
        rw [hm, ih (P / 2) (v <<< 1) _ (a + 1) b hf' hb' hv (by omega), hpt, ofNat_shiftLeft, pow_one, ofNat_half P]
        ring

theorem mod2Loop_bit0 (size : Nat) : ∀ (f P v pt : Nat), P < 2 ^ f →
    (mod2Loop size f P v pt).testBit 0 = (pt.testBit 0 ^^ (P.testBit 0 && v.testBit 0)) := by
  intro f
  induction f with
  | zero => intro P v pt h; rw [Nat.pow_zero] at h; obtain rfl : P = 0 := by omega
            simp [mod2Loop]
  | succ f ih =>
    intro P v pt hf
    rw [mod2Loop]
    by_cases h0 : P = 0
    · rw [if_pos h0, h0]; simp
    · rw [if_neg h0, ih _ _ _ (by rw [Nat.pow_succ] at hf; omega)]
      have e : ((v <<< 1) % 2 ^ size).testBit 0 = false := by
        rw [Nat.testBit_mod_two_pow, Nat.testBit_shiftLeft]; simp
      rw [e, Bool.and_false, Bool.xor_false]
      rw [Nat.testBit_zero (x := P)]
      split
      · rename_i h; rw [Nat.testBit_xor]; simp [h]
      · rename_i h; simp [h]

theorem mod2Loop_lt {size : Nat} : ∀ (f P v pt : Nat), v < 2 ^ size → pt < 2 ^ size → mod2Loop size f P v pt < 2 ^ size := by
  intro f
  induction f with
  | zero => intro P v pt _ h; exact h
  | succ f ih =>
    intro P v pt hv hp
    rw [mod2Loop]
    split
    · exact hp
    · refine ih _ _ _ (Nat.mod_lt _ (Nat.two_pow_pos _)) ?_
      split
      · exact Nat.xor_lt_two_pow hp hv
      · exact hp

/-! ## The sequence `v` -/

/-- The beginning of `v`. -/
def vInit (kj D : Nat) : List Bool := List.replicate kj false ++ List.replicate (D - kj) true

/-- After `n` bits more. -/
def vIter (pb kj D n : Nat) : List Bool := Nat.iterate (fun v => v ++ [nbTerm pb D v]) n (vInit kj D)

theorem vIter_succ (pb kj D n : Nat) : vIter pb kj D (n + 1) = vIter pb kj D n ++ [nbTerm pb D (vIter pb kj D n)] := by
  unfold vIter
  rw [Function.iterate_succ_apply']

theorem vInit_length {kj D : Nat} (h : kj ≤ D) : (vInit kj D).length = D := by simp [vInit]; omega

theorem vIter_length (pb : Nat) {kj D : Nat} (h : kj ≤ D) (n : Nat) : (vIter pb kj D n).length = D + n := by
  induction n with
  | zero => exact vInit_length h
  | succ n ih => rw [vIter_succ, List.length_append, ih]; rfl

/-- Bit `i` of the infinite sequence. -/
def vSeq (pb kj D i : Nat) : Bool := (vIter pb kj D (i + 1 - D)).getD i false

theorem vIter_getD (pb : Nat) {kj D : Nat} (h : kj ≤ D) (n : Nat) : ∀ i < D + n, (vIter pb kj D n).getD i false = vSeq pb kj D i := by
  induction n with
  | zero =>
    intro i hi
    unfold vSeq
    rw [show i + 1 - D = 0 by omega]
  | succ n ih =>
    intro i hi
    by_cases hlt : i < D + n
    · rw [← ih i hlt, vIter_succ, List.getD_eq_getElem?_getD, List.getElem?_append_left (by rw [vIter_length pb h]; exact hlt), List.getD_eq_getElem?_getD]
    · unfold vSeq
      rw [show i + 1 - D = n + 1 by omega]

theorem vSeq_low (pb : Nat) {kj D i : Nat} (hi : i < kj) (h : kj ≤ D) : vSeq pb kj D i = false := by
  rw [← vIter_getD pb h 0 i (by omega)]
  show (vInit kj D).getD i false = _
  rw [vInit, List.getD_eq_getElem?_getD, List.getElem?_append_left (by simpa using hi), List.getElem?_replicate, if_pos hi]
  rfl

theorem vSeq_one (pb : Nat) {kj D : Nat} (h : kj < D) : vSeq pb kj D kj = true := by
  rw [← vIter_getD pb h.le 0 kj (by omega)]
  show (vInit kj D).getD kj false = _
  rw [vInit, List.getD_eq_getElem?_getD, List.getElem?_append_right (by simp), List.length_replicate, Nat.sub_self, List.getElem?_replicate, if_pos (by omega)]
  rfl

theorem foldl_xor (f : Nat → Bool) (n : Nat) : gf ((List.range n).foldl (fun t k => t ^^ f k) false) = ∑ k ∈ Finset.range n, gf (f k) := by
  induction n with
  | zero => rfl
  | succ n ih => rw [List.range_succ, List.foldl_append, Finset.sum_range_succ, ← ih]; exact gf_xor _ _

theorem vSeq_rec (pb : Nat) {kj D : Nat} (h : kj ≤ D) (t : Nat) : gf (vSeq pb kj D (t + D)) = ∑ k ∈ Finset.range D, gf (pb.testBit k) * gf (vSeq pb kj D (t + k)) := by
  rw [← vIter_getD pb h (t + 1) (t + D) (by omega), vIter_succ, List.getD_eq_getElem?_getD, List.getElem?_append_right (by rw [vIter_length pb h]; omega),
    vIter_length pb h, show t + D - (D + t) = 0 by omega]
  show gf (nbTerm pb D (vIter pb kj D t)) = _
  unfold nbTerm
  rw [foldl_xor]
  refine Finset.sum_congr rfl fun k hk => ?_
  rw [Finset.mem_range] at hk
  rw [gf_and, vIter_length pb h, show D + t + k - D = t + k by omega, vIter_getD pb h t (t + k) (by omega)]

/-- A power of the polynomial annihilates the sequence. -/
theorem vSeq_annihilated {pb kj D : Nat} (h : kj ≤ D) {q : (ZMod 2)[X]} (hq : ofNat pb = q) (hm : q.Monic) (hD : q.natDegree = D) :
    aeval shiftSeq q (fun i => gf (vSeq pb kj D i)) = 0 := by
  funext t
  rw [aeval_sum q (n := D + 1) (by omega), Finset.sum_range_succ, ← hD, hm.coeff_natDegree, one_mul, hD, vSeq_rec pb h, ← Finset.sum_add_distrib, Pi.zero_apply]
  refine Finset.sum_eq_zero fun k _ => ?_
  rw [← hq, coeff_ofNat]
  exact CharTwo.add_self_eq_zero (gf (pb.testBit k) * gf (vSeq pb kj D (t + k)))

theorem calculateV_ok {pb kj D size : Nat} (h : kj ≤ D) (hD : D ≤ size) : ∃ v, calculateV pb kj D size = .ok v ∧ ∀ i < size, v.getD i false = vSeq pb kj D i := by
  unfold calculateV
  rw [if_neg (by omega)]
  refine ⟨_, rfl, fun i hi => ?_⟩
  have hl := vInit_length h
  unfold vInit at hl
  rw [hl]
  exact vIter_getD pb h (size - D) i (by omega)

/-! ## Rows -/

theorem nbSet_testBit {digits num b : Nat} (hn : num < 2 ^ digits) (hb : b < digits) (x : Bool) (i : Nat) :
    (nbSet digits num (2 ^ b) x).testBit i = if i = b then x else num.testBit i := by
  unfold nbSet
  have hlt : 2 ^ b < 2 ^ digits := Nat.pow_lt_pow_right (by decide) hb
  have hx : (if x = true then 2 ^ b else 0).testBit i = (x && decide (b = i)) := by cases x <;> simp [Nat.testBit_two_pow]
  rw [Nat.testBit_or, Nat.testBit_and, hx, show 2 ^ digits - 1 - 2 ^ b = 2 ^ digits - (2 ^ b + 1) by omega, Nat.testBit_two_pow_sub_succ hlt, Nat.testBit_two_pow]
  by_cases hi : i = b
  · subst hi; simp
  · rw [if_neg hi]
    simp only [Ne.symm hi, decide_false, Bool.not_false, Bool.and_true, Bool.and_false, Bool.or_false]
    by_cases hd : i < digits
    · simp [hd]
    · rw [Nat.testBit_lt_two_pow (lt_of_lt_of_le hn (Nat.pow_le_pow_right (by decide) (by omega)))]; simp

/-- The columns have `w` numbers of `w` bits. -/
def Col (w : Nat) (col : List Nat) : Prop := col.length = w ∧ ∀ r, col.getD r 0 < 2 ^ w

theorem getD_mapIdx (f : Nat → Nat → Nat) (col : List Nat) {r : Nat} (h : r < col.length) : (col.mapIdx f).getD r 0 = f r (col.getD r 0) := by
  rw [List.getD_eq_getElem?_getD, List.getElem?_mapIdx, List.getD_eq_getElem?_getD, List.getElem?_eq_getElem h]; rfl

/-- Bits `s, s+1, ...` from the top are set. -/
theorem nbRows_spec {w digits : Nat} (hwd : w ≤ digits) (v : List Bool) : ∀ (c u s : Nat) (col : List Nat), s < w → Col w col →
    ∃ col', nbRows digits v c u (2 ^ (w - 1 - s)) col = (if s + c < w then 2 ^ (w - 1 - (s + c)) else 0, col') ∧ Col w col' ∧
      ∀ r < w, ∀ i < w, (col'.getD r 0).testBit (w - 1 - i) = if s ≤ i ∧ i < s + c then v.getD (r + (u + (i - s))) false else (col.getD r 0).testBit (w - 1 - i) := by
  intro c
  induction c with
  | zero =>
    intro u s col hs hc
    refine ⟨col, ?_, hc, fun r _ i _ => ?_⟩
    · rw [nbRows, Nat.add_zero, if_pos hs]
    · rw [if_neg (by omega)]
  | succ c ih =>
    intro u s col hs hc
    have hb : w - 1 - s < w := by omega
    obtain ⟨col1, hcol1⟩ : ∃ col1, col1 = col.mapIdx fun r num => nbSet digits num (2 ^ (w - 1 - s)) (v.getD (r + u) false) := ⟨_, rfl⟩
    have hget : ∀ r < w, ∀ i, (col1.getD r 0).testBit i = if i = w - 1 - s then v.getD (r + u) false else (col.getD r 0).testBit i := by
      intro r hr i
      rw [hcol1, getD_mapIdx _ _ (by rw [hc.1]; exact hr), nbSet_testBit (lt_of_lt_of_le (hc.2 r) (Nat.pow_le_pow_right (by decide) hwd)) (by omega)]
    have hc1 : Col w col1 := by
      refine ⟨by rw [hcol1, List.length_mapIdx, hc.1], fun r => ?_⟩
      by_cases hr : r < w
      · refine Nat.lt_pow_two_of_testBit _ fun i hi => ?_
        rw [hget r hr, if_neg (by omega), Nat.testBit_lt_two_pow (lt_of_lt_of_le (hc.2 r) (Nat.pow_le_pow_right (by decide) hi))]
      · rw [List.getD_eq_getElem?_getD, List.getElem?_eq_none (by rw [hcol1, List.length_mapIdx, hc.1]; omega)]
        exact Nat.two_pow_pos w
    rw [nbRows, if_neg (Nat.ne_of_gt (Nat.two_pow_pos _)), ← hcol1]
    by_cases hs1 : s + 1 < w
    · have hj : 2 ^ (w - 1 - s) / 2 = 2 ^ (w - 1 - (s + 1)) := by
        rw [show w - 1 - s = w - 1 - (s + 1) + 1 by omega, Nat.pow_succ]; omega
      obtain ⟨col', h1, h2, h3⟩ := ih (u + 1) (s + 1) col1 hs1 hc1
      refine ⟨col', ?_, h2, fun r hr i hi => ?_⟩
      · rw [hj, h1, show s + 1 + c = s + (c + 1) by omega]
      · rw [h3 r hr i hi]
        by_cases hi1 : s + 1 ≤ i ∧ i < s + 1 + c
        · rw [if_pos hi1, if_pos (by omega), show u + 1 + (i - (s + 1)) = u + (i - s) by omega]
        · rw [if_neg hi1, hget r hr]
          by_cases he : i = s
          · rw [if_pos (by omega), if_pos (by omega), he, Nat.sub_self, Nat.add_zero]
          · rw [if_neg (by omega), if_neg (by omega)]
    · have hj : 2 ^ (w - 1 - s) / 2 = 0 := by rw [show w - 1 - s = 0 by omega]; rfl
      refine ⟨col1, ?_, hc1, fun r hr i hi => ?_⟩
      · rw [hj, if_neg (by omega)]
        cases c with
        | zero => rfl
        | succ c => rw [nbRows, if_pos rfl]
      · rw [hget r hr]
        by_cases he : i = s
        · rw [if_pos (by omega), if_pos (by omega), he, Nat.sub_self, Nat.add_zero]
        · rw [if_neg (by omega), if_neg (by omega)]

/-! ## All blocks of a column -/

/-- The number of a power of the polynomial. -/
theorem exists_number (p : (ZMod 2)[X]) : ∃ n, ofNat n = p := by
  classical
  refine ⟨Nat.ofBits fun i : Fin (p.natDegree + 1) => decide (p.coeff i = 1), ?_⟩
  ext k
  rw [coeff_ofNat]
  by_cases hk : k < p.natDegree + 1
  · rw [Nat.testBit_ofBits_lt _ _ hk]
    generalize p.coeff k = x
    revert x; decide
  · rw [coeff_eq_zero_of_natDegree_lt (by omega), Nat.testBit_lt_two_pow (lt_of_lt_of_le (Nat.ofBits_lt_two_pow _) (Nat.pow_le_pow_right (by decide) (by omega)))]
    rfl

/-- The sequence of block `m`, of the power `m + 1`. -/
noncomputable def blockSeq (poly m : Nat) : Nat → Bool :=
  vSeq (Classical.choose (exists_number (ofNat poly ^ (m + 1)))) (m * poly.log2) ((m + 1) * poly.log2)

theorem blockSeq_eq {poly m pb : Nat} (h : ofNat pb = ofNat poly ^ (m + 1)) : blockSeq poly m = vSeq pb (m * poly.log2) ((m + 1) * poly.log2) := by
  unfold blockSeq
  rw [ofNat_inj ((Classical.choose_spec (exists_number (ofNat poly ^ (m + 1)))).trans h.symm)]

theorem blockSeq_annihilated {poly : Nat} (h : poly ≠ 0) (m : Nat) : aeval shiftSeq (ofNat poly ^ (m + 1)) (fun i => gf (blockSeq poly m i)) = 0 := by
  obtain ⟨h1, h2⟩ := natDegree_ofNat h
  have := vSeq_annihilated (kj := m * poly.log2) (D := (m + 1) * poly.log2) (Nat.mul_le_mul_right _ (by omega))
    (Classical.choose_spec (exists_number (ofNat poly ^ (m + 1)))) (h2.pow _) (by rw [h2.natDegree_pow, h1])
  exact this

theorem blockSeq_not {poly : Nat} (h : poly ≠ 0) (hd : 1 ≤ poly.log2) (m : Nat) : aeval shiftSeq (ofNat poly ^ m) (fun i => gf (blockSeq poly m i)) ≠ 0 := by
  obtain ⟨h1, h2⟩ := natDegree_ofNat h
  intro h0
  have hz := eq_zero_of_prefix (h2.pow m) h0 (fun t ht => by
    rw [h2.natDegree_pow, h1] at ht
    show gf (blockSeq poly m t) = 0
    unfold blockSeq
    rw [vSeq_low _ ht (Nat.mul_le_mul_right _ (by omega))]
    rfl)
  have hlt : m * poly.log2 < (m + 1) * poly.log2 := by rw [Nat.add_mul]; omega
  have := congrFun hz (m * poly.log2)
  unfold blockSeq at this
  simp only [vSeq_one _ hlt] at this
  exact absurd (show (1 : ZMod 2) = 0 from this) (by decide)

/-- The bits of a column: those of block `m` are windows of its sequence. -/
def ColSpec (w poly : Nat) (upTo : Nat) (col : List Nat) : Prop :=
  ∀ m < upTo, (m + 1) * poly.log2 ≤ w → ∀ u < poly.log2, ∀ r < w, (col.getD r 0).testBit (w - 1 - (m * poly.log2 + u)) = blockSeq poly m (r + u)

theorem ofNat_coeff_zero_pow {poly pb i : Nat} (hodd : poly.testBit 0 = true) (h : ofNat pb = ofNat poly ^ i) : pb.testBit 0 = true := by
  have := congrArg (·.coeff 0) h
  simp only [coeff_zero_eq_eval_zero, eval_pow] at this
  rw [← coeff_zero_eq_eval_zero, ← coeff_zero_eq_eval_zero, coeff_ofNat, coeff_ofNat, hodd, if_pos rfl, one_pow] at this
  cases hb : pb.testBit 0
  · rw [hb] at this; exact absurd this (by decide)
  · rfl

theorem nbLoop_spec {w digits poly : Nat} (hwd : w ≤ digits) (h0 : poly ≠ 0) (hd : 1 ≤ poly.log2) (hodd : poly.testBit 0 = true ∨ poly.log2 = 1) :
    ∀ (f i pb : Nat) (col : List Nat), i * poly.log2 < w → w ≤ f + i * poly.log2 → ofNat pb = ofNat poly ^ i → Col w col → ColSpec w poly i col →
      ∃ col', nbLoop w digits poly poly.log2 (poly.log2 * (w / poly.log2 + 1)) f pb (i * poly.log2) (2 ^ (w - 1 - i * poly.log2)) col = .ok col' ∧
        Col w col' ∧ ∀ n, ColSpec w poly n col' := by
  obtain ⟨hdeg, hmon⟩ := natDegree_ofNat h0
  have hpoly : poly < 2 ^ (poly.log2 + 1) := Nat.lt_log2_self
  obtain ⟨e, he⟩ : ∃ e, e = poly.log2 := ⟨_, rfl⟩
  rw [← he] at hpoly hdeg hd hodd
  intro f
  induction f with
  | zero => intro i pb col h1 h2; omega
  | succ f ih =>
    intro i pb col h1 h2 hpb hc hcs
    rw [nbLoop]
    simp only [← he] at h1 h2 ⊢
    have hie : (i + 1) * e = i * e + e := by ring
    have hpbl : pb < 2 ^ (i * e + 1) := by
      rw [lt_two_pow_iff]
      intro j hj
      rw [hpb]
      exact coeff_eq_zero_of_natDegree_lt (by rw [hmon.natDegree_pow, hdeg]; omega)
    by_cases hov : i * e + e ≥ e * (w / e + 1)
    · -- the last, incomplete block
      have hndvd : (i + 1) * e > w := by
        have h3 := Nat.lt_mul_div_succ w hd
        rw [hie]; omega
      have h1' := h1
      have hodd' : poly.testBit 0 = true := by
        rcases hodd with h | h
        · exact h
        · rw [h, Nat.mul_one] at hndvd h1'
          omega
      have hbit : (modulo2Multiply (e * (w / e + 1)) poly pb).testBit 0 = true := by
        unfold modulo2Multiply
        rw [mod2Loop_bit0 _ _ _ _ _ Nat.lt_log2_self, hodd', ofNat_coeff_zero_pow hodd' hpb]
        simp
      have hiw : i < w / e + 1 := by
        have h3 := Nat.lt_mul_div_succ w hd
        by_contra hge
        have : e * (w / e + 1) ≤ e * i := Nat.mul_le_mul_left e (by omega)
        rw [Nat.mul_comm e i] at this
        omega
      have hlt : modulo2Multiply (e * (w / e + 1)) poly pb < 2 ^ (e * (w / e + 1)) := by
        refine mod2Loop_lt _ _ _ _ (lt_of_lt_of_le hpbl (Nat.pow_le_pow_right (by decide) ?_)) (Nat.two_pow_pos _)
        have : i * e + e ≤ e * (w / e + 1) := by rw [← hie, Nat.mul_comm]; exact Nat.mul_le_mul_left e hiw
        omega
      generalize modulo2Multiply (e * (w / e + 1)) poly pb = pb' at hbit hlt ⊢
      have hne : pb' ≠ 0 := by intro h; rw [h] at hbit; simp at hbit
      have hlog : pb'.log2 < e * (w / e + 1) := by
        rw [Nat.log2_lt hne]; exact hlt
      have hsp : e * (w / e + 1) ≤ w + e - 1 := by
        have h3 : e * (w / e) ≤ w := Nat.mul_div_le w e
        have h4 : e * (w / e + 1) = e * (w / e) + e := by ring
        have h5 : e * (w / e) ≠ w := by
          intro h
          have h6 : e * i < e * (w / e) := by rw [h, Nat.mul_comm]; exact h1
          have h7 : i < w / e := Nat.lt_of_mul_lt_mul_left h6
          have h8 : e * (i + 1) ≤ e * (w / e) := Nat.mul_le_mul_left e h7
          rw [Nat.mul_comm e (i + 1)] at h8
          omega
        omega
      rw [if_pos hov, bitsetLog2, if_neg hne]
      simp only [Res.bind]
      have hcv : ∃ v, calculateV pb' (i * e) pb'.log2 (e + w - 1) = .ok v := by
        unfold calculateV
        rw [if_neg (by omega)]
        exact ⟨_, rfl⟩
      obtain ⟨v, hv⟩ := hcv
      rw [hv]
      obtain ⟨col', g1, g2, g3⟩ := nbRows_spec hwd v e 0 (i * e) col h1 hc
      have hj : ¬ i * e + e < w := by omega
      simp only [g1, if_neg hj]
      rw [if_neg (by simp)]
      refine ⟨col', rfl, g2, fun n m _ hm u hu r hr => ?_⟩
      rw [← he] at hm hu ⊢
      have hmi : m < i := by
        by_contra hge
        have : (i + 1) * e ≤ (m + 1) * e := Nat.mul_le_mul_right _ (by omega)
        omega
      have hm2 : (m + 1) * e ≤ i * e := Nat.mul_le_mul_right _ hmi
      have hm3 : (m + 1) * e = m * e + e := by ring
      rw [g3 r hr _ (by omega), if_neg (by omega)]
      have := hcs m hmi (by rw [← he]; exact hm) u (by rw [← he]; exact hu) r hr
      rwa [← he] at this
    · have hmul : ofNat (modulo2Multiply (e * (w / e + 1)) poly pb) = ofNat poly ^ (i + 1) := by
        unfold modulo2Multiply
        rw [mod2Loop_spec _ _ poly pb 0 (i * e + 1) (e + 1) Nat.lt_log2_self hpoly hpbl (by omega), ofNat_zero, zero_add, hpb, pow_succ']
      generalize modulo2Multiply (e * (w / e + 1)) poly pb = pb' at hmul ⊢
      rw [if_neg hov]
      simp only [Res.bind]
      obtain ⟨v, hv, hvs⟩ := calculateV_ok (pb := pb') (kj := i * e) (D := i * e + e) (size := e + w - 1) (by omega) (by omega)
      rw [hv]
      obtain ⟨col', g1, g2, g3⟩ := nbRows_spec hwd v e 0 (i * e) col h1 hc
      simp only [g1]
      have hcs' : ColSpec w poly (i + 1) col' := by
        intro m hmi hm u hu r hr
        rw [← he] at hm hu ⊢
        have hm3 : (m + 1) * e = m * e + e := by ring
        rw [g3 r hr _ (by omega)]
        by_cases hme : m = i
        · subst hme
          rw [if_pos (by omega), hvs _ (by omega), blockSeq_eq hmul, ← he, hie]
          congr 1; omega
        · have hm2 : (m + 1) * e ≤ i * e := Nat.mul_le_mul_right _ (by omega)
          rw [if_neg (by omega)]
          have := hcs m (by omega) (by rw [← he]; exact hm) u (by rw [← he]; exact hu) r hr
          rwa [← he] at this
      by_cases hmore : i * e + e < w
      · rw [if_pos hmore, if_pos (Nat.ne_of_gt (Nat.two_pow_pos _))]
        have := ih (i + 1) pb' col' (by rw [← he]; omega) (by rw [← he]; omega) hmul g2 hcs'
        simp only [← he] at this
        rw [hie] at this
        exact this
      · rw [if_neg hmore, if_neg (by simp)]
        refine ⟨col', rfl, g2, fun n m _ hm u hu r hr => ?_⟩
        refine hcs' m ?_ hm u hu r hr
        rw [← he] at hm
        by_contra hge
        have : (i + 2) * e ≤ (m + 1) * e := Nat.mul_le_mul_right _ (by omega)
        have h9 : (i + 2) * e = i * e + e + e := by ring
        omega

theorem nbColumn_spec {w digits poly : Nat} (hw : 1 ≤ w) (hwd : w ≤ digits) (hd : 1 ≤ poly.log2) (hlt : poly < 2 ^ digits)
    (hodd : poly.testBit 0 = true ∨ poly.log2 = 1) : ∃ col, nbColumn w digits poly = .ok col ∧ Col w col ∧ ∀ n, ColSpec w poly n col := by
  have h0 : poly ≠ 0 := by rintro rfl; simp at hd
  unfold nbColumn
  rw [if_neg (by omega), if_neg h0]
  simp only
  rw [if_neg (by omega)]
  have hc : Col w (List.replicate w 0) := by
    refine ⟨by simp, fun r => ?_⟩
    rw [List.getD_eq_getElem?_getD, List.getElem?_replicate]
    split <;> exact Nat.two_pow_pos w
  have := nbLoop_spec (digits := digits) hwd h0 hd hodd w 0 1 (List.replicate w 0) (by omega) (by omega) (by
    have := ofNat_two_pow 0
    rwa [pow_zero, pow_zero] at this) hc (fun m hm => by omega)
  simpa only [Nat.zero_mul, Nat.sub_zero] using this

end Nb
end Boost.Random
