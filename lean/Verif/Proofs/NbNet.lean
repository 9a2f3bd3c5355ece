import Verif.Proofs.NbColumn
import Verif.Proofs.QrngSobol
import Mathlib.LinearAlgebra.Matrix.Rank
import Mathlib.Algebra.Group.Subgroup.Finite
import Mathlib.Data.Fintype.BigOperators

/-!
# The points of the Niederreiter sequence form nets
-/

namespace Boost.Random
namespace Nb
open Polynomial Mt Spec Qrng Gf2

/-! ## Linear equations over GF(2) -/

theorem range_top {M : Nat} {J : Type} [Fintype J] (A : Matrix J (Fin M) (ZMod 2))
    (hA : ∀ y : J → ZMod 2, (∀ r, ∑ j, y j * A j r = 0) → y = 0) : LinearMap.range A.mulVecLin = ⊤ := by
  have hli : LinearIndependent (ZMod 2) A.row := by
    rw [Fintype.linearIndependent_iff]
    intro y hy j
    have : y = 0 := by
      apply hA
      intro r
      have := congrFun hy r
      simpa [Finset.sum_apply] using this
    rw [this]; rfl
  have hr := hli.rank_matrix
  apply Submodule.eq_top_of_finrank_eq
  rw [Module.finrank_fintype_fun_eq_card]
  exact hr

theorem card_solutions {M : Nat} {J : Type} [Fintype J] [DecidableEq J] (A : Matrix J (Fin M) (ZMod 2))
    (hA : ∀ y : J → ZMod 2, (∀ r, ∑ j, y j * A j r = 0) → y = 0) (hJ : Fintype.card J ≤ M) (b : J → ZMod 2) :
    (Finset.univ.filter fun z : Fin M → ZMod 2 => A.mulVec z = b).card = 2 ^ (M - Fintype.card J) := by
  have htop := range_top A hA
  have hsurj : ∀ b, b ∈ Set.range A.mulVecLin.toAddMonoidHom := by
    intro b
    have : b ∈ LinearMap.range A.mulVecLin := by rw [htop]; trivial
    exact this
  have heq : ∀ b', (Finset.univ.filter fun z : Fin M → ZMod 2 => A.mulVec z = b').card = (Finset.univ.filter fun z : Fin M → ZMod 2 => A.mulVec z = b).card := by
    intro b'
    exact AddMonoidHom.card_fiber_eq_of_mem_range A.mulVecLin.toAddMonoidHom (hsurj b') (hsurj b)
  have htot : (Finset.univ : Finset (Fin M → ZMod 2)).card = ∑ b' : J → ZMod 2, (Finset.univ.filter fun z : Fin M → ZMod 2 => A.mulVec z = b').card :=
    Finset.card_eq_sum_card_fiberwise (f := fun z => A.mulVec z) (fun z _ => Finset.mem_coe.2 (Finset.mem_univ _))
  rw [Finset.sum_congr rfl (fun b' _ => heq b'), Finset.sum_const, Finset.card_univ, Finset.card_univ, Fintype.card_fun, Fintype.card_fun, ZMod.card, Fintype.card_fin,
    smul_eq_mul] at htot
  have hp : 2 ^ M = 2 ^ Fintype.card J * 2 ^ (M - Fintype.card J) := by rw [← Nat.pow_add]; congr 1; omega
  rw [hp] at htot
  exact (Nat.eq_of_mul_eq_mul_left (Nat.two_pow_pos _) htot).symm

/-! ## Blocks of consecutive Gray codes -/

theorem testBit_block {M c n : Nat} (hn : n < 2 ^ M) (i : Nat) : (c * 2 ^ M + n).testBit i = if i < M then n.testBit i else c.testBit (i - M) := by
  rw [Nat.mul_comm, Nat.testBit_two_pow_mul_add _ hn]

/-- The low bits of the Gray codes in a block. -/
def lowBits (M c n : Nat) : Fin M → ZMod 2 := fun r => gf ((grayCode (c * 2 ^ M + n)).testBit r)

theorem lowBits_bijective (M c : Nat) : Set.BijOn (lowBits M c) (Finset.range (2 ^ M)) (Finset.univ : Finset (Fin M → ZMod 2)) := by
  have hinj : Set.InjOn (lowBits M c) (Finset.range (2 ^ M)) := by
    intro a ha b hb h
    simp only [Finset.coe_range, Set.mem_Iio] at ha hb
    have hg : grayCode (c * 2 ^ M + a) = grayCode (c * 2 ^ M + b) := by
      apply Nat.eq_of_testBit_eq
      intro i
      by_cases hi : i < M
      · exact gf_inj (congrFun h ⟨i, hi⟩)
      · rw [grayCode_testBit, grayCode_testBit, testBit_block ha, testBit_block ha, testBit_block hb, testBit_block hb, if_neg hi, if_neg (by omega), if_neg hi,
          if_neg (by omega)]
    have := grayCode_inj hg
    omega
  have hmaps : Set.MapsTo (lowBits M c) (Finset.range (2 ^ M)) (Finset.univ : Finset (Fin M → ZMod 2)) := fun _ _ => by simp
  refine ⟨hmaps, hinj, ?_⟩
  have := Finset.surjOn_of_injOn_of_card_le (lowBits M c) hmaps hinj (by rw [Finset.card_univ, Fintype.card_fun, ZMod.card, Fintype.card_fin, Finset.card_range])
  exact this

/-- How many of a block meet linear equations. -/
theorem card_block {M w c : Nat} (hM : M ≤ w) {J : Type} [Fintype J] [DecidableEq J] (A : J → Nat → ZMod 2)
    (hA : ∀ y : J → ZMod 2, (∀ r < M, ∑ j, y j * A j r = 0) → y = 0) (hJ : Fintype.card J ≤ M) (b : J → ZMod 2) :
    ((Finset.range (2 ^ M)).filter fun n => ∀ j, ∑ r ∈ Finset.range w, gf ((grayCode (c * 2 ^ M + n)).testBit r) * A j r = b j).card = 2 ^ (M - Fintype.card J) := by
  classical
  let B : Matrix J (Fin M) (ZMod 2) := fun j r => A j r
  have hB : ∀ y : J → ZMod 2, (∀ r, ∑ j, y j * B j r = 0) → y = 0 := fun y hy => hA y fun r hr => hy ⟨r, hr⟩
  let high : J → ZMod 2 := fun j => ∑ r ∈ Finset.Ico M w, gf ((grayCode c).testBit (r - M)) * A j r
  have hsol := card_solutions B hB hJ (fun j => b j - high j)
  rw [← hsol]
  have hbij := lowBits_bijective M c
  refine Finset.card_bij (fun n _ => lowBits M c n) ?_ ?_ ?_
  case refine_2 =>
    intro x hx y hy h
    rw [Finset.mem_filter] at hx hy
    exact hbij.injOn (Finset.mem_coe.2 hx.1) (Finset.mem_coe.2 hy.1) h
  all_goals
    have key : ∀ n < 2 ^ M, ((∀ j, ∑ r ∈ Finset.range w, gf ((grayCode (c * 2 ^ M + n)).testBit r) * A j r = b j) ↔ B.mulVec (lowBits M c n) = fun j => b j - high j) := by
      intro n hn
      rw [funext_iff]
      refine forall_congr' fun j => ?_
      have hsplit : ∑ r ∈ Finset.range w, gf ((grayCode (c * 2 ^ M + n)).testBit r) * A j r = B.mulVec (lowBits M c n) j + high j := by
        rw [← Finset.sum_range_add_sum_Ico _ hM]
        congr 1
        · rw [Matrix.mulVec, dotProduct, ← Fin.sum_univ_eq_sum_range (fun r => gf ((grayCode (c * 2 ^ M + n)).testBit r) * A j r)]
          exact Finset.sum_congr rfl fun r _ => mul_comm _ _
        · refine Finset.sum_congr rfl fun r hr => ?_
          rw [Finset.mem_Ico] at hr
          rw [grayCode_testBit, testBit_block hn, testBit_block hn, if_neg (by omega), if_neg (by omega), grayCode_testBit, show r + 1 - M = r - M + 1 by omega]
      rw [hsplit]
      constructor
      · intro h; rw [← h]; ring
      · intro h; rw [h]; ring
  · intro n hn
    rw [Finset.mem_filter, Finset.mem_range] at hn
    rw [Finset.mem_filter]
    exact ⟨Finset.mem_univ _, (key n hn.1).1 hn.2⟩
  · intro z hz
    rw [Finset.mem_filter] at hz
    obtain ⟨n, hn, hnz⟩ := hbij.surjOn (Finset.mem_coe.2 (Finset.mem_univ z))
    have hn' : n < 2 ^ M := by simpa using hn
    refine ⟨n, ?_, hnz⟩
    rw [Finset.mem_filter]
    refine ⟨Finset.mem_range.2 hn', (key n hn').2 ?_⟩
    rw [hnz]; exact hz.2

/-! ## The bits of a point -/

theorem gf_xorSelect (v : Nat → Nat) (code n i : Nat) : gf ((xorSelect v code n).testBit i) = ∑ r ∈ Finset.range n, gf (code.testBit r) * gf ((v r).testBit i) := by
  induction n with
  | zero => simp [xorSelect, gf]
  | succ n ih =>
    rw [xorSelect, Nat.testBit_xor, gf_xor, ih, Finset.sum_range_succ]
    congr 1
    cases code.testBit n <;> simp [gf]

theorem div_eq_iff_bits {w D x a : Nat} (hD : D ≤ w) (hx : x < 2 ^ w) (ha : a < 2 ^ D) :
    x / 2 ^ (w - D) = a ↔ ∀ i < D, x.testBit (w - 1 - i) = a.testBit (D - 1 - i) := by
  constructor
  · rintro rfl i hi
    rw [Nat.testBit_div_two_pow]
    congr 1; omega
  · intro h
    apply Nat.eq_of_testBit_eq
    intro i
    rw [Nat.testBit_div_two_pow]
    by_cases hi : i < D
    · have := h (D - 1 - i) (by omega)
      rwa [show w - 1 - (D - 1 - i) = i + (w - D) by omega, show D - 1 - (D - 1 - i) = i by omega] at this
    · rw [Nat.testBit_lt_two_pow (lt_of_lt_of_le hx (Nat.pow_le_pow_right (by decide) (by omega))),
        Nat.testBit_lt_two_pow (lt_of_lt_of_le ha (Nat.pow_le_pow_right (by decide) (by omega)))]

/-- The direction numbers `l d r` of the coordinates `d < dim` are those of polynomials `poly d`. -/
structure IsNb (w dim : Nat) (poly : Nat → Nat) (l : Nat → Nat → Nat) : Prop where
  lt : ∀ d < dim, ∀ r < w, l d r < 2 ^ w
  bits : ∀ d < dim, ∀ m, (m + 1) * (poly d).log2 ≤ w → ∀ u < (poly d).log2, ∀ r < w,
    (l d r).testBit (w - 1 - (m * (poly d).log2 + u)) = blockSeq (poly d) m (r + u)

theorem ofNat_poly {poly : Nat} (h : Irreducible (ofNat poly)) : poly ≠ 0 ∧ 1 ≤ poly.log2 := by
  have h0 : poly ≠ 0 := by rintro rfl; rw [ofNat_zero] at h; exact not_irreducible_zero h
  refine ⟨h0, ?_⟩
  rw [← (natDegree_ofNat h0).1]
  exact h.natDegree_pos

/-- The net property. -/
theorem net {w dim : Nat} {poly : Nat → Nat} {l : Nat → Nat → Nat} (hl : IsNb w dim poly l) (hirr : ∀ d < dim, Irreducible (ofNat (poly d)))
    (hdist : ∀ d < dim, ∀ d' < dim, poly d = poly d' → d = d') (k : Nat → Nat) {M c : Nat} (hM : M ≤ w)
    (hk : ∑ d ∈ Finset.range dim, k d * (poly d).log2 ≤ M) (a : Nat → Nat) (ha : ∀ d < dim, a d < 2 ^ (k d * (poly d).log2)) :
    ((Finset.range (2 ^ M)).filter fun n => ∀ d < dim,
      xorSelect (l d) (grayCode (c * 2 ^ M + n)) w / 2 ^ (w - k d * (poly d).log2) = a d).card = 2 ^ (M - ∑ d ∈ Finset.range dim, k d * (poly d).log2) := by
  classical
  let J := Σ d : Fin dim, Fin (k d) × Fin (poly d).log2
  let A : J → Nat → ZMod 2 := fun j r => gf (blockSeq (poly j.1) j.2.1 (r + j.2.2))
  let b : J → ZMod 2 := fun j => gf ((a j.1).testBit (k j.1 * (poly j.1).log2 - 1 - (j.2.1 * (poly j.1).log2 + j.2.2)))
  have hcard : Fintype.card J = ∑ d ∈ Finset.range dim, k d * (poly d).log2 := by
    rw [Fintype.card_sigma, ← Fin.sum_univ_eq_sum_range (fun d => k d * (poly d).log2)]
    exact Finset.sum_congr rfl fun d _ => by rw [Fintype.card_prod, Fintype.card_fin, Fintype.card_fin]
  have hle : ∀ d < dim, k d * (poly d).log2 ≤ w := by
    intro d hd
    exact le_trans (Finset.single_le_sum (f := fun d => k d * (poly d).log2) (fun _ _ => Nat.zero_le _) (Finset.mem_range.2 hd)) (le_trans hk hM)
  have hA : ∀ y : J → ZMod 2, (∀ r < M, ∑ j, y j * A j r = 0) → y = 0 := by
    intro y hy
    let coef : Fin dim → Nat → (ZMod 2)[X] := fun d m =>
      ∑ u : Fin (poly d).log2, if h : m < k d then C (y ⟨d, ⟨m, h⟩, u⟩) * X ^ (u : Nat) else 0
    have hcoef := all_coeffs_zero (Finset.univ : Finset (Fin dim)) (p := fun d => ofNat (poly d)) (fun d _ => hirr d d.2)
      (fun d _ => (natDegree_ofNat (ofNat_poly (hirr d d.2)).1).2)
      (fun d _ d' _ h => Fin.ext (hdist d d.2 d' d'.2 (ofNat_inj h))) (V := fun d m i => gf (blockSeq (poly d) m i))
      (fun d _ m => blockSeq_annihilated (ofNat_poly (hirr d d.2)).1 m)
      (fun d _ m => blockSeq_not (ofNat_poly (hirr d d.2)).1 (ofNat_poly (hirr d d.2)).2 m)
      coef (fun d _ m => by
        have h1 : (ofNat (poly d)).degree = ((poly d).log2 : Nat) := by
          rw [degree_eq_natDegree (hirr d d.2).ne_zero, (natDegree_ofNat (ofNat_poly (hirr d d.2)).1).1]
        rw [h1, degree_lt_iff_coeff_zero]
        intro j hj
        change Polynomial.coeff (∑ u : Fin (poly d).log2, _) j = 0
        rw [finsetSum_coeff]
        refine Finset.sum_eq_zero fun u _ => ?_
        split
        · rw [coeff_C_mul, coeff_X_pow, if_neg (by have := u.2; omega), mul_zero]
        · exact coeff_zero _)
      (fun d => k d) (M := M) (by
        rw [Fin.sum_univ_eq_sum_range (fun d => k d * (ofNat (poly d)).natDegree)]
        refine le_trans (le_of_eq ?_) hk
        refine Finset.sum_congr rfl fun d hd => ?_
        rw [Finset.mem_range] at hd
        rw [(natDegree_ofNat (ofNat_poly (hirr d hd)).1).1])
      (fun t ht => by
        rw [← hy t ht, Finset.sum_apply, Fintype.sum_sigma]
        refine Finset.sum_congr rfl fun d _ => ?_
        rw [Finset.sum_apply, Fintype.sum_prod_type, ← Fin.sum_univ_eq_sum_range (fun m => aeval shiftSeq (coef d m) (fun i => gf (blockSeq (poly d) m i)) t)]
        refine Finset.sum_congr rfl fun m _ => ?_
        show aeval shiftSeq (∑ u : Fin (poly d).log2, _) _ t = _
        rw [map_sum, LinearMap.sum_apply, Finset.sum_apply]
        refine Finset.sum_congr rfl fun u _ => ?_
        rw [dif_pos m.2, map_mul, Module.End.mul_apply, aeval_C, Module.algebraMap_end_apply, Pi.smul_apply, aeval_X_pow', smul_eq_mul])
    funext j
    obtain ⟨d, m, u⟩ := j
    have h0 := hcoef d (Finset.mem_univ _) m m.2
    have h1 := congrArg (·.coeff (u : Nat)) h0
    simp only [coeff_zero] at h1
    show y ⟨d, m, u⟩ = 0
    rw [← h1]
    change _ = Polynomial.coeff (∑ u' : Fin (poly d).log2, _) (u : Nat)
    rw [finsetSum_coeff, Finset.sum_eq_single u]
    · rw [dif_pos m.2, coeff_C_mul, coeff_X_pow, if_pos rfl, mul_one]
    · intro u' _ hne
      rw [dif_pos m.2, coeff_C_mul, coeff_X_pow, if_neg (fun h => hne (Fin.ext h.symm)), mul_zero]
    · intro h; exact absurd (Finset.mem_univ _) h
  have hblock := card_block (w := w) (c := c) hM A hA (by rw [hcard]; exact hk) b
  rw [hcard] at hblock
  rw [← hblock]
  refine congrArg Finset.card (Finset.filter_congr fun n _ => ?_)
  have hx : ∀ d < dim, xorSelect (l d) (grayCode (c * 2 ^ M + n)) w < 2 ^ w := fun d hd => xorSelect_lt _ fun r hr => hl.lt d hd r hr
  have hbit : ∀ (d : Fin dim) (m : Fin (k d)) (u : Fin (poly d).log2),
      gf ((xorSelect (l d) (grayCode (c * 2 ^ M + n)) w).testBit (w - 1 - (m * (poly d).log2 + u))) =
        ∑ r ∈ Finset.range w, gf ((grayCode (c * 2 ^ M + n)).testBit r) * A ⟨d, m, u⟩ r := by
    intro d m u
    rw [gf_xorSelect]
    refine Finset.sum_congr rfl fun r hr => ?_
    rw [Finset.mem_range] at hr
    rw [hl.bits d d.2 m (le_trans (Nat.mul_le_mul_right _ m.2) (hle d d.2)) u u.2 r hr]
  constructor
  · intro h j
    obtain ⟨d, m, u⟩ := j
    have h1 := (div_eq_iff_bits (hle d d.2) (hx d d.2) (ha d d.2)).1 (h d d.2) (m * (poly d).log2 + u) (by
      have h2 : (m + 1 : Nat) * (poly d).log2 ≤ k d * (poly d).log2 := Nat.mul_le_mul_right _ m.2
      rw [Nat.add_mul] at h2
      have := u.2
      omega)
    rw [← hbit, h1]
  · intro h d hd
    rw [div_eq_iff_bits (hle d hd) (hx d hd) (ha d hd)]
    intro i hi
    have hpos : 0 < (poly d).log2 := (ofNat_poly (hirr d hd)).2
    have hm : i / (poly d).log2 < k d := by rw [Nat.div_lt_iff_lt_mul hpos]; exact hi
    have := h ⟨⟨d, hd⟩, ⟨i / (poly d).log2, hm⟩, ⟨i % (poly d).log2, Nat.mod_lt _ hpos⟩⟩
    rw [← hbit] at this
    have := gf_inj this
    simp only at this
    rwa [Nat.div_add_mod'] at this

/-! ## The lattice -/

theorem nbColumns_length {w digits : Nat} {T : NbTable} (n : Nat) : ∀ {dim cols}, nbColumns w digits T n dim = .ok cols → cols.length = n := by
  induction n with
  | zero => intro dim cols h; injection h with h; rw [← h]; rfl
  | succ n ih =>
    intro dim cols h
    rw [nbColumns] at h
    match hc : nbColumn w digits (T.polynomial dim), hcs : nbColumns w digits T n (dim + 1) with
    | .ok c, .ok cs =>
      rw [hc, hcs] at h
      injection h with h
      rw [← h, List.length_cons, ih hcs]
    | .ok c, .throw => rw [hc, hcs] at h; exact absurd h (by simp [Res.bind])
    | .ok c, .ub => rw [hc, hcs] at h; exact absurd h (by simp [Res.bind])
    | .throw, _ => rw [hc] at h; exact absurd h (by simp [Res.bind])
    | .ub, _ => rw [hc] at h; exact absurd h (by simp [Res.bind])

theorem nbLattice_length {w digits : Nat} {T : NbTable} {dim : Nat} {l : List Nat} (h : nbLattice w digits T dim = .ok l) : l.length = w * dim := by
  unfold nbLattice at h
  split at h
  · exact absurd h (by simp)
  · match hc : nbColumns w digits T dim 0 with
    | .ok cols =>
      rw [hc] at h
      injection h with h
      rw [← h, flatMap_length _ dim _ (fun j _ => by simp [nbColumns_length dim hc]), List.length_range]
    | .throw => rw [hc] at h; exact absurd h (by simp [Res.bind])
    | .ub => rw [hc] at h; exact absurd h (by simp [Res.bind])

theorem odd_or_one {poly : Nat} (h : Irreducible (ofNat poly)) : poly.testBit 0 = true ∨ poly.log2 = 1 := by
  by_cases hb : poly.testBit 0 = true
  · exact Or.inl hb
  · right
    have h0 := ofNat_poly h
    have hX : X ∣ ofNat poly := by
      rw [X_dvd_iff, coeff_ofNat]
      simp [hb]
    have hassoc := irreducible_X.associated_of_dvd h hX
    have := eq_of_monic_of_associated monic_X (natDegree_ofNat h0.1).2 hassoc
    rw [← (natDegree_ofNat h0.1).1, ← this, natDegree_X]

theorem nbColumns_spec {w digits : Nat} (hw : 1 ≤ w) (hwd : w ≤ digits) {T : NbTable} (n : Nat) : ∀ dim,
    (∀ i, dim ≤ i → i < dim + n → Irreducible (ofNat (T.polynomial i)) ∧ T.polynomial i < 2 ^ digits) →
    ∃ cols, nbColumns w digits T n dim = .ok cols ∧ cols.length = n ∧
      ∀ i < n, Col w (cols.getD i []) ∧ ∀ m, ColSpec w (T.polynomial (dim + i)) m (cols.getD i []) := by
  induction n with
  | zero => intro dim _; exact ⟨[], rfl, rfl, fun i hi => by omega⟩
  | succ n ih =>
    intro dim h
    obtain ⟨cs, h1, h2, h3⟩ := ih (dim + 1) (fun i a b => h i (by omega) (by omega))
    obtain ⟨hirr, hlt⟩ := h dim (le_refl _) (by omega)
    obtain ⟨c, h4, h5, h6⟩ := nbColumn_spec hw hwd (ofNat_poly hirr).2 hlt (odd_or_one hirr)
    refine ⟨c :: cs, ?_, by simp [h2], fun i hi => ?_⟩
    · rw [nbColumns, h4]
      simp only [Res.bind, h1]
    · cases i with
      | zero => exact ⟨h5, h6⟩
      | succ i =>
        have := h3 i (by omega)
        rw [show dim + 1 + i = dim + (i + 1) by omega] at this
        exact this

theorem nbLattice_spec {w digits : Nat} (hw : 1 ≤ w) (hwd : w ≤ digits) {T : NbTable} {dim : Nat} (h0 : 0 < dim) (hmax : dim ≤ T.maxDimension)
    (hT : ∀ i < dim, Irreducible (ofNat (T.polynomial i)) ∧ T.polynomial i < 2 ^ digits) :
    ∃ l, nbLattice w digits T dim = .ok l ∧ IsNb w dim T.polynomial fun d r => l.getD (dim * r + d) 0 := by
  obtain ⟨cols, h1, h2, h3⟩ := nbColumns_spec hw hwd dim 0 (T := T) (fun i _ hi => hT i (by omega))
  unfold nbLattice
  rw [if_neg (by omega), h1]
  have hget : ∀ d < dim, ∀ r < w, ((List.range w).flatMap fun r => cols.map fun c => c.getD r 0).getD (dim * r + d) 0 = (cols.getD d []).getD r 0 := by
    intro d hd r hr
    rw [flatMap_getD _ dim _ (fun x _ => by simp [h2]) r d hd, List.getElem?_range hr]
    simp only [Option.map_some, Option.getD_some]
    rw [List.getD_eq_getElem?_getD, List.getElem?_map, List.getD_eq_getElem?_getD (l := cols), List.getElem?_eq_getElem (by omega : d < cols.length)]
    rfl
  refine ⟨_, rfl, ⟨fun d hd r hr => ?_, fun d hd m hm u hu r hr => ?_⟩⟩
  · show List.getD _ _ _ < _
    rw [hget d hd r hr]
    exact (h3 d hd).1.2 r
  · show Nat.testBit (List.getD _ _ _) _ = _
    rw [hget d hd r hr]
    have := (h3 d hd).2 (m + 1) m (by omega)
    rw [Nat.zero_add] at this
    exact this hm u hu r hr

end Nb
end Boost.Random
