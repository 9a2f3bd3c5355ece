import Verif.Proofs.NbNet
import Verif.Proofs.NbTable
import Verif.Proofs.SobolTable
import Mathlib.Algebra.CharP.Two

/-!
# The points of the Sobol sequence form nets
-/

namespace Boost.Random
namespace Sobol
open Polynomial Mt Spec Qrng Gf2 Nb

/-! ## The recurrence of the columns, bit by bit -/

theorem gf_mul_testBit (p x i : Nat) : gf ((p % 2 * x).testBit i) = gf (p.testBit 0) * gf (x.testBit i) := by
  rw [Nat.testBit_zero]
  have h : p % 2 = 0 ∨ p % 2 = 1 := by omega
  rcases h with h | h <;> simp [h, gf]

/-- The bits of the next element of a column. -/
theorem sobolTerms_bit {digits degree i : Nat} {m : List Nat} (hi : i < digits) : ∀ (c k p acc : Nat),
    gf ((sobolTerms digits m degree c k p acc).testBit i) = gf (acc.testBit i) +
      ∑ s ∈ Finset.range c, gf (p.testBit s) * gf ((m.getD (m.length - (degree - (k + s))) 0 <<< (degree - (k + s))).testBit i) := by
  intro c
  induction c with
  | zero => intro k p acc; rw [sobolTerms, Finset.range_zero, Finset.sum_empty, add_zero]
  | succ c ih =>
    intro k p acc
    rw [sobolTerms, ih, Finset.sum_range_succ', Nat.testBit_xor, gf_xor, Nat.testBit_mod_two_pow, decide_eq_true hi, Bool.true_and, gf_mul_testBit, add_assoc]
    congr 1
    rw [add_comm]
    congr 1
    refine Finset.sum_congr rfl fun s _ => ?_
    rw [show k + 1 + s = k + (s + 1) by omega, Nat.testBit_succ]

/-- Bit `r`, counted from the top, of element `j` of a column that is shifted to the top of `w` bits. -/
def rowBit (c : List Nat) (j r : Nat) : ZMod 2 := if r ≤ j then gf ((c.getD j 0).testBit (j - r)) else 0

theorem rowBit_eq (c : List Nat) {w j r : Nat} (hj : j < w) (hr : r < w) : gf ((c.getD j 0 * 2 ^ (w - 1 - j)).testBit (w - 1 - r)) = rowBit c j r := by
  unfold rowBit
  rw [Nat.testBit_mul_two_pow]
  split
  · rw [decide_eq_true (by omega : w - 1 - r ≥ w - 1 - j), Bool.true_and, show w - 1 - r - (w - 1 - j) = j - r by omega]
  · rw [decide_eq_false (by omega), Bool.false_and]; rfl

/-- The recurrence between the elements `j` and `j + e` of a column. -/
def ColRec (poly e : Nat) (c : List Nat) (j : Nat) : Prop :=
  ∀ r, rowBit c (j + e) r = (if r < e then 0 else rowBit c j (r - e)) + ∑ k ∈ Finset.range e, gf (poly.testBit k) * rowBit c (j + k) r

theorem colRec_last {digits poly e n : Nat} {m : List Nat} (hm : GoodCol n m) (h1 : 1 ≤ e) (hn : e ≤ n) (hd : n < digits) :
    ColRec poly e (sobolStep digits poly e m) (n - e) := by
  intro r
  have hlen := hm.1
  have hget : ∀ j < n, (sobolStep digits poly e m).getD j 0 = m.getD j 0 := by
    intro j hj
    rw [sobolStep, List.getD_eq_getElem?_getD, List.getElem?_append_left (by omega), ← List.getD_eq_getElem?_getD]
  have hlast : (sobolStep digits poly e m).getD n 0 = sobolTerms digits m e e 0 poly (m.getD (n - e) 0) := by
    rw [sobolStep, List.getD_eq_getElem?_getD, List.getElem?_append_right (by omega), hlen, Nat.sub_self]
    rfl
  rw [show n - e + e = n by omega]
  unfold rowBit
  by_cases hr : r ≤ n
  · rw [if_pos hr, hlast, sobolTerms_bit (by omega : n - r < digits)]
    congr 1
    · by_cases hre : r < e
      · rw [if_pos hre, Nat.testBit_lt_two_pow (lt_of_lt_of_le (hm.2 (n - e) (by omega)).2 (Nat.pow_le_pow_right (by decide) (by omega)))]
        rfl
      · rw [if_neg hre, if_pos (by omega), hget _ (by omega), show n - e - (r - e) = n - r by omega]
    · refine Finset.sum_congr rfl fun k hk => ?_
      rw [Finset.mem_range] at hk
      congr 1
      rw [Nat.zero_add, hlen, Nat.testBit_shiftLeft, show n - (e - k) = n - e + k by omega]
      by_cases hle : r ≤ n - e + k
      · rw [if_pos hle, hget _ (by omega), decide_eq_true (by omega : n - r ≥ e - k), Bool.true_and, show n - r - (e - k) = n - e + k - r by omega]
      · rw [if_neg hle, decide_eq_false (by omega), Bool.false_and]; rfl
  · rw [if_neg hr, if_neg (by omega), if_neg (by omega), Finset.sum_eq_zero, add_zero]
    intro k hk
    rw [Finset.mem_range] at hk
    rw [if_neg (by omega), mul_zero]

theorem colRec_append {poly e j : Nat} {m : List Nat} (x : Nat) (hj : j + e < m.length) (h : ColRec poly e m j) : ColRec poly e (m ++ [x]) j := by
  have hget : ∀ i < m.length, ∀ r, rowBit (m ++ [x]) i r = rowBit m i r := by
    intro i hi r
    unfold rowBit
    rw [List.getD_eq_getElem?_getD, List.getElem?_append_left hi, ← List.getD_eq_getElem?_getD]
  intro r
  rw [hget _ hj, hget _ (by omega), h r]
  congr 1
  refine Finset.sum_congr rfl fun k hk => ?_
  rw [Finset.mem_range] at hk
  rw [hget _ (by omega)]

theorem iterate_rec {digits poly e : Nat} (hd : 1 ≤ digits) (h1 : 1 ≤ e) (k : Nat) : ∀ {n : Nat} {m : List Nat}, GoodCol n m → e ≤ n → n + k ≤ digits →
    (∀ j, j + e < n → ColRec poly e m j) → ∀ j, j + e < n + k → ColRec poly e (Nat.iterate (sobolStep digits poly e) k m) j := by
  induction k with
  | zero => intro n m _ _ _ h j hj; exact h j hj
  | succ k ih =>
    intro n m hm hn hnd h j hj
    rw [Function.iterate_succ_apply]
    refine ih (sobolStep_good hd hm h1 hn) (by omega) (by omega) (fun j hj => ?_) j (by omega)
    by_cases he : j + e = n
    · have := colRec_last (poly := poly) hm h1 hn (by omega : n < digits)
      rwa [show n - e = j by omega] at this
    · exact colRec_append _ (by rw [hm.1]; omega) (h j (by omega))

/-! ## Coordinates -/

/-- The direction numbers `v` of one coordinate, with the polynomial `poly`. -/
structure IsSobol (w poly : Nat) (v : Nat → Nat) : Prop where
  lt : ∀ j < w, v j < 2 ^ w
  above : ∀ j < w, ∀ r < w, j < r → (v j).testBit (w - 1 - r) = false
  diag : ∀ j < w, (v j).testBit (w - 1 - j) = true
  step : ∀ j, j + poly.log2 < w → ∀ r < w, gf ((v (j + poly.log2)).testBit (w - 1 - r)) =
    (if r < poly.log2 then 0 else gf ((v j).testBit (w - 1 - (r - poly.log2)))) +
      ∑ k ∈ Finset.range poly.log2, gf (poly.testBit k) * gf ((v (j + k)).testBit (w - 1 - r))

theorem isSobol_of {w poly : Nat} {c : List Nat} {v : Nat → Nat} (hc : GoodCol w c) (hrec : ∀ j, j + poly.log2 < w → ColRec poly poly.log2 c j)
    (hv : ∀ j < w, v j = c.getD j 0 * 2 ^ (w - 1 - j)) : IsSobol w poly v := by
  refine ⟨fun j hj => ?_, fun j hj r hr hjr => ?_, fun j hj => ?_, fun j hj r hr => ?_⟩
  · rw [hv j hj]
    have h4 : c.getD j 0 * 2 ^ (w - 1 - j) < 2 ^ (j + 1) * 2 ^ (w - 1 - j) := Nat.mul_lt_mul_of_pos_right (hc.2 j hj).2 (Nat.two_pow_pos _)
    rwa [← Nat.pow_add, show j + 1 + (w - 1 - j) = w by omega] at h4
  · rw [hv j hj]
    exact mul_testBit_low (by omega)
  · rw [hv j hj]
    exact odd_mul_testBit (hc.2 j hj).1
  · rw [hv _ hj, rowBit_eq c hj hr, hrec j hj r]
    congr 1
    · split
      · rfl
      · rw [hv j (by omega), rowBit_eq c (by omega) (by omega)]
    · refine Finset.sum_congr rfl fun k hk => ?_
      rw [Finset.mem_range] at hk
      rw [hv _ (by omega), rowBit_eq c (by omega) hr]

/-- The first column, all ones, is that of the polynomial `x`. -/
theorem first_rec (w j : Nat) (hj : j + 1 < w) : ColRec 2 1 (List.replicate w 1) j := by
  have hget : ∀ i < w, ∀ r, rowBit (List.replicate w 1) i r = if r = i then 1 else 0 := by
    intro i hi r
    unfold rowBit
    rw [List.getD_eq_getElem?_getD, List.getElem?_replicate, if_pos hi, Option.getD_some]
    by_cases h : r ≤ i
    · rw [if_pos h]
      by_cases h' : r = i
      · rw [if_pos h', h', Nat.sub_self]; rfl
      · rw [if_neg h', Nat.testBit_lt_two_pow (Nat.one_lt_two_pow (by omega))]; rfl
    · rw [if_neg h, if_neg (by omega)]
  intro r
  rw [hget _ hj, hget _ (by omega), Finset.sum_range_one]
  have h0 : gf (Nat.testBit 2 0) = 0 := rfl
  rw [h0, zero_mul, add_zero]
  by_cases h : r < 1
  · rw [if_pos h, if_neg (by omega)]
  · rw [if_neg h]
    exact if_congr (by omega) rfl rfl

/-! ## The rows as sequences without an end -/

/-- Row `r` of the columns, continued by the recurrence after the `w` columns there are. -/
noncomputable def ext (w e poly : Nat) (v : Nat → Nat) (t r : Nat) : ZMod 2 :=
  if t < w ∨ e = 0 ∨ t < e then gf ((v t).testBit (w - 1 - r))
  else (if r < e then 0 else ext w e poly v (t - e) (r - e)) + ∑ k : Fin e, gf (poly.testBit k) * ext w e poly v (t - e + k) r
termination_by t
decreasing_by all_goals omega

theorem ext_lt {w e poly : Nat} {v : Nat → Nat} {t r : Nat} (ht : t < w) : ext w e poly v t r = gf ((v t).testBit (w - 1 - r)) := by
  rw [ext, if_pos (Or.inl ht)]

theorem ext_step {w poly : Nat} {v : Nat → Nat} (h : IsSobol w poly v) (h1 : 1 ≤ poly.log2) (t : Nat) {r : Nat} (hr : r < w) :
    ext w poly.log2 poly v (t + poly.log2) r = (if r < poly.log2 then 0 else ext w poly.log2 poly v t (r - poly.log2)) +
      ∑ k ∈ Finset.range poly.log2, gf (poly.testBit k) * ext w poly.log2 poly v (t + k) r := by
  by_cases ht : t + poly.log2 < w
  · rw [ext_lt ht, h.step t ht r hr, ext_lt (by omega)]
    congr 1
    refine Finset.sum_congr rfl fun k hk => ?_
    rw [Finset.mem_range] at hk
    rw [ext_lt (by omega)]
  · rw [ext, if_neg (by omega), Nat.add_sub_cancel, Fin.sum_univ_eq_sum_range (fun k => gf (poly.testBit k) * ext w poly.log2 poly v (t + k) r)]

theorem ext_aeval {w poly : Nat} {v : Nat → Nat} (h : IsSobol w poly v) (hp : poly ≠ 0) (h1 : 1 ≤ poly.log2) {r : Nat} (hr : r < w) :
    aeval shiftSeq (ofNat poly) (fun t => ext w poly.log2 poly v t r) = fun t => if r < poly.log2 then 0 else ext w poly.log2 poly v t (r - poly.log2) := by
  obtain ⟨g1, g2⟩ := natDegree_ofNat hp
  funext t
  rw [aeval_sum _ (by rw [g1]; exact Nat.lt_succ_self _ : (ofNat poly).natDegree < poly.log2 + 1), Finset.sum_range_succ]
  have hlead : (ofNat poly).coeff poly.log2 = 1 := by rw [← g1]; exact g2
  rw [hlead, one_mul, ext_step h h1 t hr, add_comm, add_assoc]
  have hc : ∀ k, (ofNat poly).coeff k = gf (poly.testBit k) := fun k => by rw [coeff_ofNat]; cases poly.testBit k <;> rfl
  simp only [hc]
  rw [CharTwo.add_self_eq_zero, add_zero]

/-- The first `q*e` rows are annihilated by power `q` of the polynomial. -/
theorem ext_pow {w poly : Nat} {v : Nat → Nat} (h : IsSobol w poly v) (hp : poly ≠ 0) (h1 : 1 ≤ poly.log2) (q : Nat) :
    ∀ r < w, r < q * poly.log2 → aeval shiftSeq (ofNat poly ^ q) (fun t => ext w poly.log2 poly v t r) = 0 := by
  induction q with
  | zero => intro r _ hr; omega
  | succ q ih =>
    intro r hr hq
    rw [pow_succ, map_mul, Module.End.mul_apply, ext_aeval h hp h1 hr]
    by_cases hre : r < poly.log2
    · simp only [if_pos hre]
      exact _root_.map_zero _
    · simp only [if_neg hre]
      exact ih (r - poly.log2) (by omega) (by rw [Nat.add_mul] at hq; omega)

/-- No combination of different rows is zero. -/
theorem ext_independent {w poly : Nat} {v : Nat → Nat} (h : IsSobol w poly v) {K : Nat} (hK : K ≤ w) (y : Nat → ZMod 2)
    (hz : ∀ t < K, ∑ r ∈ Finset.range K, y r * ext w poly.log2 poly v t r = 0) : ∀ r < K, y r = 0 := by
  intro r
  induction r using Nat.strong_induction_on with
  | _ r ih =>
    intro hr
    have := hz r hr
    rw [Finset.sum_eq_single r] at this
    · rw [ext_lt (by omega), h.diag r (by omega)] at this
      simpa [gf] using this
    · intro r' hr' hne
      rw [Finset.mem_range] at hr'
      by_cases hlt : r' < r
      · rw [ih r' hlt hr', zero_mul]
      · rw [ext_lt (by omega), h.above r (by omega) r' (by omega) (by omega)]
        exact mul_zero _
    · intro hn
      exact absurd (Finset.mem_range.2 hr) hn

/-- Several coordinates, and only the first `M` columns. -/
theorem rows_independent {w dim : Nat} {poly : Nat → Nat} {v : Nat → Nat → Nat} (hv : ∀ d < dim, IsSobol w (poly d) (v d))
    (hirr : ∀ d < dim, Irreducible (ofNat (poly d))) (hdist : ∀ d < dim, ∀ d' < dim, poly d = poly d' → d = d')
    (k : Nat → Nat) {M : Nat} (hM : M ≤ w) (hk : ∑ d ∈ Finset.range dim, k d * (poly d).log2 ≤ M) (y : Nat → Nat → ZMod 2)
    (hz : ∀ t < M, ∑ d ∈ Finset.range dim, ∑ r ∈ Finset.range (k d * (poly d).log2), y d r * ext w (poly d).log2 (poly d) (v d) t r = 0) :
    ∀ d < dim, ∀ r < k d * (poly d).log2, y d r = 0 := by
  classical
  have hle : ∀ d < dim, k d * (poly d).log2 ≤ w := by
    intro d hd
    exact le_trans (Finset.single_le_sum (f := fun d => k d * (poly d).log2) (fun _ _ => Nat.zero_le _) (Finset.mem_range.2 hd)) (le_trans hk hM)
  let F : Nat → Nat → ZMod 2 := fun d => ∑ r ∈ Finset.range (k d * (poly d).log2), y d r • fun t => ext w (poly d).log2 (poly d) (v d) t r
  have hFt : ∀ d t, F d t = ∑ r ∈ Finset.range (k d * (poly d).log2), y d r * ext w (poly d).log2 (poly d) (v d) t r := by
    intro d t
    show (∑ r ∈ _, _ : Nat → ZMod 2) t = _
    rw [Finset.sum_apply]
    rfl
  have hm : ∀ d < dim, (ofNat (poly d)).Monic := fun d hd => (natDegree_ofNat (ofNat_poly (hirr d hd)).1).2
  have hdg : ∀ d < dim, (ofNat (poly d)).natDegree = (poly d).log2 := fun d hd => (natDegree_ofNat (ofNat_poly (hirr d hd)).1).1
  have hF : ∀ d < dim, aeval shiftSeq (ofNat (poly d) ^ k d) (F d) = 0 := by
    intro d hd
    show aeval shiftSeq _ (∑ r ∈ _, _) = 0
    rw [map_sum]
    refine Finset.sum_eq_zero fun r hr => ?_
    rw [Finset.mem_range] at hr
    rw [map_smul, ext_pow (hv d hd) (ofNat_poly (hirr d hd)).1 (ofNat_poly (hirr d hd)).2 (k d) r (by have := hle d hd; omega) hr, smul_zero]
  let s := Finset.range dim
  have hmon : (∏ d ∈ s, ofNat (poly d) ^ k d).Monic := monic_prod_of_monic _ _ fun d hds => (hm d (Finset.mem_range.1 hds)).pow _
  have hdeg : (∏ d ∈ s, ofNat (poly d) ^ k d).natDegree = ∑ d ∈ s, k d * (poly d).log2 := by
    rw [natDegree_prod_of_monic _ _ fun d hds => (hm d (Finset.mem_range.1 hds)).pow _]
    exact Finset.sum_congr rfl fun d hds => by rw [(hm d (Finset.mem_range.1 hds)).natDegree_pow, hdg d (Finset.mem_range.1 hds)]
  have hzero : (∑ d ∈ s, F d) = 0 := by
    refine eq_zero_of_prefix hmon ?_ (fun t ht => ?_)
    · rw [map_sum]
      exact Finset.sum_eq_zero fun d hds => aeval_zero_of_dvd (Finset.dvd_prod_of_mem _ hds) (hF d (Finset.mem_range.1 hds))
    · rw [Finset.sum_apply, ← hz t (lt_of_lt_of_le ht (le_trans (le_of_eq hdeg) hk))]
      exact Finset.sum_congr rfl fun d _ => hFt d t
  intro d hd
  have hds : d ∈ s := Finset.mem_range.2 hd
  have hFd : F d = 0 := by
    have hcop : IsCoprime (ofNat (poly d) ^ k d) (∏ d' ∈ s.erase d, ofNat (poly d') ^ k d') := by
      refine IsCoprime.prod_right fun d' hd' => IsCoprime.pow ?_
      rw [Finset.mem_erase] at hd'
      have hd'' : d' < dim := Finset.mem_range.1 hd'.2
      rw [(hirr d hd).coprime_iff_not_dvd]
      intro hdvd
      have hassoc := (hirr d hd).associated_of_dvd (hirr d' hd'') hdvd
      exact hd'.1 (hdist d hd d' hd'' (ofNat_inj (eq_of_monic_of_associated (hm d hd) (hm d' hd'') hassoc))).symm
    refine eq_zero_of_coprime hcop (hF d hd) ?_
    have h0 : aeval shiftSeq (∏ d' ∈ s.erase d, ofNat (poly d') ^ k d') (∑ d' ∈ s.erase d, F d') = 0 := by
      rw [map_sum]
      exact Finset.sum_eq_zero fun d' hd' => aeval_zero_of_dvd (Finset.dvd_prod_of_mem _ hd') (hF d' (Finset.mem_range.1 (Finset.mem_of_mem_erase hd')))
    have := congrArg (aeval shiftSeq (∏ d' ∈ s.erase d, ofNat (poly d') ^ k d')) hzero
    rwa [← Finset.add_sum_erase _ _ hds, map_add, _root_.map_zero, h0, add_zero] at this
  refine ext_independent (hv d hd) (hle d hd) (y d) fun t _ => ?_
  rw [← hFt, hFd]
  rfl

/-- The net property. -/
theorem net {w dim : Nat} {poly : Nat → Nat} {v : Nat → Nat → Nat} (hv : ∀ d < dim, IsSobol w (poly d) (v d))
    (hirr : ∀ d < dim, Irreducible (ofNat (poly d))) (hdist : ∀ d < dim, ∀ d' < dim, poly d = poly d' → d = d')
    (k : Nat → Nat) {M c : Nat} (hM : M ≤ w) (hk : ∑ d ∈ Finset.range dim, k d * (poly d).log2 ≤ M) (a : Nat → Nat)
    (ha : ∀ d < dim, a d < 2 ^ (k d * (poly d).log2)) :
    ((Finset.range (2 ^ M)).filter fun n => ∀ d < dim,
      xorSelect (v d) (grayCode (c * 2 ^ M + n)) w / 2 ^ (w - k d * (poly d).log2) = a d).card = 2 ^ (M - ∑ d ∈ Finset.range dim, k d * (poly d).log2) := by
  classical
  let J := Σ d : Fin dim, Fin (k d * (poly d).log2)
  let A : J → Nat → ZMod 2 := fun j t => ext w (poly j.1).log2 (poly j.1) (v j.1) t j.2
  let b : J → ZMod 2 := fun j => gf ((a j.1).testBit (k j.1 * (poly j.1).log2 - 1 - j.2))
  have hcard : Fintype.card J = ∑ d ∈ Finset.range dim, k d * (poly d).log2 := by
    rw [Fintype.card_sigma, ← Fin.sum_univ_eq_sum_range (fun d => k d * (poly d).log2)]
    exact Finset.sum_congr rfl fun d _ => by rw [Fintype.card_fin]
  have hle : ∀ d < dim, k d * (poly d).log2 ≤ w := by
    intro d hd
    exact le_trans (Finset.single_le_sum (f := fun d => k d * (poly d).log2) (fun _ _ => Nat.zero_le _) (Finset.mem_range.2 hd)) (le_trans hk hM)
  have hA : ∀ y : J → ZMod 2, (∀ r < M, ∑ j, y j * A j r = 0) → y = 0 := by
    intro y hy
    let y' : Nat → Nat → ZMod 2 := fun d r => if h : ∃ hd : d < dim, r < k d * (poly d).log2 then y ⟨⟨d, h.1⟩, ⟨r, h.2⟩⟩ else 0
    have hy' : ∀ (d : Fin dim) (r : Fin (k d * (poly d).log2)), y' d r = y ⟨d, r⟩ := fun d r => dif_pos ⟨d.2, r.2⟩
    have := rows_independent hv hirr hdist k hM hk y' (fun t ht => by
      rw [← hy t ht, Fintype.sum_sigma, ← Fin.sum_univ_eq_sum_range (fun d => ∑ r ∈ Finset.range (k d * (poly d).log2), y' d r * ext w (poly d).log2 (poly d) (v d) t r)]
      refine Finset.sum_congr rfl fun d _ => ?_
      rw [← Fin.sum_univ_eq_sum_range (fun r => y' d r * ext w (poly d).log2 (poly d) (v d) t r)]
      exact Finset.sum_congr rfl fun r _ => by rw [hy'])
    funext j
    rw [← hy' j.1 j.2]
    exact this j.1 j.1.2 j.2 j.2.2
  have hblock := card_block (w := w) (c := c) hM A hA (by rw [hcard]; exact hk) b
  rw [hcard] at hblock
  rw [← hblock]
  refine congrArg Finset.card (Finset.filter_congr fun n _ => ?_)
  have hx : ∀ d < dim, xorSelect (v d) (grayCode (c * 2 ^ M + n)) w < 2 ^ w := fun d hd => xorSelect_lt _ fun r hr => (hv d hd).lt r hr
  have hbit : ∀ (d : Fin dim) (r : Fin (k d * (poly d).log2)),
      gf ((xorSelect (v d) (grayCode (c * 2 ^ M + n)) w).testBit (w - 1 - r)) =
        ∑ t ∈ Finset.range w, gf ((grayCode (c * 2 ^ M + n)).testBit t) * A ⟨d, r⟩ t := by
    intro d r
    rw [gf_xorSelect]
    refine Finset.sum_congr rfl fun t ht => ?_
    rw [Finset.mem_range] at ht
    show _ = _ * ext _ _ _ _ _ _
    rw [ext_lt ht]
  constructor
  · intro h j
    obtain ⟨d, r⟩ := j
    rw [← hbit, (div_eq_iff_bits (hle d d.2) (hx d d.2) (ha d d.2)).1 (h d d.2) r r.2]
  · intro h d hd
    rw [div_eq_iff_bits (hle d hd) (hx d hd) (ha d hd)]
    intro i hi
    have := h ⟨⟨d, hd⟩, ⟨i, hi⟩⟩
    rw [← hbit] at this
    exact gf_inj this

/-! ## The lattice -/

/-- The polynomial of each coordinate: `x` for the first, those of the table for the others. -/
def coordPoly (T : SobolTable) (d : Nat) : Nat := if d = 0 then 2 else T.polynomial (d - 1)

theorem sobolColumns_rec {w digits : Nat} {T : SobolTable} (hd : 1 ≤ digits) (hwd : w ≤ digits) (n : Nat) : ∀ dim,
    (∀ i, dim ≤ i → i < dim + n → 1 ≤ i → GoodRow w digits T (i - 1)) →
    ∃ cols, sobolColumns w digits T n dim = .ok cols ∧ cols.length = n ∧ ∀ i < n, GoodCol w (cols.getD i []) ∧
      ∀ j, j + (coordPoly T (dim + i)).log2 < w → ColRec (coordPoly T (dim + i)) (coordPoly T (dim + i)).log2 (cols.getD i []) j := by
  induction n with
  | zero => intro dim _; exact ⟨[], rfl, rfl, fun i hi => by omega⟩
  | succ n ih =>
    intro dim h
    obtain ⟨cs, h1, h2, h3⟩ := ih (dim + 1) (fun i a b c => h i (by omega) (by omega) c)
    have hc : ∃ c, (if dim = 0 then Res.ok (List.replicate w 1) else sobolColumn w digits T dim) = .ok c ∧ GoodCol w c ∧
        ∀ j, j + (coordPoly T dim).log2 < w → ColRec (coordPoly T dim) (coordPoly T dim).log2 c j := by
      by_cases h0 : dim = 0
      · rw [if_pos h0, coordPoly, if_pos h0]
        exact ⟨_, rfl, replicate_good w, fun j hj => first_rec w j hj⟩
      · rw [if_neg h0, coordPoly, if_neg h0]
        have hrow := h dim (le_refl _) (by omega) (by omega)
        obtain ⟨c, g1, g2⟩ := sobolColumn_good hd hrow
        refine ⟨c, g1, g2, ?_⟩
        obtain ⟨r1, r2, r3, r4⟩ := hrow
        unfold sobolColumn at g1
        simp only at g1
        rw [if_neg (by omega), if_neg (by omega), if_neg (by omega)] at g1
        rw [← Res.ok.inj g1]
        have hdeg : 1 ≤ (T.polynomial (dim - 1)).log2 := (Nat.le_log2 (by omega)).2 (by simpa using r1)
        have hm : GoodCol (T.polynomial (dim - 1)).log2 ((List.range (T.polynomial (dim - 1)).log2).map fun k => T.minit (dim - 1) k % 2 ^ digits) := by
          refine ⟨by simp, fun j hj => ?_⟩
          rw [List.getD_eq_getElem?_getD, List.getElem?_map, List.getElem?_range hj]
          obtain ⟨k1, k2⟩ := r4 j hj
          simp only [Option.map_some, Option.getD_some]
          exact ⟨by rw [even_mod_two_pow hd]; exact k1, lt_of_le_of_lt (Nat.mod_le _ _) k2⟩
        intro j hj
        exact iterate_rec hd hdeg (w - (T.polynomial (dim - 1)).log2) hm (le_refl _) (by omega) (fun j hj => by omega) j (by omega)
    obtain ⟨c, h4, h5, h6⟩ := hc
    refine ⟨c :: cs, ?_, by simp [h2], fun i hi => ?_⟩
    · rw [sobolColumns, h4]
      simp only [Res.bind, h1]
    · cases i with
      | zero => exact ⟨h5, h6⟩
      | succ i =>
        have := h3 i (by omega)
        rw [show dim + 1 + i = dim + (i + 1) by omega] at this
        exact this

theorem sobolLattice_spec {w digits : Nat} {T : SobolTable} (hw : 1 ≤ w) (hwd : w ≤ digits) {dim : Nat} (h0 : 0 < dim) (hmax : dim ≤ T.maxDimension)
    (hT : ∀ i, i + 1 < dim → GoodRow w digits T i) :
    ∃ l, sobolLattice w digits T dim = .ok l ∧ ∀ d < dim, IsSobol w (coordPoly T d) fun j => l.getD (dim * j + d) 0 := by
  obtain ⟨cols, h1, h2, h3⟩ := sobolColumns_rec (w := w) (T := T) (by omega : 1 ≤ digits) hwd dim 0 (fun i _ hi hi1 => hT (i - 1) (by omega))
  unfold sobolLattice
  rw [if_neg (by omega), h1]
  refine ⟨_, rfl, fun d hd => ?_⟩
  obtain ⟨g1, g2⟩ := h3 d hd
  rw [Nat.zero_add] at g2
  refine isSobol_of g1 g2 fun j hj => ?_
  have hd' : d < cols.length := by omega
  rw [flatMap_getD _ dim _ (fun x _ => by simp [h2]) j d hd, List.getElem?_range hj]
  simp only [Option.map_some, Option.getD_some]
  rw [List.getD_eq_getElem?_getD, List.getElem?_map, List.getElem?_eq_getElem hd']
  simp only [Option.map_some, Option.getD_some]
  have hcd : cols.getD d [] = cols[d] := by rw [List.getD_eq_getElem?_getD, List.getElem?_eq_getElem hd', Option.getD_some]
  rw [hcd] at g1 ⊢
  rw [Nat.shiftLeft_eq, Nat.mod_eq_of_lt]
  have h4 : cols[d].getD j 0 * 2 ^ (w - 1 - j) < 2 ^ (j + 1) * 2 ^ (w - 1 - j) := Nat.mul_lt_mul_of_pos_right (g1.2 j hj).2 (Nat.two_pow_pos _)
  rw [← Nat.pow_add, show j + 1 + (w - 1 - j) = w by omega] at h4
  exact lt_of_lt_of_le h4 (Nat.pow_le_pow_right (by decide) hwd)

end Sobol
end Boost.Random
