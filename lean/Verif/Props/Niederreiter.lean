import Verif.Spec.Niederreiter
import Verif.Proofs.NbTable
import Verif.Proofs.NetTs
import Verif.Props.Qrng

/-!
# Properties C66, C68, C69: the Niederreiter engine
-/

namespace Boost.Random
open Spec Qrng Nb

/-- C44 to C47 hold for the engine too. -/
theorem nb_class {w digits : Nat} (h1 : 1 ≤ w) (h2 : w ≤ digits) (h3 : digits ≤ 64) (T : NbTable) : LatticeClass w digits (nbLattice w digits T) :=
  ⟨h1, h2, h3, fun _ _ => nbLattice_length⟩

/-- All the values of a Gray-coded engine from its constructor on. -/
theorem all_values {w digits : Nat} {resize : Nat → Res (List Nat)} (C : LatticeClass w digits resize) {dim : Nat} (h0 : 0 < dim) (hlt : dim < 2 ^ 63) {l : List Nat}
    (hl : resize dim = .ok l) :
    ∃ q vs q', make (gray w digits resize) dim = .ok q ∧ qCalls (gray w digits resize) ((2 ^ w - 1) * dim) q = .ok (vs, q') ∧
      next (gray w digits resize) q' = .throw ∧
      ∀ i < 2 ^ w - 1, ∀ d < dim, vs.getD (i * dim + d) 0 = xorSelect (fun r => l.getD (dim * r + d) 0) (grayCode (i + 1)) w := by
  have H := C.lawful
  obtain ⟨q, k1, k2, k3, k4⟩ := make_ok H h0 hlt hl
  have hp0 : qPosition q = 0 := by rw [qPosition, k3, k4]; simp
  obtain ⟨vs, q', g1, g2, g3, g4⟩ := calls_ok H ((2 ^ w - 1) * dim) k2 (by omega)
  refine ⟨q, vs, q', k1, g1, ?_, fun i hi d hd => ?_⟩
  · apply next_throw H g3
    rw [g4, hp0, Nat.zero_add, Nat.mul_div_cancel _ h0]
    omega
  · have hidx : i * dim + d < (2 ^ w - 1) * dim := by
      calc i * dim + d < i * dim + dim := by omega
        _ = (i + 1) * dim := by ring
        _ ≤ (2 ^ w - 1) * dim := Nat.mul_le_mul_right _ hi
    have hk := congrArg (·[i * dim + d]?) g2
    simp only [List.getElem?_map, List.getElem?_range hidx, Option.map_some, hp0, Nat.zero_add] at hk
    have hpt : grayPt w resize dim i = grayPoint w l dim i := by rw [grayPt, latticeOf, hl]
    unfold qAt at hk
    rw [Nat.mul_comm i dim, Nat.mul_add_div h0, Nat.div_eq_of_lt hd, Nat.add_zero, if_pos hi, Nat.mul_add_mod, Nat.mod_eq_of_lt hd, hpt, grayPoint,
      List.getElem?_map, List.getElem?_range hd, Option.map_some] at hk
    rw [List.getD_eq_getElem?_getD, Nat.mul_comm i dim]
    cases hv : vs[dim * i + d]? with
    | none => rw [hv] at hk; simp at hk
    | some v =>
      rw [hv, Option.map_some, Option.some.injEq, Option.some.injEq] at hk
      rw [hk, Option.getD_some]

/-! ## C66: the points form nets -/

/-- For distinct irreducible polynomials, over the complete sequence, from the constructor on: every box gets its share of the points. -/
theorem c66_net {w digits : Nat} (h1 : 1 ≤ w) (h2 : w ≤ digits) (h3 : digits ≤ 64) {T : NbTable} {dim : Nat} (h0 : 0 < dim) (hlt : dim < 2 ^ 63)
    (hmax : dim ≤ T.maxDimension) (hT : ∀ d < dim, Irreducible (ofNat (T.polynomial d)) ∧ T.polynomial d < 2 ^ digits)
    (hdist : ∀ d < dim, ∀ d' < dim, T.polynomial d = T.polynomial d' → d = d') :
    ∃ q vs q', make (niederreiter w digits T) dim = .ok q ∧ qCalls (niederreiter w digits T) ((2 ^ w - 1) * dim) q = .ok (vs, q') ∧
      next (niederreiter w digits T) q' = .throw ∧ IsDigitalSequence w dim (fun d => (ofNat (T.polynomial d)).natDegree) vs := by
  obtain ⟨l, hl, hnb⟩ := nbLattice_spec h1 h2 h0 hmax hT
  obtain ⟨q, vs, q', k1, k2, k3, k4⟩ := all_values (nb_class h1 h2 h3 T) h0 hlt hl
  refine ⟨q, vs, q', k1, k2, k3, ?_⟩
  have hdeg : ∀ d < dim, (ofNat (T.polynomial d)).natDegree = (T.polynomial d).log2 := fun d hd => (natDegree_ofNat (ofNat_poly (hT d hd).1).1).1
  intro k a M c hM hc hk ha
  have hsum : ∑ d ∈ Finset.range dim, k d * (ofNat (T.polynomial d)).natDegree = ∑ d ∈ Finset.range dim, k d * (T.polynomial d).log2 :=
    Finset.sum_congr rfl fun d hd => by rw [hdeg d (Finset.mem_range.1 hd)]
  rw [hsum] at hk ⊢
  have hnet := net hnb (fun d hd => (hT d hd).1) hdist k (M := M) (c := c) hM hk a (fun d hd => by rw [← hdeg d hd]; exact ha d hd)
  rw [← hnet]
  refine congrArg Finset.card (Finset.filter_congr fun n hn => ?_)
  rw [Finset.mem_range] at hn
  refine forall_congr' fun d => imp_congr_right fun hd => ?_
  simp only [hdeg d hd]
  have hval : pointOf dim vs (c * 2 ^ M + n) d = xorSelect (fun r => l.getD (dim * r + d) 0) (grayCode (c * 2 ^ M + n)) w := by
    unfold pointOf
    by_cases hz : c * 2 ^ M + n = 0
    · rw [if_pos hz, hz]
      exact (xorSelect_zero _ w).symm
    · rw [if_neg hz]
      have hlt' : c * 2 ^ M + n < 2 ^ w := by rw [Nat.add_mul] at hc; omega
      rw [k4 (c * 2 ^ M + n - 1) (by omega) d hd, show c * 2 ^ M + n - 1 + 1 = c * 2 ^ M + n by omega]
  rw [hval]

/-- The polynomials `x`, `x+1`, `x^2+x+1`. -/
def toyNb : NbTable := ⟨3, fun n => [2, 3, 7].getD n 0⟩

theorem toyNb_ok : ∀ d < 3, Irreducible (ofNat (toyNb.polynomial d)) ∧ toyNb.polynomial d < 2 ^ 8 := by
  intro d hd
  refine ⟨?_, ?_⟩
  · rw [← table_iff (by
      have : d = 0 ∨ d = 1 ∨ d = 2 := by omega
      rcases this with rfl | rfl | rfl <;> decide)]
    have : d = 0 ∨ d = 1 ∨ d = 2 := by omega
    rcases this with rfl | rfl | rfl
    · exact ⟨0, by decide, by decide +kernel⟩
    · exact ⟨1, by decide, by decide +kernel⟩
    · exact ⟨2, by decide, by decide +kernel⟩
  · have : d = 0 ∨ d = 1 ∨ d = 2 := by omega
    rcases this with rfl | rfl | rfl <;> decide

/-- Three coordinates of 4 bits. -/
example : ∃ q vs q', make (niederreiter 4 8 toyNb) 3 = .ok q ∧ qCalls (niederreiter 4 8 toyNb) (15 * 3) q = .ok (vs, q') ∧ next (niederreiter 4 8 toyNb) q' = .throw ∧
    IsDigitalSequence 4 3 (fun d => (ofNat (toyNb.polynomial d)).natDegree) vs :=
  c66_net (by decide) (by decide) (by decide) (by decide) (by decide) (by decide) toyNb_ok (by
    intro d hd d' hd' h
    have h1 : d = 0 ∨ d = 1 ∨ d = 2 := by omega
    have h2 : d' = 0 ∨ d' = 1 ∨ d' = 2 := by omega
    rcases h1 with rfl | rfl | rfl <;> rcases h2 with rfl | rfl | rfl <;> revert h <;> decide)

/-- The points 8 to 15: one bit of the first, no bit of the second and two bits of the third coordinate, one point for each choice of the bits. -/
example : (match make (niederreiter 4 8 toyNb) 3 with
    | .ok q => match qOutputs (niederreiter 4 8 toyNb) 45 q with
      | some vs => decide (∀ x < 8, (inBox 4 3 vs 3 1 (fun d => [1, 0, 2].getD d 0) (fun d => [x / 4, 0, x % 4].getD d 0)).card = 1)
      | none => false
    | _ => false) = true := by decide +kernel

/-- The typedef `niederreiter_base2`, in every dimension it supports. -/
theorem c66_niederreiter_base2 {dim : Nat} (h0 : 0 < dim) (hmax : dim ≤ 4720) :
    ∃ q vs q', make (niederreiter 64 64 defaultNbTable) dim = .ok q ∧ qCalls (niederreiter 64 64 defaultNbTable) ((2 ^ 64 - 1) * dim) q = .ok (vs, q') ∧
      next (niederreiter 64 64 defaultNbTable) q' = .throw ∧ IsDigitalSequence 64 dim (fun d => (ofNat (defaultNbTable.polynomial d)).natDegree) vs := by
  refine c66_net (by decide) (by decide) (by decide) h0 (by omega) hmax (fun d hd => ⟨?_, lt_of_lt_of_le (table_lt d) (by decide)⟩) ?_
  · rw [← table_iff (table_lt d)]
    exact ⟨d, by omega, rfl⟩
  · intro d hd d' hd' h
    rcases Nat.lt_trichotomy d d' with hlt | he | hgt
    · exact absurd h (Nat.ne_of_lt (table_ascending hlt (by omega)))
    · exact he
    · exact absurd h (Nat.ne_of_gt (table_ascending hgt (by omega)))

/-- Its points are a `(t,s)`-sequence in base 2; `t` is the sum of the degrees less one. -/
theorem c66_ts {dim : Nat} (h0 : 0 < dim) (hmax : dim ≤ 4720) :
    ∃ q vs q', make (niederreiter 64 64 defaultNbTable) dim = .ok q ∧ qCalls (niederreiter 64 64 defaultNbTable) ((2 ^ 64 - 1) * dim) q = .ok (vs, q') ∧
      next (niederreiter 64 64 defaultNbTable) q' = .throw ∧
      IsTsSequence 64 dim (∑ d ∈ Finset.range dim, ((ofNat (defaultNbTable.polynomial d)).natDegree - 1)) vs := by
  obtain ⟨q, vs, q', k1, k2, k3, k4⟩ := c66_niederreiter_base2 h0 hmax
  refine ⟨q, vs, q', k1, k2, k3, Nets.ts_of_digital (fun d hd => ?_) k4⟩
  have hirr : Irreducible (ofNat (defaultNbTable.polynomial d)) := (table_iff (table_lt d)).1 ⟨d, by omega, rfl⟩
  exact hirr.natDegree_pos

/-- Two dimensions, where `t` is 0. -/
example : ∑ d ∈ Finset.range 2, ((defaultNbTable.polynomial d).log2 - 1) = 0 := by decide +kernel

/-- Its constructor throws exactly for the dimensions it does not support. -/
theorem c66_dimension (dim : Nat) : make (niederreiter 64 64 defaultNbTable) dim = .throw ↔ dim = 0 ∨ 4720 < dim := by
  constructor
  · intro h
    by_contra hn
    obtain ⟨q, _, _, hq, _⟩ := c66_niederreiter_base2 (dim := dim) (by omega) (by omega)
    rw [hq] at h
    exact absurd h (by simp)
  · intro h
    unfold make
    by_cases h0 : dim = 0
    · rw [if_pos h0]
    · rw [if_neg h0]
      have : nbLattice 64 64 defaultNbTable dim = .throw := by
        unfold nbLattice
        rw [if_pos (by show dim = 0 ∨ dim > 4720; omega)]
      show (nbLattice 64 64 defaultNbTable dim).bind _ = .throw
      rw [this]
      rfl

example : make (niederreiter 64 64 defaultNbTable) 4721 = .throw := (c66_dimension _).2 (by decide)

/-! ## C68: the coordinates -/

/-- A coordinate whose polynomial has a degree that divides the number of bits takes every value from 1 to `2^w - 1` exactly once. -/
theorem c68_permutation_partial {w digits : Nat} (h1 : 1 ≤ w) (h2 : w ≤ digits) (h3 : digits ≤ 64) {T : NbTable} {dim : Nat} (h0 : 0 < dim) (hlt : dim < 2 ^ 63)
    (hmax : dim ≤ T.maxDimension) (hT : ∀ d < dim, Irreducible (ofNat (T.polynomial d)) ∧ T.polynomial d < 2 ^ digits) :
    ∃ q vs q', make (niederreiter w digits T) dim = .ok q ∧ qCalls (niederreiter w digits T) ((2 ^ w - 1) * dim) q = .ok (vs, q') ∧
      next (niederreiter w digits T) q' = .throw ∧
      ∀ d < dim, (ofNat (T.polynomial d)).natDegree ∣ w → (coordinate dim d (2 ^ w - 1) vs).Perm (List.range' 1 (2 ^ w - 1)) := by
  obtain ⟨l, hl, hnb⟩ := nbLattice_spec h1 h2 h0 hmax hT
  obtain ⟨q, vs, q', k1, k2, k3, k4⟩ := all_values (nb_class h1 h2 h3 T) h0 hlt hl
  refine ⟨q, vs, q', k1, k2, k3, fun d hd hdvd => ?_⟩
  rw [(natDegree_ofNat (ofNat_poly (hT d hd).1).1).1] at hdvd
  have hp := Nat.two_pow_pos w
  have hcoord : coordinate dim d (2 ^ w - 1) vs = (List.range (2 ^ w - 1)).map fun i => xorSelect (fun r => l.getD (dim * r + d) 0) (grayCode (i + 1)) w :=
    List.map_congr_left fun i hi => k4 i (List.mem_range.1 hi) d hd
  rw [hcoord]
  have hone : IsNb w 1 (fun _ => T.polynomial d) (fun _ r => l.getD (dim * r + d) 0) :=
    ⟨fun _ _ r hr => hnb.lt d hd r hr, fun _ _ m hm u hu r hr => hnb.bits d hd m hm u hu r hr⟩
  have hkw : w / (T.polynomial d).log2 * (T.polynomial d).log2 = w := Nat.div_mul_cancel hdvd
  have huniq : ∀ a < 2 ^ w, ((Finset.range (2 ^ w)).filter fun n => xorSelect (fun r => l.getD (dim * r + d) 0) (grayCode n) w = a).card = 1 := by
    intro a ha
    have hnet := net hone (fun _ _ => (hT d hd).1) (by intro a ha b hb _; omega) (fun _ => w / (T.polynomial d).log2) (M := w) (c := 0) (le_refl _)
      (by simp [hkw]) (fun _ => a) (fun _ _ => by rw [hkw]; exact ha)
    rw [Finset.sum_range_one, hkw, Nat.sub_self, Nat.pow_zero] at hnet
    rw [← hnet]
    refine congrArg Finset.card (Finset.filter_congr fun n _ => ?_)
    simp
  have hlt' : ∀ n, xorSelect (fun r => l.getD (dim * r + d) 0) (grayCode n) w < 2 ^ w := fun n => xorSelect_lt _ fun r hr => hnb.lt d hd r hr
  have hinj : ∀ m < 2 ^ w, ∀ n < 2 ^ w, xorSelect (fun r => l.getD (dim * r + d) 0) (grayCode m) w = xorSelect (fun r => l.getD (dim * r + d) 0) (grayCode n) w → m = n := by
    intro m hm n hn h
    have hc := huniq _ (hlt' n)
    rw [Finset.card_eq_one] at hc
    obtain ⟨x, hx⟩ := hc
    have h1 : m ∈ ({x} : Finset Nat) := by rw [← hx, Finset.mem_filter]; exact ⟨Finset.mem_range.2 hm, h⟩
    have h2 : n ∈ ({x} : Finset Nat) := by rw [← hx, Finset.mem_filter]; exact ⟨Finset.mem_range.2 hn, rfl⟩
    rw [Finset.mem_singleton] at h1 h2
    rw [h1, h2]
  have hz : xorSelect (fun r => l.getD (dim * r + d) 0) (grayCode 0) w = 0 := xorSelect_zero _ w
  apply perm_of_inj
  · intro i hi
    have h5 := hlt' (i + 1)
    have hne : xorSelect (fun r => l.getD (dim * r + d) 0) (grayCode (i + 1)) w ≠ 0 := by
      intro he
      have := hinj (i + 1) (by omega) 0 hp (he.trans hz.symm)
      omega
    omega
  · intro i hi j hj h
    have := hinj (i + 1) (by omega) (j + 1) (by omega) h
    omega

/-- Of the toy engine with 4 bits all three coordinates. -/
example : ∃ q vs q', make (niederreiter 4 8 toyNb) 3 = .ok q ∧ qCalls (niederreiter 4 8 toyNb) (15 * 3) q = .ok (vs, q') ∧ next (niederreiter 4 8 toyNb) q' = .throw ∧
    ∀ d < 3, (ofNat (toyNb.polynomial d)).natDegree ∣ 4 → (coordinate 3 d 15 vs).Perm (List.range' 1 15) :=
  c68_permutation_partial (by decide) (by decide) (by decide) (by decide) (by decide) (by decide) toyNb_ok

example : (ofNat (toyNb.polynomial 2)).natDegree ∣ 4 := by
  rw [(natDegree_ofNat (by decide)).1]
  decide

/-- The direction numbers of the polynomial `x^3+x+1` with 64 bits are even: the last power of the polynomial does not fit into the bitset. -/
theorem column11_even : ∃ col, nbColumn 64 64 11 = .ok col ∧ col.length = 64 ∧ col.all (fun x => x % 2 == 0 && x < 2 ^ 64) = true := by
  have h : (match nbColumn 64 64 11 with | .ok col => decide (col.length = 64) && col.all (fun x => x % 2 == 0 && x < 2 ^ 64) | _ => false) = true := by decide +kernel
  match hc : nbColumn 64 64 11 with
  | .ok col =>
    rw [hc, Bool.and_eq_true, decide_eq_true_iff] at h
    exact ⟨col, rfl, h.1, h.2⟩
  | .throw => rw [hc] at h; exact absurd h (by simp)
  | .ub => rw [hc] at h; exact absurd h (by simp)

theorem nbColumns_getD {w digits : Nat} {T : NbTable} (n : Nat) : ∀ {dim cols}, nbColumns w digits T n dim = .ok cols → ∀ i < n,
    nbColumn w digits (T.polynomial (dim + i)) = .ok (cols.getD i []) := by
  induction n with
  | zero => intro dim cols _ i hi; omega
  | succ n ih =>
    intro dim cols h i hi
    rw [nbColumns] at h
    match hc : nbColumn w digits (T.polynomial dim), hcs : nbColumns w digits T n (dim + 1) with
    | .ok c, .ok cs =>
      rw [hc, hcs] at h
      injection h with h
      rw [← h]
      cases i with
      | zero => exact hc
      | succ i =>
        have := ih hcs i (by omega)
        rw [show dim + 1 + i = dim + (i + 1) by omega] at this
        exact this
    | .ok c, .throw => rw [hc, hcs] at h; exact absurd h (by simp [Res.bind])
    | .ok c, .ub => rw [hc, hcs] at h; exact absurd h (by simp [Res.bind])
    | .throw, _ => rw [hc] at h; exact absurd h (by simp [Res.bind])
    | .ub, _ => rw [hc] at h; exact absurd h (by simp [Res.bind])

theorem xorSelect_even {v : Nat → Nat} (code : Nat) {n : Nat} (h : ∀ r < n, v r % 2 = 0) : xorSelect v code n % 2 = 0 := by
  induction n with
  | zero => rfl
  | succ n ih =>
    rw [xorSelect, xor_mod_two, Nat.add_mod, ih (fun r hr => h r (by omega))]
    split
    · rw [h n (by omega)]
    · rfl

/-- The fourth coordinate of `niederreiter_base2` is always even: it is no permutation, and `max()` is never returned as this coordinate. -/
theorem c68_permutation_false {dim : Nat} (h4 : 4 ≤ dim) (hmax : dim ≤ 4720) :
    ∃ q vs q', make (niederreiter 64 64 defaultNbTable) dim = .ok q ∧ qCalls (niederreiter 64 64 defaultNbTable) ((2 ^ 64 - 1) * dim) q = .ok (vs, q') ∧
      (∀ i < 2 ^ 64 - 1, vs.getD (i * dim + 3) 0 % 2 = 0) ∧ ¬ (coordinate dim 3 (2 ^ 64 - 1) vs).Perm (List.range' 1 (2 ^ 64 - 1)) := by
  have hT : ∀ d < dim, Irreducible (ofNat (defaultNbTable.polynomial d)) ∧ defaultNbTable.polynomial d < 2 ^ 64 := by
    intro d hd
    refine ⟨?_, lt_of_lt_of_le (table_lt d) (by decide)⟩
    rw [← table_iff (table_lt d)]
    exact ⟨d, by omega, rfl⟩
  obtain ⟨l, hl, hnb⟩ := nbLattice_spec (w := 64) (digits := 64) (by decide) (by decide) (by omega : 0 < dim) (T := defaultNbTable) hmax hT
  obtain ⟨q, vs, q', k1, k2, k3, k4⟩ := all_values (nb_class (by decide) (by decide) (by decide) defaultNbTable) (by omega : 0 < dim) (by omega) hl
  have heven : ∀ r < 64, l.getD (dim * r + 3) 0 % 2 = 0 := by
    intro r hr
    unfold nbLattice at hl
    rw [if_neg (by show ¬ (dim = 0 ∨ dim > 4720); omega)] at hl
    match hc : nbColumns 64 64 defaultNbTable dim 0 with
    | .ok cols =>
      rw [hc] at hl
      injection hl with hl
      have hlen := nbColumns_length dim hc
      have hcol := nbColumns_getD dim hc 3 (by omega)
      rw [show defaultNbTable.polynomial (0 + 3) = 11 by decide +kernel] at hcol
      obtain ⟨col, g1, g2, g3⟩ := column11_even
      have hcol := Res.ok.inj (g1.symm.trans hcol)
      rw [← hl, flatMap_getD _ dim _ (fun x _ => by simp [hlen]) r 3 (by omega), List.getElem?_range hr]
      simp only [Option.map_some, Option.getD_some]
      rw [List.getD_eq_getElem?_getD, List.getElem?_map]
      have h3 : cols[3]? = some col := by
        rw [List.getElem?_eq_getElem (by omega : 3 < cols.length)]
        rw [List.getD_eq_getElem?_getD, List.getElem?_eq_getElem (by omega : 3 < cols.length)] at hcol
        rw [hcol]; rfl
      rw [h3]
      simp only [Option.map_some, Option.getD_some]
      rw [List.getD_eq_getElem?_getD, List.getElem?_eq_getElem (by omega : r < col.length)]
      have := List.all_eq_true.1 g3 col[r] (List.getElem_mem _)
      rw [Bool.and_eq_true, beq_iff_eq] at this
      exact this.1
    | .throw => rw [hc] at hl; exact absurd hl (by simp [Res.bind])
    | .ub => rw [hc] at hl; exact absurd hl (by simp [Res.bind])
  have hev : ∀ i < 2 ^ 64 - 1, vs.getD (i * dim + 3) 0 % 2 = 0 := by
    intro i hi
    rw [k4 i hi 3 (by omega)]
    exact xorSelect_even _ heven
  refine ⟨q, vs, q', k1, k2, hev, fun hperm => ?_⟩
  have hmem : (1 : Nat) ∈ coordinate dim 3 (2 ^ 64 - 1) vs := by
    rw [hperm.mem_iff, List.mem_range'_1]
    decide
  obtain ⟨i, hi, h⟩ := List.mem_map.1 hmem
  have := hev i (List.mem_range.1 hi)
  rw [h] at this
  exact absurd this (by decide)

example : (4 : Nat) ≤ 4 ∧ 4 ≤ 4720 := by decide

/-! ## C69: the table -/

/-- The default table holds, in ascending order, exactly the irreducible polynomials of degree at most 15, all 4720 of them. -/
theorem c69_table : (∀ n < 2 ^ 16, (∃ i < defaultNbTable.maxDimension, defaultNbTable.polynomial i = n) ↔ Irreducible (ofNat n)) ∧
    (∀ i j, i < j → j < defaultNbTable.maxDimension → defaultNbTable.polynomial i < defaultNbTable.polynomial j) ∧
    (∀ i, defaultNbTable.polynomial i < 2 ^ 16) := by
  rw [show defaultNbTable.maxDimension = 4720 from rfl, show (2 : Nat) ^ 16 = 65536 by norm_num]
  exact ⟨fun _ hn => table_iff hn, fun _ _ => table_ascending, table_lt⟩

example : defaultNbTable.polynomial 4719 = 65533 ∧ defaultNbTable.maxDimension = 4720 := by decide +kernel
example : Irreducible (ofNat 65533) := (c69_table.1 65533 (by decide)).1 ⟨4719, by decide, by decide +kernel⟩

end Boost.Random
