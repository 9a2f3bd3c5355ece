import Verif.Proofs.QrngRead
import Verif.Proofs.SobolTable

/-!
# Properties C44 to C48: quasi-random engines

`gray w digits resize` is `gray_coded_qrng` over any lattice (`resize dim` being the lattice of a dimension): `sobol_engine` with any table is
an instance (`sobol_class`). Vectors of `2^63` elements and more do not exist.
-/

namespace Boost.Random
open Spec Qrng

/-- A Sobol engine over any table is covered. -/
theorem sobol_class {w digits : Nat} (h1 : 1 ≤ w) (h2 : w ≤ digits) (h3 : digits ≤ 64) (T : SobolTable) : LatticeClass w digits (sobolLattice w digits T) :=
  ⟨h1, h2, h3, fun _ _ => sobolLattice_length⟩

/-- A table of three dimensions: the polynomials `x+1`, `x^2+x+1`. -/
def toyTable : SobolTable := ⟨3, fun n => [3, 7].getD n 0, fun d k => ([[1], [1, 3]].getD d []).getD k 0⟩

/-- A Sobol engine with 3 bits in an 8-bit type. -/
def toy : Derived (List Nat) Nat := sobol 3 8 toyTable

theorem toy_class : LatticeClass 3 8 (sobolLattice 3 8 toyTable) := sobol_class (by decide) (by decide) (by decide) _

/-- The lattice in one and in two dimensions. -/
def toyLat1 : List Nat := [4, 2, 1]
def toyLat2 : List Nat := [4, 4, 2, 6, 1, 5]

theorem toyLat1_eq : sobolLattice 3 8 toyTable 1 = .ok toyLat1 := by decide
theorem toyLat2_eq : sobolLattice 3 8 toyTable 2 = .ok toyLat2 := by decide

/-- Dimension 2, second coordinate of the fifth point. -/
def toyState : Q (List Nat) Nat := ⟨1, 4, toyLat2, [7, 7]⟩

theorem toyState_ok : GrayState 3 (sobolLattice 3 8 toyTable) 2 toyState := ⟨by decide, by decide, toyLat2_eq, by decide, by decide, by decide⟩

section
variable {w digits : Nat} {resize : Nat → Res (List Nat)}

theorem Spec.GrayState.inv {dim : Nat} {q : Q (List Nat) Nat} (S : GrayState w resize dim q) :
    Inv (fun dim l => resize dim = .ok l) (grayPt w resize) (2 ^ w - 1) dim q := by
  refine ⟨S.pos, S.lt, S.lattice, S.seq, S.curr, ?_⟩
  rw [S.quasi, grayPt, latticeOf, S.lattice]

theorem Spec.GrayState.of_inv {dim : Nat} {q : Q (List Nat) Nat} (I : Inv (fun dim l => resize dim = .ok l) (grayPt w resize) (2 ^ w - 1) dim q) :
    GrayState w resize dim q := by
  refine ⟨I.pos, I.lt, I.lat, I.seq, I.curr, ?_⟩
  have h := I.quasi
  rw [grayPt, latticeOf, I.lat] at h
  exact h

theorem Spec.LatticeClass.lawful (C : LatticeClass w digits resize) :
    Lawful (gray w digits resize) (fun dim l => resize dim = .ok l) (grayPt w resize) (2 ^ w - 1) := gray_lawful C.one_le C.le C.le64 C.length

theorem Spec.GrayState.pt_eq {dim : Nat} {q : Q (List Nat) Nat} (S : GrayState w resize dim q) : grayPt w resize dim = grayPoint w q.lattice dim := by
  funext i
  rw [grayPt, latticeOf, S.lattice]

/-! ## C44: seeding -/

/-- The constructor, the calls, both seed functions and `discard` lead to states of the engine: the vector held is always the point of the
sequence number, which is given by the Gray code. -/
theorem c44_states (C : LatticeClass w digits resize) :
    (∀ dim l, 0 < dim → dim < 2 ^ 63 → resize dim = .ok l →
      ∃ q, make (gray w digits resize) dim = .ok q ∧ GrayState w resize dim q ∧ qPosition q = 0) ∧
    (∀ dim q v q', GrayState w resize dim q → next (gray w digits resize) q = .ok (v, q') → GrayState w resize dim q' ∧ qPosition q' = qPosition q + 1) ∧
    (∀ dim q q', GrayState w resize dim q → seed0 (gray w digits resize) q = .ok q' → GrayState w resize dim q' ∧ qPosition q' = 0) ∧
    (∀ dim q n q', GrayState w resize dim q → n < 2 ^ digits → seed (gray w digits resize) q n = .ok q' →
      GrayState w resize dim q' ∧ qPosition q' = n * dim) ∧
    (∀ dim q z q', GrayState w resize dim q → discard (gray w digits resize) q z = .ok q' → GrayState w resize dim q') := by
  have H := C.lawful
  refine ⟨?_, ?_, ?_, ?_, ?_⟩
  · intro dim l h0 hlt hl
    obtain ⟨q, h1, h2, h3, h4⟩ := make_ok H h0 hlt hl
    exact ⟨q, h1, .of_inv h2, by rw [qPosition, h3, h4]; simp⟩
  · intro dim q v q' S h
    by_cases hl : qPosition q / dim < 2 ^ w - 1
    · obtain ⟨v', q'', h1, _, h3, h4⟩ := next_ok H S.inv hl
      rw [h1] at h
      injection h with h
      injection h with ha hb
      subst hb
      exact ⟨.of_inv h3, h4⟩
    · rw [next_throw H S.inv hl] at h
      exact absurd h (by simp)
  · intro dim q q' S h
    obtain ⟨q'', h1, h2, h3, h4⟩ := seed0_ok H S.inv
    rw [h1] at h
    injection h with h
    subst h
    exact ⟨.of_inv h2, by rw [qPosition, h3, h4]; simp⟩
  · intro dim q n q' S hn h
    by_cases hl : n < 2 ^ w - 1
    · obtain ⟨q'', h1, h2, h3, h4⟩ := seed_inv H S.inv hl
      rw [h1] at h
      injection h with h
      subst h
      exact ⟨.of_inv h2, by rw [position_eq H h2, h3, h4]; simp⟩
    · rw [seed_throw H S.inv (by omega) hn] at h
      exact absurd h (by simp)
  · intro dim q z q' S h
    rcases discard_inv H S.inv z with h1 | ⟨q'', h1, h2⟩
    · rw [h1] at h; exact absurd h (by simp)
    · rw [h1] at h
      injection h with h
      subst h
      exact .of_inv h2

example : ∃ q, make toy 2 = .ok q ∧ GrayState 3 (sobolLattice 3 8 toyTable) 2 q ∧ qPosition q = 0 :=
  (c44_states toy_class).1 2 toyLat2 (by decide) (by decide) toyLat2_eq

/-- From any state the engine returns the coordinates of the points one after the other from its position on, and then throws. -/
theorem c44_outputs (C : LatticeClass w digits resize) {dim : Nat} {q : Q (List Nat) Nat} (S : GrayState w resize dim q) (n : Nat) :
    (qOutputs (gray w digits resize) n q = some ((List.range n).filterMap fun i => qAt (grayPoint w q.lattice dim) (2 ^ w - 1) dim (qPosition q + i))) ∧
    (qPosition q + n ≤ (2 ^ w - 1) * dim → ∃ vs q', qCalls (gray w digits resize) n q = .ok (vs, q') ∧
      vs.map some = (List.range n).map (fun i => qAt (grayPoint w q.lattice dim) (2 ^ w - 1) dim (qPosition q + i))) ∧
    ((2 ^ w - 1) * dim < qPosition q + n → qCalls (gray w digits resize) n q = .throw) := by
  have H := C.lawful
  refine ⟨?_, ?_, calls_throw H n S.inv⟩
  · rw [outputs_eq H n S.inv, S.pt_eq]
  · intro h
    obtain ⟨vs, q', h1, h2, _, _⟩ := calls_ok H n S.inv h
    exact ⟨vs, q', h1, by rw [h2, S.pt_eq]⟩

example : qOutputs toy 9 toyState = some [7, 5, 1, 1, 5] := by
  have := (c44_outputs toy_class toyState_ok 9).1
  exact this.trans (by decide)

/-- `seed(n)` is `seed()` followed by `n*d` calls: the engines compare equal and have the same future. -/
theorem c44_seed (C : LatticeClass w digits resize) {dim : Nat} {q : Q (List Nat) Nat} (S : GrayState w resize dim q) {n : Nat} (hn : n < 2 ^ w - 1) :
    ∃ q0 vs q' q'', seed0 (gray w digits resize) q = .ok q0 ∧ qCalls (gray w digits resize) (n * dim) q0 = .ok (vs, q') ∧
      seed (gray w digits resize) q n = .ok q'' ∧ eq q'' q' = true ∧ QSameFuture (gray w digits resize) q'' q' := by
  have H := C.lawful
  obtain ⟨q0, h1, h2, h3, h4⟩ := seed0_ok H S.inv
  have hp0 : qPosition q0 = 0 := by rw [qPosition, h3, h4]; simp
  obtain ⟨vs, q', g1, _, g3, g4⟩ := calls_ok H (n * dim) h2 (by rw [hp0, Nat.zero_add]; exact Nat.mul_le_mul_right _ (by omega))
  obtain ⟨q'', k1, k2, k3, k4⟩ := seed_inv H S.inv hn
  have hp : qPosition q'' = qPosition q' := by
    rw [g4, hp0, position_eq H k2, k3, k4]
    omega
  exact ⟨q0, vs, q', q'', h1, g1, k1, (eq_iff H k2 g3).2 ⟨rfl, hp⟩, same_future H k2 g3 hp⟩

example : ∃ q'', seed toy toyState 6 = .ok q'' :=
  let ⟨_, _, _, q'', _, _, h, _⟩ := c44_seed toy_class toyState_ok (n := 6) (by decide)
  ⟨q'', h⟩

/-- `seed(n)` throws exactly when there is no point `n`; then the calls from `seed()` throw before they return a coordinate of it. -/
theorem c44_seed_throws (C : LatticeClass w digits resize) {dim : Nat} {q : Q (List Nat) Nat} (S : GrayState w resize dim q) {n : Nat} (hn : n < 2 ^ digits) :
    (seed (gray w digits resize) q n = .throw ↔ 2 ^ w - 1 ≤ n) ∧ seed (gray w digits resize) q n ≠ .ub ∧
    (2 ^ w - 1 ≤ n → ∃ q0, seed0 (gray w digits resize) q = .ok q0 ∧ qCalls (gray w digits resize) (n * dim + 1) q0 = .throw) := by
  have H := C.lawful
  refine ⟨⟨fun h => ?_, fun h => seed_throw H S.inv h hn⟩, ?_, fun h => ?_⟩
  · by_contra hlt
    obtain ⟨q'', k1, _⟩ := seed_inv H S.inv (by omega : n < 2 ^ w - 1)
    rw [k1] at h
    exact absurd h (by simp)
  · by_cases hlt : n < 2 ^ w - 1
    · obtain ⟨q'', k1, _⟩ := seed_inv H S.inv hlt
      rw [k1]
      simp
    · rw [seed_throw H S.inv (by omega) hn]
      simp
  · obtain ⟨q0, h1, h2, h3, h4⟩ := seed0_ok H S.inv
    have hp0 : qPosition q0 = 0 := by rw [qPosition, h3, h4]; simp
    refine ⟨q0, h1, calls_throw H _ h2 ?_⟩
    have : (2 ^ w - 1) * dim ≤ n * dim := Nat.mul_le_mul_right _ h
    omega

example : seed toy toyState 7 = .throw := ((c44_seed_throws toy_class toyState_ok (n := 7) (by decide)).1).2 (by decide)

/-! ## C45: `discard` -/

/-- `discard(z)` is `z` calls, or throws when they would. Missing: dimension one at the end of a vector with `z = 2^64 - 1`, where it is not
(`c45_discard_false`), and `faure_engine`. -/
theorem c45_discard_partial (C : LatticeClass w digits resize) {dim : Nat} {q : Q (List Nat) Nat} (S : GrayState w resize dim q) {z : Nat} (hz : z < 2 ^ 64)
    (hne : ¬ (dim = 1 ∧ q.curr = 1 ∧ z = 2 ^ 64 - 1)) :
    (∃ vs q' q'', qCalls (gray w digits resize) z q = .ok (vs, q') ∧ discard (gray w digits resize) q z = .ok q'' ∧
      eq q'' q' = true ∧ QSameFuture (gray w digits resize) q'' q') ∨
    (qCalls (gray w digits resize) z q = .throw ∧ discard (gray w digits resize) q z = .throw) := by
  have H := C.lawful
  have hs := discard_spec H S.inv hz (vectors_lt H S.pos S.lt S.curr hz hne)
  by_cases h : qPosition q + z ≤ (2 ^ w - 1) * dim
  · left
    obtain ⟨vs, q', g1, _, g3, g4⟩ := calls_ok H z S.inv h
    obtain ⟨q'', k1, k2, k3, _⟩ := hs.1 h
    exact ⟨vs, q', q'', g1, k1, (eq_iff H k2 g3).2 ⟨rfl, by rw [k3, g4]⟩, same_future H k2 g3 (by rw [k3, g4])⟩
  · right
    exact ⟨calls_throw H z S.inv (by omega), hs.2 (by omega)⟩

example : discard toy toyState 5 = .ok ⟨2, 6, toyLat2, [1, 5]⟩ ∧ discard toy toyState 6 = .throw := by decide

end

/-- One-dimensional, both coordinates of the first point returned. -/
def toyOne : Q (List Nat) Nat := ⟨1, 0, toyLat1, [4]⟩

theorem toyOne_ok : GrayState 3 (sobolLattice 3 8 toyTable) 1 toyOne := ⟨by decide, by decide, toyLat1_eq, by decide, by decide, by decide⟩

/-- In one dimension `discard(2^64 - 1)` after a call succeeds and goes back one position instead of throwing. -/
theorem c45_discard_false :
    ¬ ∀ (q : Q (List Nat) Nat) (z : Nat), GrayState 3 (sobolLattice 3 8 toyTable) 1 q → z < 2 ^ 64 →
      qCalls toy z q = .throw → discard toy q z = .throw := by
  intro h
  have h1 := h toyOne (2 ^ 64 - 1) toyOne_ok (by decide) ((c44_outputs toy_class toyOne_ok (2 ^ 64 - 1)).2.2 (by decide))
  have h2 : discard toy toyOne (2 ^ 64 - 1) = .ok ⟨0, 0, toyLat1, [4]⟩ := by decide
  rw [h2] at h1
  exact absurd h1 (by simp)

/-! ## C46: equality -/

section
variable {w digits : Nat} {resize : Nat → Res (List Nat)}

/-- Engines compare equal if and only if they have the same dimension and position, and then have the same future. Missing: states left by
reading text of another dimension (`c46_eq_false`), and `faure_engine`. -/
theorem c46_eq_partial (C : LatticeClass w digits resize) {dim dim' : Nat} {q q' : Q (List Nat) Nat} (S : GrayState w resize dim q) (S' : GrayState w resize dim' q') :
    (eq q q' = true ↔ dim = dim' ∧ qPosition q = qPosition q') ∧ (eq q q' = true → QSameFuture (gray w digits resize) q q') := by
  have H := C.lawful
  refine ⟨eq_iff H S.inv S'.inv, fun h => ?_⟩
  obtain ⟨rfl, hp⟩ := (eq_iff H S.inv S'.inv).1 h
  exact same_future H S.inv S'.inv hp

end

/-- At the end of the fourth point and at the start of the fifth. -/
example : QSameFuture toy ⟨2, 3, toyLat2, [3, 3]⟩ ⟨0, 4, toyLat2, [7, 7]⟩ :=
  (c46_eq_partial toy_class (dim := 2) (dim' := 2) ⟨by decide, by decide, toyLat2_eq, by decide, by decide, by decide⟩
    ⟨by decide, by decide, toyLat2_eq, by decide, by decide, by decide⟩).2 (by decide)

/-! ## C47: text -/

section
variable {w digits : Nat} {resize : Nat → Res (List Nat)}

/-- Reading what an engine wrote gives an engine that compares equal and has the same future. Missing: a target of another dimension with the same sequence number, where it does
not (`c47_roundtrip_false`), and `faure_engine`. -/
theorem c47_roundtrip_partial (C : LatticeClass w digits resize) {dim dimt : Nat} {q t : Q (List Nat) Nat} (S : GrayState w resize dim q) (St : GrayState w resize dimt t)
    (hc : dimt = dim ∨ t.seq ≠ q.seq) (rest : List Tok) :
    ∃ t', read (gray w digits resize) ⟨write q ++ rest, true⟩ t = .ok t' ⟨rest, true⟩ ∧ GrayState w resize dim t' ∧ eq t' q = true ∧
      QSameFuture (gray w digits resize) t' q := by
  have H := C.lawful
  obtain ⟨t', h1, h2, h3⟩ := read_write H (le_trans C.one_le C.le) S.inv St.inv rest (hc.imp_right Or.inl)
  exact ⟨t', h1, .of_inv h2, (eq_iff H h2 S.inv).2 ⟨rfl, h3⟩, same_future H h2 S.inv h3⟩

example : ∃ t', read toy ⟨write toyState, true⟩ toyOne = .ok t' ⟨[], true⟩ ∧ QSameFuture toy t' toyState := by
  obtain ⟨t', h1, _, _, h4⟩ := c47_roundtrip_partial toy_class toyState_ok toyOne_ok (Or.inr (by decide)) []
  exact ⟨t', by rw [List.append_nil] at h1; exact h1, h4⟩

/-- Reading any text that names the dimension of the engine, or that cannot be read, leaves a state of the engine, whether it throws or
not. Missing: text of another dimension (`c47_throw_false`). -/
theorem c47_throw_partial (C : LatticeClass w digits resize) {dim : Nat} {t : Q (List Nat) Nat} (S : GrayState w resize dim t) (s : IStream)
    (hs : ∀ v s', s.readInt ⟨64, false⟩ = (some v, s') → v = dim) :
    (∃ t' s', read (gray w digits resize) s t = .ok t' s' ∧ GrayState w resize dim t' ∧ ∀ n, qOutputs (gray w digits resize) n t' ≠ none) ∨
    (∃ t', read (gray w digits resize) s t = .threw t' ∧ GrayState w resize dim t' ∧ ∀ n, qOutputs (gray w digits resize) n t' ≠ none) := by
  have H := C.lawful
  rcases read_same_dimension H S.inv s hs with ⟨t', s', h1, h2⟩ | ⟨t', h1, h2⟩
  · exact Or.inl ⟨t', s', h1, .of_inv h2, fun n => (same_future H h2 h2 rfl n).1⟩
  · exact Or.inr ⟨t', h1, .of_inv h2, fun n => (same_future H h2 h2 rfl n).1⟩

end

/-- The text "2 7 0", for which there is no point, and the text "2 6 3", too far. -/
example : read toy ⟨[.num 2, .num 7, .num 0], true⟩ toyState = .threw toyState ∧
    read toy ⟨[.num 2, .num 6, .num 3], true⟩ toyState = .threw ⟨0, 6, toyLat2, [1, 5]⟩ := ⟨rfl, rfl⟩

/-- The first point in two dimensions. -/
def toyTwo : Q (List Nat) Nat := ⟨0, 0, toyLat2, [4, 4]⟩

theorem toyTwo_ok : GrayState 3 (sobolLattice 3 8 toyTable) 2 toyTwo := ⟨by decide, by decide, toyLat2_eq, by decide, by decide, by decide⟩

/-- A two-dimensional engine as constructed, read into a one-dimensional engine as constructed: the vector is not computed anew. -/
theorem c47_roundtrip_false :
    ¬ ∀ (dim dimt : Nat) (q t : Q (List Nat) Nat), GrayState 3 (sobolLattice 3 8 toyTable) dim q → GrayState 3 (sobolLattice 3 8 toyTable) dimt t →
      ∀ t' s, read toy ⟨write q, true⟩ t = .ok t' s → QSameFuture toy t' q := by
  intro h
  have h1 := h 2 1 toyTwo toyOne toyTwo_ok toyOne_ok ⟨0, 0, toyLat2, [4, 0]⟩ ⟨[], true⟩ rfl 2
  have h2 : qOutputs toy 2 ⟨0, 0, toyLat2, [4, 0]⟩ = some [4, 0] := by decide
  have h3 : qOutputs toy 2 toyTwo = some [4, 4] := by decide
  rw [h2, h3] at h1
  exact absurd h1.2 (by decide)

/-- So engines that compare equal can have different futures. -/
theorem c46_eq_false : ∃ (q t t' : Q (List Nat) Nat) (s : IStream), make toy 2 = .ok q ∧ make toy 1 = .ok t ∧
    read toy ⟨write q, true⟩ t = .ok t' s ∧ eq t' q = true ∧ ¬ QSameFuture toy t' q := by
  refine ⟨toyTwo, ⟨0, 0, toyLat1, [4]⟩, ⟨0, 0, toyLat2, [4, 0]⟩, ⟨[], true⟩, by decide, by decide, rfl, by decide, fun h => ?_⟩
  have h2 : qOutputs toy 2 ⟨0, 0, toyLat2, [4, 0]⟩ = some [4, 0] := by decide
  have h3 : qOutputs toy 2 toyTwo = some [4, 4] := by decide
  have h1 := (h 2).2
  rw [h2, h3] at h1
  exact absurd h1 (by decide)

/-- The text "1 7 0" read into a two-dimensional engine at the end of a vector: reading throws, and the next call reads past the end. -/
theorem c47_throw_false : ∃ (t t' : Q (List Nat) Nat), GrayState 3 (sobolLattice 3 8 toyTable) 2 t ∧
    read toy ⟨[.num 1, .num 7, .num 0], true⟩ t = .threw t' ∧ next toy t' = .ub :=
  ⟨⟨2, 0, toyLat2, [4, 4]⟩, ⟨2, 0, toyLat1, [4]⟩, ⟨by decide, by decide, toyLat2_eq, by decide, by decide, by decide⟩, rfl, by decide⟩

/-! ## C48: the coordinates of the Sobol engine -/

/-- The columns of a list of vectors written one after the other. -/
def coordinate (dim d n : Nat) (vs : List Nat) : List Nat := (List.range n).map fun i => vs.getD (i * dim + d) 0

/-- Over the complete sequence, from the constructor on, each coordinate takes every value from 1 to `2^w - 1` exactly once. -/
theorem c48_permutation {w digits : Nat} (h1 : 1 ≤ w) (h2 : w ≤ digits) (h3 : digits ≤ 64) {T : SobolTable} {dim : Nat} (h0 : 0 < dim) (hlt : dim < 2 ^ 63)
    (hmax : dim ≤ T.maxDimension) (hT : ∀ i, i + 1 < dim → GoodRow w digits T i) :
    ∃ q vs q', make (sobol w digits T) dim = .ok q ∧ qCalls (sobol w digits T) ((2 ^ w - 1) * dim) q = .ok (vs, q') ∧
      next (sobol w digits T) q' = .throw ∧ ∀ d < dim, (coordinate dim d (2 ^ w - 1) vs).Perm (List.range' 1 (2 ^ w - 1)) := by
  have C := sobol_class h1 h2 h3 T
  have H := C.lawful
  obtain ⟨l, hl, _⟩ := sobolLattice_good h1 h2 h0 hmax hT
  obtain ⟨q, k1, k2, k3, k4⟩ := make_ok H h0 hlt hl
  have hp0 : qPosition q = 0 := by rw [qPosition, k3, k4]; simp
  obtain ⟨vs, q', g1, g2, g3, g4⟩ := calls_ok H ((2 ^ w - 1) * dim) k2 (by omega)
  refine ⟨q, vs, q', k1, g1, ?_, fun d hd => ?_⟩
  · apply next_throw H g3
    rw [g4, hp0, Nat.zero_add, Nat.mul_div_cancel _ h0]
    omega
  · have hperm := sobol_coordinate h1 h2 h0 hmax hT hd
    have : coordinate dim d (2 ^ w - 1) vs = (List.range (2 ^ w - 1)).map fun i => (grayPt w (sobolLattice w digits T) dim i).getD d 0 := by
      apply List.map_congr_left
      intro i hi
      rw [List.mem_range] at hi
      have hidx : i * dim + d < (2 ^ w - 1) * dim := by
        calc i * dim + d < i * dim + dim := by omega
          _ = (i + 1) * dim := by ring
          _ ≤ (2 ^ w - 1) * dim := Nat.mul_le_mul_right _ hi
      have hk := congrArg (·[i * dim + d]?) g2
      simp only [List.getElem?_map, List.getElem?_range hidx, Option.map_some, hp0, Nat.zero_add] at hk
      unfold qAt at hk
      rw [Nat.mul_comm i dim, Nat.mul_add_div h0, Nat.div_eq_of_lt hd, Nat.add_zero, if_pos hi, Nat.mul_add_mod, Nat.mod_eq_of_lt hd] at hk
      have hlen := H.len l dim i hl
      rw [List.getElem?_eq_getElem (by omega : d < (grayPt w (sobolLattice w digits T) dim i).length)] at hk
      rw [List.getD_eq_getElem?_getD, List.getD_eq_getElem?_getD, Nat.mul_comm i dim, List.getElem?_eq_getElem (by omega : d < (grayPt w (sobolLattice w digits T) dim i).length)]
      cases hv : vs[dim * i + d]? with
      | none => rw [hv] at hk; simp at hk
      | some v =>
        rw [hv, Option.map_some, Option.some.injEq] at hk
        rw [hk]
    rw [this]
    exact hperm

/-- The toy table meets the conditions. -/
example : ∃ q vs q', make toy 3 = .ok q ∧ qCalls toy (7 * 3) q = .ok (vs, q') ∧ next toy q' = .throw ∧
    ∀ d < 3, (coordinate 3 d 7 vs).Perm [1, 2, 3, 4, 5, 6, 7] := by
  refine c48_permutation (w := 3) (digits := 8) (by decide) (by decide) (by decide) (T := toyTable) (by decide) (by decide) (by decide) ?_
  intro i hi
  have : i = 0 ∨ i = 1 := by omega
  rcases this with rfl | rfl
  · refine ⟨by decide, by decide, by decide, ?_⟩
    intro k hk
    have hk : k < 1 := hk
    obtain rfl : k = 0 := by omega
    decide
  · refine ⟨by decide, by decide, by decide, ?_⟩
    intro k hk
    have hk : k < 2 := hk
    have : k = 0 ∨ k = 1 := by omega
    rcases this with rfl | rfl <;> decide

/-- The typedef `sobol`, in every dimension it supports. -/
theorem c48_sobol {dim : Nat} (h0 : 0 < dim) (hmax : dim ≤ 3667) :
    ∃ q vs q', make (sobol 64 64 defaultSobolTable) dim = .ok q ∧ qCalls (sobol 64 64 defaultSobolTable) ((2 ^ 64 - 1) * dim) q = .ok (vs, q') ∧
      next (sobol 64 64 defaultSobolTable) q' = .throw ∧ ∀ d < dim, (coordinate dim d (2 ^ 64 - 1) vs).Perm (List.range' 1 (2 ^ 64 - 1)) :=
  c48_permutation (by decide) (by decide) (by decide) h0 (by omega) hmax fun _ hi => defaultSobolTable_good (by decide) (by decide) (by omega)

example : sobolRow 2 = 11 + 1 * 2 ^ 16 + 3 * 2 ^ 32 + 1 * 2 ^ 48 := by decide +kernel

/-- Its constructor throws exactly for the dimensions it does not support. -/
theorem c48_dimension (dim : Nat) : make (sobol 64 64 defaultSobolTable) dim = .throw ↔ dim = 0 ∨ 3667 < dim := by
  constructor
  · intro h
    by_contra hn
    obtain ⟨q, _, _, hq, _⟩ := c48_sobol (dim := dim) (by omega) (by omega)
    rw [hq] at h
    exact absurd h (by simp)
  · intro h
    unfold make
    by_cases h0 : dim = 0
    · rw [if_pos h0]
    · rw [if_neg h0]
      have : sobolLattice 64 64 defaultSobolTable dim = .throw := by
        unfold sobolLattice
        rw [if_pos (by show dim = 0 ∨ dim > 3667; omega)]
      show (sobolLattice 64 64 defaultSobolTable dim).bind _ = .throw
      rw [this]
      rfl

example : make (sobol 64 64 defaultSobolTable) 3668 = .throw := (c48_dimension _).2 (by decide)

/-- With fewer bits than a polynomial of the table has as its degree the constructor writes past the end of a vector: three dimensions and one bit. -/
theorem c48_small_false : make (sobol 1 8 toyTable) 3 = .ub := by decide

/-- `min()` is zero, which is never returned. -/
theorem c48_min_false {w digits : Nat} (h1 : 1 ≤ w) (h2 : w ≤ digits) (h3 : digits ≤ 64) {T : SobolTable} {dim : Nat}
    (hmax : dim ≤ T.maxDimension) (hT : ∀ i, i + 1 < dim → GoodRow w digits T i) {q q' : Q (List Nat) Nat} {v : Nat}
    (S : GrayState w (sobolLattice w digits T) dim q) (h : next (sobol w digits T) q = .ok (v, q')) : 1 ≤ v ∧ v ≤ 2 ^ w - 1 := by
  have C := sobol_class h1 h2 h3 T
  have H := C.lawful
  by_cases hl : qPosition q / dim < 2 ^ w - 1
  · obtain ⟨v', q'', g1, g2, _, _⟩ := next_ok H S.inv hl
    unfold sobol at h
    rw [g1] at h
    injection h with h
    injection h with ha _
    subst ha
    unfold qAt at g2
    rw [if_pos hl] at g2
    have hd := Nat.mod_lt (qPosition q) S.pos
    have hperm := sobol_coordinate h1 h2 S.pos hmax hT hd
    have hmem : v' ∈ List.range' 1 (2 ^ w - 1) := by
      rw [← hperm.mem_iff, List.mem_map]
      refine ⟨qPosition q / dim, List.mem_range.2 hl, ?_⟩
      rw [List.getD_eq_getElem?_getD, g2]
      rfl
    rw [List.mem_range'_1] at hmem
    omega
  · unfold sobol at h
    rw [next_throw H S.inv hl] at h
    exact absurd h (by simp)

end Boost.Random
