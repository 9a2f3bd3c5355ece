import Verif.Props.Mixmax
import Verif.Proofs.MixmaxMatrix

/-!
# Seeding of mixmax (C62)
-/

namespace Boost.Random
open Spec Mixmax

/-- The matrix of `mixmax`. -/
abbrev mixA17 : Matrix (Fin 17) (Fin 17) (ZMod mixP) := mixMatrix 17 (2 ^ 36 + 1)

/-- The unit vector `seed_vielbein` starts from. -/
def mixE0 : Fin 17 → ZMod mixP := fun i => if i = 0 then 1 else 0

theorem mixE0_eq : mixVec 17 (1 :: List.replicate 16 0) = mixE0 := by
  funext i
  fin_cases i <;> simp [mixVec, mixE0]

theorem table_ok : RowsOK mixA17 mixE0 512 skipMat17 := rows_ok mixE0

/-- C62: the table itself: row `r` holds the coefficients of the polynomial that maps the unit vector to its
image under `2^(512 + r)` applications of the matrix. -/
theorem c62_table (r : Nat) (hr : r < 128) : ∃ row, skipMat17[r]? = some row ∧
    polyAct mixA17 row mixE0 = (mixA17 ^ (2 ^ (512 + r))).mulVec mixE0 := by
  obtain ⟨row, rest, e⟩ : ∃ row rest, skipMat17.drop r = row :: rest := by
    cases e : skipMat17.drop r with
    | nil =>
      have := congrArg List.length e
      rw [List.length_drop, show skipMat17.length = 128 by decide +kernel, List.length_nil] at this
      omega
    | cons a b => exact ⟨a, b, rfl⟩
  have h := RowsOK.drop mixA17 (rows := skipMat17) r table_ok (by rw [show skipMat17.length = 128 by decide +kernel]; omega)
  rw [e] at h
  refine ⟨row, ?_, h.2.1⟩
  have := congrArg (fun l => l[0]?) e
  simpa using this

theorem exponent_split (e a b c d : Nat) : 0 + a * 2 ^ e + b * 2 ^ (e + 32) + c * 2 ^ (e + 64) + d * 2 ^ (e + 96) =
    2 ^ e * (a + 2 ^ 32 * b + 2 ^ 64 * c + 2 ^ 96 * d) := by
  rw [pow_add, pow_add, pow_add]
  ring

theorem table_length : skipMat17.length = 128 := by decide +kernel

/-- C62: seeding `mixmax` with the four 32-bit identifiers never leaves the table, gives a well-formed state,
and its vector is the unit vector advanced by exactly `2^512 · ID` applications of the MIXMAX matrix, where
`ID` is the 128-bit number made of the identifiers. -/
theorem c62_uniquestream (cluster machine run stream : Nat) (h1 : cluster < 2 ^ 32) (h2 : machine < 2 ^ 32)
    (h3 : run < 2 ^ 32) (h4 : stream < 2 ^ 32) :
    ∃ S, seedUniquestream 36 skipMat17 17 cluster machine run stream = some S ∧ MixOK 17 S ∧ S.counter = 1 ∧
      mixVec 17 S.V = (mixA17 ^ (2 ^ 512 * (stream + 2 ^ 32 * run + 2 ^ 64 * machine + 2 ^ 96 * cluster))).mulVec mixE0 := by
  have hV : (seedVielbein 17 0).V = 1 :: List.replicate 16 0 := by decide
  have T := fun n hn => RowsOK.drop mixA17 (rows := skipMat17) n table_ok hn
  have L : ∀ n, n ≤ 96 → 32 ≤ (skipMat17.drop n).length := by
    intro n hn
    rw [List.length_drop, table_length]; omega
  have B : ∀ n id, n ≤ 96 → id < 2 ^ 32 → id < 2 ^ (skipMat17.drop n).length := fun n id hn hid =>
    lt_of_lt_of_le hid (Nat.pow_le_pow_right (by decide) (L n hn))
  have K := skipId_spec (N := 17) 36 (by decide) (by decide) (by decide) (by decide) mixE0
  obtain ⟨Y1, s1, e1, a1, b1, c1, d1, f1⟩ := K skipMat17 512 stream (1 :: List.replicate 16 0) 1 0 table_ok
    (by have := B 0 _ (by decide) h4; rwa [List.drop_zero] at this) (by simp) (by decide) (by decide) (by simp) (by rw [mixE0_eq, pow_zero, Matrix.one_mulVec])
  obtain ⟨Y2, s2, e2, a2, b2, c2, d2, f2⟩ := K _ _ run Y1 s1 _ (T 32 (by rw [table_length]; decide)) (B 32 _ (by decide) h3) a1 b1 c1 d1 f1
  obtain ⟨Y3, s3, e3, a3, b3, c3, d3, f3⟩ := K _ _ machine Y2 s2 _ (T 64 (by rw [table_length]; decide)) (B 64 _ (by decide) h2) a2 b2 c2 d2 f2
  obtain ⟨Y4, s4, e4, a4, b4, c4, d4, f4⟩ := K _ _ cluster Y3 s3 _ (T 96 (by rw [table_length]; decide)) (B 96 _ (by decide) h1) a3 b3 c3 d3 f3
  obtain ⟨g1, g2⟩ := sumVec_spec Y4 b4 0 (by decide)
  refine ⟨⟨Y4, sumVec Y4, 1⟩, ?_, ⟨a4, b4, g1, by rw [sumVec, g2]; simp, by simp, by simp⟩, rfl, ?_⟩
  · have hs : sumVec (1 :: List.replicate 16 0) = 1 := by decide
    rw [seedUniquestream, hV, applyBigskip, hs, e1]
    simp only [Option.bind_eq_bind, Option.bind_some]
    rw [e2]
    simp only [Option.bind_some]
    rw [e3]
    simp only [Option.bind_some]
    rw [e4]
    simp only [Option.bind_some]
  · show mixVec 17 Y4 = _
    rw [f4, exponent_split]

/-- C62: `seed(seedval)` advances the unit vector by `2^512 · seedval` applications of the matrix, for every
64-bit seed. -/
theorem c62_seed (seedval : Nat) (h : seedval < 2 ^ 64) :
    ∃ S, seed 36 skipMat17 17 seedval = some S ∧ MixOK 17 S ∧ S.counter = 1 ∧
      mixVec 17 S.V = (mixA17 ^ (2 ^ 512 * seedval)).mulVec mixE0 := by
  obtain ⟨S, e, ok, c, v⟩ := c62_uniquestream 0 0 ((seedval >>> 32) % 2 ^ 32) (seedval % 2 ^ 32) (by decide) (by decide)
    (Nat.mod_lt _ (by decide)) (Nat.mod_lt _ (by decide))
  refine ⟨S, e, ok, c, ?_⟩
  have : seedval % 2 ^ 32 + 2 ^ 32 * ((seedval >>> 32) % 2 ^ 32) + 2 ^ 64 * 0 + 2 ^ 96 * 0 = seedval := by
    rw [Nat.shiftRight_eq_div_pow]
    omega
  rw [v, this]

/-- C62: the seeded vector is never zero, so by
C61 no seed leads to the state that would return zeros for ever. -/
theorem c62_seed_nonzero (cluster machine run stream : Nat) (h1 : cluster < 2 ^ 32) (h2 : machine < 2 ^ 32)
    (h3 : run < 2 ^ 32) (h4 : stream < 2 ^ 32) :
    ∃ S, seedUniquestream 36 skipMat17 17 cluster machine run stream = some S ∧ ∀ n, ∃ vs S',
      Spec.run (Mixmax.next 36) n S = some (vs, S') ∧ MixOK 17 S' ∧ mixVec 17 S'.V ≠ 0 := by
  obtain ⟨S, e, ok, c, v⟩ := c62_uniquestream cluster machine run stream h1 h2 h3 h4
  refine ⟨S, e, fun n => c61_never_zero 36 17 (by decide) (by decide) (by decide) (by decide) S ok ?_ n⟩
  rw [v]
  generalize 2 ^ 512 * (stream + 2 ^ 32 * run + 2 ^ 64 * machine + 2 ^ 96 * cluster) = k
  have hinj := c61_matrix_injective 36 17 (by decide) (by decide) (by decide) (by decide)
  have : ∀ k x, x ≠ 0 → (mixA17 ^ k).mulVec x ≠ 0 := by
    intro k
    induction k with
    | zero => intro x hx; rwa [pow_zero, Matrix.one_mulVec]
    | succ k ih =>
      intro x hx
      rw [pow_succ, ← Matrix.mulVec_mulVec]
      refine ih _ fun h0 => hx (hinj ?_)
      rw [h0, Matrix.mulVec_zero]
  refine this k _ fun h => ?_
  have := congrFun h 0
  simp only [mixE0, if_true, Pi.zero_apply] at this
  exact absurd ((ZMod.natCast_eq_natCast_iff' 1 0 mixP).1 (by simpa using this)) (by decide)

/-- The hypotheses of C62 hold for the default seed 1, and the first value returned is the one the matrix
power predicts; the state is not the unit vector. -/
example : (1 : Nat) < 2 ^ 64 ∧ ∃ S, seed 36 skipMat17 17 1 = some S ∧ S.V.headD 0 ≠ 1 :=
  ⟨by decide, by decide +kernel⟩

end Boost.Random
