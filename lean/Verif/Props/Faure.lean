import Verif.Proofs.FaureWitness

/-!
# Properties C70, C71, C72: the Faure engine; C45, C46, C47 for it

`faure fl digits faurePrime` is `faure_engine<RealType, SeqSizeT>` with the default table: `SeqSizeT` has `digits` bits, the operations of
`RealType` are rounded by `fl`. `QReach` are the states that can be reached through the interface.
-/

namespace Boost.Random
open Spec Qrng Faure

section
variable {digits : Nat}

/-! ## C70: the sequence -/

/-- The table: the base is the least prime that is not below the dimension; there is none exactly for dimension 0 and those above 1117. -/
theorem c70_table : (∀ dim, faurePrime dim = .throw ↔ dim = 0 ∨ 1117 < dim) ∧
    ∀ dim, 0 < dim → dim ≤ 1117 → ∃ b, faurePrime dim = .ok b ∧ IsLeastPrime dim b :=
  ⟨fun _ => faurePrime_throw, fun _ h0 h => let ⟨b, h1, h2, _⟩ := faurePrime_ok h0 h; ⟨b, h1, h2⟩⟩

example : faurePrime 114 = .ok 127 ∧ faurePrime 1118 = .throw := by decide +kernel

/-- The constructor throws exactly for the dimensions that are not supported; else the engine is at the start of the sequence. -/
theorem c70_dimension (fl : ℚ → ℚ) (h1 : 1 ≤ digits) (h64 : digits ≤ 64) (dim : Nat) :
    (make (faure fl digits faurePrime) dim = .throw ↔ dim = 0 ∨ 1117 < dim) ∧
    (0 < dim → dim ≤ 1117 → ∃ q, make (faure fl digits faurePrime) dim = .ok q ∧ q.quasi.length = dim ∧ qPosition q = 0) := by
  have hok : 0 < dim → dim ≤ 1117 → ∃ q, make (faure fl digits faurePrime) dim = .ok q ∧ q.quasi.length = dim ∧ qPosition q = 0 := fun h0 h => by
    obtain ⟨q, k1, k2, k3⟩ := make_inv fl h1 h64 h0 h
    exact ⟨q, k1, k2.length (lawful fl h1 h64), k3⟩
  refine ⟨⟨fun h => ?_, fun h => ?_⟩, hok⟩
  · by_contra hn
    obtain ⟨q, hq, _⟩ := hok (by omega) (by omega)
    rw [hq] at h
    exact absurd h (by simp)
  · unfold make
    by_cases h0 : dim = 0
    · rw [if_pos h0]
    · rw [if_neg h0]
      show (binomResize faurePrime dim).bind _ = .throw
      unfold binomResize
      rw [faurePrime_throw.2 h]
      rfl

example : make (faure id 64 faurePrime) 1118 = .throw := (c70_dimension id (by decide) (by decide) 1118).1.2 (by decide)

theorem qAt_congr {α : Type} {pt pt' : Nat → List α} {last : Nat} (h : ∀ m < last, pt m = pt' m) (dim p : Nat) : qAt pt last dim p = qAt pt' last dim p := by
  unfold qAt
  split
  · rename_i hl; rw [h _ hl]
  · rfl

/-- In every state the outputs from there on are, in exact arithmetic, the coordinates of Faure's sequence, up to the end of the counter. -/
theorem c70_sequence (h1 : 1 ≤ digits) (h64 : digits ≤ 64) {q : Q Binom ℚ} (hq : QReach (faure id digits faurePrime) q) :
    ∃ b, IsLeastPrime q.quasi.length b ∧ ∀ n, qOutputs (faure id digits faurePrime) n q = some ((List.range n).filterMap fun i =>
      qAt (fun m => (List.range q.quasi.length).map (faureValue b m)) (2 ^ digits) q.quasi.length (qPosition q + i)) := by
  have I := reach_inv id h1 h64 hq
  have hb := (FInv.dim id I).2
  obtain ⟨_, _, h3, _⟩ := faurePrime_inv hb
  refine ⟨_, h3, fun n => ?_⟩
  rw [outputs_eq (lawful id h1 h64) n I]
  congr 2
  funext i
  refine qAt_congr (fun m _ => ?_) _ _
  rw [point_computed h3.1.two_le (B := len (baseOf faurePrime q.quasi.length) m * ((baseOf faurePrime q.quasi.length - 1) * (baseOf faurePrime q.quasi.length - 1)) +
    baseOf faurePrime q.quasi.length) (fun _ _ => rfl) (by omega) (by omega)]
  exact List.map_congr_left fun d _ => computed_id h3.1.two_le m d

/-- The values of a computation with exact arithmetic. -/
def faureRun (dim n : Nat) : Option (List ℚ) := match make (faure id 64 faurePrime) dim with | .ok q => qOutputs (faure id 64 faurePrime) n q | _ => none

#guard faureRun 2 12 == some [0, 0, 1/2, 1/2, 1/4, 3/4, 3/4, 1/4, 1/8, 5/8, 5/8, 1/8]
#guard faureRun 3 15 == some [0, 0, 0, 1/3, 1/3, 1/3, 2/3, 2/3, 2/3, 1/9, 4/9, 7/9, 4/9, 7/9, 1/9]
#guard (List.range 5).flatMap (fun m => (List.range 3).map (faureValue 3 m)) == [0, 0, 0, 1/3, 1/3, 1/3, 2/3, 2/3, 2/3, 1/9, 4/9, 7/9, 4/9, 7/9, 1/9]

/-- With floating-point numbers of 24 bits or more, in every rounding mode, the digits are those of Faure's sequence; only the sums of the
digits divided by the powers of the base are rounded. -/
theorem c70_rounded (h1 : 1 ≤ digits) (h64 : digits ≤ 64) {p : Nat} (hp : 24 ≤ p) {fl : ℚ → ℚ} (R : Rounding p fl) {q : Q Binom ℚ}
    (hq : QReach (faure fl digits faurePrime) q) :
    ∃ b, IsLeastPrime q.quasi.length b ∧ b ≤ 1117 ∧ ∀ n, qOutputs (faure fl digits faurePrime) n q = some ((List.range n).filterMap fun i =>
      qAt (fun m => (List.range q.quasi.length).map (faureRounded fl b m)) (2 ^ digits) q.quasi.length (qPosition q + i)) := by
  have I := reach_inv fl h1 h64 hq
  have hb := (FInv.dim fl I).2
  obtain ⟨_, _, h3, h4⟩ := faurePrime_inv hb
  refine ⟨_, h3, h4, fun n => ?_⟩
  rw [outputs_eq (lawful fl h1 h64) n I]
  congr 2
  funext i
  refine qAt_congr (fun m hm => ?_) _ _
  obtain ⟨k1, k2⟩ := sum_small h3.1.two_le h4 (lt_of_lt_of_le hm (Nat.pow_le_pow_right (by norm_num) h64))
  have hpow : 2 ^ 24 ≤ 2 ^ p := Nat.pow_le_pow_right (by norm_num) hp
  have hE : Ex fl (2 ^ 24 - 1) := ex_of_rounding R (by omega)
  rw [point_computed h3.1.two_le hE (by omega) (by omega)]
  exact List.map_congr_left fun d _ => computed_eq h3.1.two_le (fun n hn => hE n (by omega)) m d

/-- A rounding to 53 bits. -/
example : ∃ q b, make (faure (rn 53) 64 faurePrime) 40 = .ok q ∧ IsLeastPrime 40 b ∧ qOutputs (faure (rn 53) 64 faurePrime) 3 q =
    some ((List.range 3).filterMap fun i => qAt (fun m => (List.range 40).map (faureRounded (rn 53) b m)) (2 ^ 64) 40 i) := by
  obtain ⟨q, k1, k2, k3⟩ := (c70_dimension (rn 53) (digits := 64) (by decide) (by decide) 40).2 (by decide) (by decide)
  obtain ⟨b, g1, _, g2⟩ := c70_rounded (p := 53) (by decide) (by decide) (by decide) (Boost.Random.Nearest.rounding (rn_nearest (by decide))) (QReach.make k1)
  have := g2 3
  rw [k2, k3] at this
  rw [k2] at g1
  simp only [Nat.zero_add] at this
  exact ⟨q, b, k1, g1, this⟩

/-! ## C71: the range -/

theorem mem_of_qAt {α : Type} {pt : Nat → List α} {last dim p : Nat} {v : α} (h : qAt pt last dim p = some v) : p / dim < last ∧ (pt (p / dim))[p % dim]? = some v := by
  unfold qAt at h
  split at h
  · rename_i hl; exact ⟨hl, h⟩
  · simp at h

/-- In exact arithmetic every value is at least `min()`, 0, and below `max()`, 1. -/
theorem c71_exact (h1 : 1 ≤ digits) (h64 : digits ≤ 64) {q q' : Q Binom ℚ} {v : ℚ} (hq : QReach (faure id digits faurePrime) q)
    (h : next (faure id digits faurePrime) q = .ok (v, q')) : 0 ≤ v ∧ v < 1 := by
  obtain ⟨b, hb, ho⟩ := c70_sequence h1 h64 hq
  have h2 := ho 1
  rw [qOutputs, h] at h2
  simp only [qOutputs, Option.map_some] at h2
  have hm : v ∈ (List.range 1).filterMap fun i => qAt (fun m => (List.range q.quasi.length).map (faureValue b m)) (2 ^ digits) q.quasi.length (qPosition q + i) := by
    rw [← Option.some.inj h2]; simp
  obtain ⟨i, _, hi⟩ := List.mem_filterMap.1 hm
  obtain ⟨_, hv⟩ := mem_of_qAt hi
  rw [List.getElem?_map, Option.map_eq_some_iff] at hv
  obtain ⟨d, _, rfl⟩ := hv
  exact faureValue_bounds hb.1.two_le _ _

/-- With rounding to nearest: every value is at least 0; it is at most 1 if it is a first coordinate or the base is 2, that is the dimension is
one or two; else it exceeds one by rounding errors at most. Missing: `c71_range_false`. -/
theorem c71_range_partial (h1 : 1 ≤ digits) (h64 : digits ≤ 64) {p : Nat} (hp : 24 ≤ p) {fl : ℚ → ℚ} (H : Nearest p fl) {q q' : Q Binom ℚ} {v : ℚ}
    (hq : QReach (faure fl digits faurePrime) q) (h : next (faure fl digits faurePrime) q = .ok (v, q')) :
    0 ≤ v ∧ (qPosition q % q.quasi.length = 0 ∨ q.quasi.length ≤ 2 → v ≤ 1) ∧ v * (1 - 1 / 2 ^ p) ^ 129 ≤ 1 := by
  have R := Boost.Random.Nearest.rounding H
  obtain ⟨b, hb, hb', ho⟩ := c70_rounded h1 h64 hp R hq
  have hb2 := hb.1.two_le
  have hpow : 2 ^ 24 ≤ 2 ^ p := Nat.pow_le_pow_right (by norm_num) hp
  have h2 := ho 1
  rw [qOutputs, h] at h2
  simp only [qOutputs, Option.map_some] at h2
  have hm : v ∈ (List.range 1).filterMap fun i => qAt (fun m => (List.range q.quasi.length).map (faureRounded fl b m)) (2 ^ digits) q.quasi.length (qPosition q + i) := by
    rw [← Option.some.inj h2]; simp
  obtain ⟨i, hi0, hi⟩ := List.mem_filterMap.1 hm
  obtain rfl : i = 0 := by simpa using hi0
  rw [Nat.add_zero] at hi
  obtain ⟨hlt, hv⟩ := mem_of_qAt hi
  rw [List.getElem?_map, Option.map_eq_some_iff] at hv
  obtain ⟨d, hd, rfl⟩ := hv
  obtain ⟨hdl, hde⟩ := List.getElem?_eq_some_iff.1 hd
  rw [List.getElem_range] at hde
  generalize qPosition q / q.quasi.length = m at *
  have hm64 : m < 2 ^ 64 := lt_of_lt_of_le hlt (Nat.pow_le_pow_right (by norm_num) h64)
  obtain ⟨hw, hw1⟩ := factor_bounds (by omega) H
  unfold faureRounded
  by_cases hd0 : d = 0
  · rw [if_pos hd0]
    obtain ⟨g1, g2⟩ := faureFirst_bounds R hb2 (by omega : b < 2 ^ p) m
    refine ⟨g1, fun _ => g2, ?_⟩
    calc faureFirst fl b m * (1 - 1 / 2 ^ p) ^ 129 ≤ 1 * 1 := mul_le_mul g2 (pow_le_one₀ hw.le hw1) (by positivity) (by norm_num)
      _ = 1 := by norm_num
  · rw [if_neg hd0, faureSum_eq]
    have g1 := accum_nonneg (b := b) R (faureDigit b (len b m) m d) (Nat.log b m + 1)
    refine ⟨g1, fun hc => ?_, ?_⟩
    · rcases hc with hc | hc
      · omega
      · have hbe : b = 2 := le_antisymm (hb.2.2 2 Nat.prime_two hc) hb2
        subst hbe
        exact accum_two (by omega) H (faureDigit_lt (by norm_num) _ _ _) _
    · have g2 := accum_upper (by omega) H hb2 (faureDigit b (len b m) m d) (Nat.log b m + 1)
      have hlog : Nat.log b m < 64 := by
        have hle : b ^ Nat.log b m < 2 ^ 64 := by
          by_cases h0 : m = 0
          · subst h0; simp
          · exact lt_of_le_of_lt (Nat.pow_log_le_self b h0) hm64
        exact (Nat.pow_lt_pow_iff_right (by decide)).1 (lt_of_le_of_lt (Nat.pow_le_pow_left hb2 _) hle)
      have g3 := (faureValue_bounds hb2 m d).2
      unfold faureValue at g3
      calc accum fl b (faureDigit b (len b m) m d) (Nat.log b m + 1) * (1 - 1 / 2 ^ p) ^ 129
          ≤ accum fl b (faureDigit b (len b m) m d) (Nat.log b m + 1) * (1 - 1 / 2 ^ p) ^ (2 * (Nat.log b m + 1) + 1) :=
            mul_le_mul_of_nonneg_left (pow_le_pow_of_le_one hw.le hw1 (by omega)) g1
        _ ≤ _ := g2
        _ ≤ 1 := g3.le

/-- With `double` and rounding to nearest the engine of dimension 4 returns a value greater than `max()`. -/
theorem c71_range_false {fl : ℚ → ℚ} (H : Nearest 53 fl) : ∃ q q1 v0 q2 v q3, make (faure fl 64 faurePrime) 4 = .ok q ∧
    seed (faure fl 64 faurePrime) q bigPoint = .ok q1 ∧ next (faure fl 64 faurePrime) q1 = .ok (v0, q2) ∧
    next (faure fl 64 faurePrime) q2 = .ok (v, q3) ∧ 1 < v := by
  have L := lawful fl (digits := 64) (by decide) (by decide)
  obtain ⟨q, k1, k2, _⟩ := make_inv fl (digits := 64) (dim := 4) (by decide) (by decide) (by decide) (by decide)
  obtain ⟨q1, g1, g2, g3, g4⟩ := seed_inv L k2 (init := bigPoint) (by decide)
  have hp1 : qPosition q1 = bigPoint * 4 := by rw [position_eq L g2, g3, g4]; rfl
  obtain ⟨v0, q2, e1, _, e3, e4⟩ := next_ok L g2 (by rw [hp1]; decide)
  obtain ⟨v, q3, f1, f2, _, _⟩ := next_ok L e3 (by rw [e4, hp1]; decide)
  refine ⟨q, q1, v0, q2, v, q3, k1, g1, e1, f1, ?_⟩
  have hbase : baseOf faurePrime 4 = 5 := by decide +kernel
  rw [e4, hp1] at f2
  have hv := (mem_of_qAt f2).2
  rw [show (bigPoint * 4 + 1) / 4 = bigPoint by decide, show (bigPoint * 4 + 1) % 4 = 1 by decide, hbase] at hv
  have hE : Ex fl (2 ^ 24 - 1) := ex_of_rounding (Boost.Random.Nearest.rounding H) (by norm_num)
  obtain ⟨s1, s2⟩ := sum_small (b := 5) (n := bigPoint) (by norm_num) (by norm_num) (by decide)
  rw [point_computed (by norm_num) hE (by omega) (by omega), List.getElem?_map] at hv
  have hv' : computed fl 5 bigPoint 1 = v := by
    simpa using hv
  rw [← hv', computed_eq (by norm_num) (fun n hn => hE n (by omega))]
  exact bigPoint_value H

/-- Such a rounding. -/
example : Nearest 53 (rn 53) := rn_nearest (by decide)

/-! ## C72: nets -/

/-- In exact arithmetic, from the constructor on: for every `c`, of the points `c*b^M` to `(c+1)*b^M - 1` exactly one is in each box of volume
`1/b^M` whose sides are powers of `1/b`. -/
theorem c72_net (h1 : 1 ≤ digits) (h64 : digits ≤ 64) {dim : Nat} (h0 : 0 < dim) (hdim : dim ≤ 1117) :
    ∃ q b, make (faure id digits faurePrime) dim = .ok q ∧ IsLeastPrime dim b ∧
      ∀ vs q', ∀ N ≤ 2 ^ digits, qCalls (faure id digits faurePrime) (N * dim) q = .ok (vs, q') →
        ∀ (k : Nat → Nat) (a : Nat → Nat) (M c : Nat), ∑ d ∈ Finset.range dim, k d = M → (c + 1) * b ^ M ≤ N → (∀ d < dim, a d < b ^ k d) →
          (inFaureBox b dim vs M c k (fun d => a d)).card = 1 := by
  obtain ⟨q, k1, k2, k3⟩ := make_inv id h1 h64 h0 hdim
  have L := lawful id h1 h64
  have hb := (FInv.dim id k2).2
  obtain ⟨_, _, h3, h4⟩ := faurePrime_inv hb
  generalize hbb : baseOf faurePrime dim = b at *
  have hb2 := h3.1.two_le
  refine ⟨q, b, k1, h3, fun vs q' N hN hcalls k a M c hk hc ha => ?_⟩
  obtain ⟨vs', q'', g1, g2, _, _⟩ := calls_ok L (N * dim) k2 (by rw [k3, Nat.zero_add]; exact Nat.mul_le_mul_right _ hN)
  have hvs := (Prod.mk.inj (Res.ok.inj (hcalls.symm.trans g1))).1
  subst hvs
  rw [← net h3.1 h3.2.1 hk c ha]
  unfold inFaureBox
  refine congrArg Finset.card (Finset.filter_congr fun n hn => ?_)
  rw [Finset.mem_range] at hn
  refine forall_congr' fun d => imp_congr_right fun hd => ?_
  have hidx : (c * b ^ M + n) * dim + d < N * dim := by
    have h5 : c * b ^ M + n + 1 ≤ N := by rw [Nat.add_mul] at hc; omega
    calc (c * b ^ M + n) * dim + d < (c * b ^ M + n) * dim + dim := by omega
      _ = (c * b ^ M + n + 1) * dim := by ring
      _ ≤ N * dim := Nat.mul_le_mul_right _ h5
  have hk := congrArg (·[(c * b ^ M + n) * dim + d]?) g2
  simp only [List.getElem?_map, List.getElem?_range hidx, Option.map_some, k3, Nat.zero_add, hbb] at hk
  have hlt : c * b ^ M + n < 2 ^ digits := by rw [Nat.add_mul] at hc; omega
  unfold qAt at hk
  rw [Nat.mul_comm (c * b ^ M + n) dim, Nat.mul_add_div h0, Nat.div_eq_of_lt hd, Nat.add_zero, if_pos hlt, Nat.mul_add_mod, Nat.mod_eq_of_lt hd,
    point_computed hb2 (B := len b (c * b ^ M + n) * ((b - 1) * (b - 1)) + b) (fun _ _ => rfl) (by omega) (by omega),
    List.getElem?_map, List.getElem?_range hd, Option.map_some, computed_id hb2] at hk
  rw [List.getD_eq_getElem?_getD, Nat.mul_comm (c * b ^ M + n) dim]
  cases hv : vs[dim * (c * b ^ M + n) + d]? with
  | none => rw [hv] at hk; simp at hk
  | some v =>
    rw [hv, Option.map_some, Option.some.injEq, Option.some.injEq] at hk
    rw [hk, Option.getD_some]

/-- Dimension 3, the points 9 to 17, the boxes of sides 1/3, 1, 1/3. -/
def faureNet : Bool := match make (faure id 64 faurePrime) 3 with
  | .ok q => match qOutputs (faure id 64 faurePrime) 54 q with
    | some vs => (List.range 9).all fun x => (inFaureBox 3 3 vs 2 1 (fun d => [1, 0, 1].getD d 0) (fun d => ([x / 3, 0, x % 3].getD d 0 : Nat))).card == 1
    | none => false
  | _ => false

#guard faureNet

/-- Every number of calls up to the end of the counter succeeds. -/
theorem c72_calls (h1 : 1 ≤ digits) (h64 : digits ≤ 64) (fl : ℚ → ℚ) {q : Q Binom ℚ} (hq : QReach (faure fl digits faurePrime) q) (n : Nat) :
    (qPosition q + n ≤ 2 ^ digits * q.quasi.length → ∃ r, qCalls (faure fl digits faurePrime) n q = .ok r) ∧
    (2 ^ digits * q.quasi.length < qPosition q + n → qCalls (faure fl digits faurePrime) n q = .throw) := by
  have I := reach_inv fl h1 h64 hq
  have L := lawful fl h1 h64
  refine ⟨fun h => ?_, calls_throw L n I⟩
  obtain ⟨vs, q', g, _⟩ := calls_ok L n I h
  exact ⟨_, g⟩

example : ∃ q r, make (faure id 64 faurePrime) 1117 = .ok q ∧ qCalls (faure id 64 faurePrime) (2 ^ 64 * 1117) q = .ok r := by
  obtain ⟨q, k1, k2, k3⟩ := (c70_dimension id (digits := 64) (by decide) (by decide) 1117).2 (by decide) (by decide)
  obtain ⟨r, hr⟩ := (c72_calls (by decide) (by decide) id (QReach.make k1) (2 ^ 64 * 1117)).1 (by rw [k2, k3, Nat.zero_add])
  exact ⟨q, r, k1, hr⟩

/-! ## C45, C46, C47 for this engine -/

/-- `discard(z)` does what `z` calls do. Missing: one case in dimension one, `c45_faure_false`. -/
theorem c45_faure_partial (h1 : 1 ≤ digits) (h64 : digits ≤ 64) (fl : ℚ → ℚ) {q : Q Binom ℚ} (hq : QReach (faure fl digits faurePrime) q) {z : Nat} (hz : z < 2 ^ 64)
    (hne : ¬ (q.quasi.length = 1 ∧ q.curr = 1 ∧ z = 2 ^ 64 - 1)) :
    (∃ vs q' q'', qCalls (faure fl digits faurePrime) z q = .ok (vs, q') ∧ discard (faure fl digits faurePrime) q z = .ok q'' ∧
      eq q'' q' = true ∧ QSameFuture (faure fl digits faurePrime) q'' q') ∨
    (qCalls (faure fl digits faurePrime) z q = .throw ∧ discard (faure fl digits faurePrime) q z = .throw) := by
  have I := reach_inv fl h1 h64 hq
  have L := lawful fl h1 h64
  have hs := discard_spec L I hz (vectors_lt L I.pos I.lt I.curr hz hne)
  by_cases h : qPosition q + z ≤ 2 ^ digits * q.quasi.length
  · left
    obtain ⟨vs, q', g1, _, g3, g4⟩ := calls_ok L z I h
    obtain ⟨q'', k1, k2, k3, _⟩ := hs.1 h
    exact ⟨vs, q', q'', g1, k1, (eq_iff L k2 g3).2 ⟨rfl, by rw [k3, g4]⟩, same_future L k2 g3 (by rw [k3, g4])⟩
  · right
    exact ⟨calls_throw L z I (by omega), hs.2 (by omega)⟩

example : ∃ q q', make (faure id 64 faurePrime) 3 = .ok q ∧ discard (faure id 64 faurePrime) q (10 ^ 19) = .ok q' := by
  obtain ⟨q, k1, k2, k3⟩ := (c70_dimension id (digits := 64) (by decide) (by decide) 3).2 (by decide) (by decide)
  rcases c45_faure_partial (by decide) (by decide) id (QReach.make k1) (z := 10 ^ 19) (by decide) (by rw [k2]; omega) with ⟨_, _, q'', _, h, _⟩ | ⟨h, _⟩
  · exact ⟨q, q'', k1, h⟩
  · obtain ⟨r, hr⟩ := (c72_calls (by decide) (by decide) id (QReach.make k1) (10 ^ 19)).1 (by rw [k2, k3]; decide)
    rw [hr] at h
    exact absurd h (by simp)

/-- In dimension one, after the first value: `2^64 - 1` more calls lead to the end of the sequence, `discard(2^64 - 1)` back to its start. -/
theorem c45_faure_false (fl : ℚ → ℚ) : ∃ q v q1 r q2, make (faure fl 64 faurePrime) 1 = .ok q ∧ next (faure fl 64 faurePrime) q = .ok (v, q1) ∧
    qCalls (faure fl 64 faurePrime) (2 ^ 64 - 1) q1 = .ok r ∧ discard (faure fl 64 faurePrime) q1 (2 ^ 64 - 1) = .ok q2 ∧ qPosition r.2 = 2 ^ 64 ∧ qPosition q2 = 0 := by
  have L := lawful fl (digits := 64) (by decide) (by decide)
  obtain ⟨q, k1, k2, k3⟩ := make_inv fl (digits := 64) (dim := 1) (by decide) (by decide) (by decide) (by decide)
  obtain ⟨v, q1, g1, _, g3, g4⟩ := next_ok L k2 (by rw [k3]; decide)
  obtain ⟨vs, q', e1, _, _, e4⟩ := calls_ok L (2 ^ 64 - 1) g3 (by rw [g4, k3]; decide)
  rw [k3] at g4
  have hp := position_eq L k2
  have hp1 := position_eq L g3
  rw [k3] at hp
  have hseq : q1.seq = 0 ∧ q1.curr = 1 := by
    unfold next at g1
    rw [if_pos (by rw [k2.length L]; omega)] at g1
    unfold loadCached at g1
    split at g1
    · have := (Prod.mk.inj (Res.ok.inj g1)).2
      subst this
      simp only
      omega
    · simp at g1
  obtain ⟨q2, f1, f2, f3, f4⟩ := discardVector_ok L g3 (z := 0) (by rw [hseq.1]; decide)
  refine ⟨q, v, q1, (vs, q'), { q2 with curr := 0 }, k1, g1, e1, ?_, by rw [e4, g4]; decide, ?_⟩
  · unfold Qrng.discard
    rw [g3.length L, hseq.2]
    show (discardVector (faure fl 64 faurePrime) q1 0).bind _ = _
    rw [f1]
    rfl
  · unfold qPosition
    simp only
    rw [f3, hseq.1]
    omega

/-- Two engines compare equal exactly if they have the same dimension and the same position, and then have the same future. -/
theorem c46_faure (h1 : 1 ≤ digits) (h64 : digits ≤ 64) (fl : ℚ → ℚ) {q q' : Q Binom ℚ} (hq : QReach (faure fl digits faurePrime) q) (hq' : QReach (faure fl digits faurePrime) q') :
    (eq q q' = true ↔ q.quasi.length = q'.quasi.length ∧ qPosition q = qPosition q') ∧ (eq q q' = true → QSameFuture (faure fl digits faurePrime) q q') := by
  have I := reach_inv fl h1 h64 hq
  have I' := reach_inv fl h1 h64 hq'
  have L := lawful fl h1 h64
  refine ⟨eq_iff L I I', fun h => ?_⟩
  obtain ⟨hl, hp⟩ := (eq_iff L I I').1 h
  rw [← hl] at I'
  exact same_future L I I' hp

/-- Reading what an engine has written, into an engine of any dimension and position, gives an engine that is equal and has the same future. -/
theorem c47_faure_roundtrip (h1 : 1 ≤ digits) (h64 : digits ≤ 64) (fl : ℚ → ℚ) {q t : Q Binom ℚ} (hq : QReach (faure fl digits faurePrime) q)
    (ht : QReach (faure fl digits faurePrime) t) (rest : List Tok) :
    ∃ t', read (faure fl digits faurePrime) ⟨write q ++ rest, true⟩ t = .ok t' ⟨rest, true⟩ ∧ eq t' q = true ∧ QSameFuture (faure fl digits faurePrime) t' q := by
  have I := reach_inv fl h1 h64 hq
  have It := reach_inv fl h1 h64 ht
  have L := lawful fl h1 h64
  obtain ⟨t', g1, g2, g3⟩ := read_write L h1 I It rest (Or.inr (Or.inr (seedAny fl h1)))
  exact ⟨t', g1, (eq_iff L g2 I).2 ⟨rfl, g3⟩, same_future L g2 I g3⟩

/-- Two dimensions and three. -/
example : ∃ q t t', make (faure id 64 faurePrime) 2 = .ok q ∧ make (faure id 64 faurePrime) 3 = .ok t ∧
    read (faure id 64 faurePrime) ⟨write q, true⟩ t = .ok t' ⟨[], true⟩ ∧ QSameFuture (faure id 64 faurePrime) t' q := by
  obtain ⟨q, k1, _⟩ := (c70_dimension id (digits := 64) (by decide) (by decide) 2).2 (by decide) (by decide)
  obtain ⟨t, g1, _⟩ := (c70_dimension id (digits := 64) (by decide) (by decide) 3).2 (by decide) (by decide)
  obtain ⟨t', e1, _, e3⟩ := c47_faure_roundtrip (by decide) (by decide) id (QReach.make k1) (QReach.make g1) []
  rw [List.append_nil] at e1
  exact ⟨q, t, t', k1, g1, e1, e3⟩

/-- Whatever text is read, there is no undefined behaviour, then or later, whether reading throws or not. -/
theorem c47_faure_throw (h1 : 1 ≤ digits) (h64 : digits ≤ 64) (fl : ℚ → ℚ) {t : Q Binom ℚ} (ht : QReach (faure fl digits faurePrime) t) (s : IStream) :
    (∃ t' s', read (faure fl digits faurePrime) s t = .ok t' s' ∧ ∀ n, qOutputs (faure fl digits faurePrime) n t' ≠ none) ∨
    (∃ t', read (faure fl digits faurePrime) s t = .threw t' ∧ ∀ n, qOutputs (faure fl digits faurePrime) n t' ≠ none) := by
  have I := reach_inv fl h1 h64 ht
  have L := lawful fl h1 h64
  rcases read_inv fl h1 h64 I s with ⟨_, t', s', g1, g2⟩ | ⟨_, t', g1, g2⟩
  · exact Or.inl ⟨t', s', g1, fun n => (same_future L g2 g2 rfl n).1⟩
  · exact Or.inr ⟨t', g1, fun n => (same_future L g2 g2 rfl n).1⟩

/-- A dimension that is not supported. -/
def faureBad : Bool := match make (faure id 64 faurePrime) 2 with
  | .ok q => match read (faure id 64 faurePrime) ⟨[.num 1118, .num 0, .num 0], true⟩ q with
    | .threw t => qOutputs (faure id 64 faurePrime) 4 t == some [0, 0, 1/2, 1/2]
    | _ => false
  | _ => false

#guard faureBad

end

/-! ## The power of the base -/

/-- `integer_pow` multiplies once more than it needs: with a signed `SeqSizeT` of 63 value bits the power `5^20`, which the type can hold,
cannot be computed. The engine is modelled with an unsigned type. -/
theorem c70_signed_false : integerPow (mulSigned 63) 63 5 20 = none ∧ 5 ^ 20 < 2 ^ 63 := by decide +kernel

end Boost.Random
