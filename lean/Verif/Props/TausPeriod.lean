import Verif.Proofs.Taus88Count
import Verif.Props.Lfsr
import Verif.Props.SeedAll
import Verif.Props.MtPeriod
import Verif.Spec.TausPeriod

namespace Boost.Random
open Spec Tausworthe Polynomial SeedImpl

/-! ## C60: the period of `linear_feedback_shift_engine` and `taus88` -/

theorem hasOrder_of_irreducible {k q N : Nat} (hN : 0 < N) (irr : Irreducible (X ^ k + X ^ q + 1 : (ZMod 2)[X]))
    (ord : ∀ e, (X ^ k + X ^ q + 1 : (ZMod 2)[X]) ∣ X ^ e - 1 ↔ N ∣ e) : HasOrder (trinomial k q) N :=
  ⟨hN, (ord N).2 dvd_rfl, fun p hp hd => by
    refine (irr.coprime_iff_not_dvd).2 fun h => ?_
    have h1 := Nat.le_of_dvd (Nat.div_pos (Nat.le_of_dvd hN hd) hp.pos) ((ord _).1 h)
    have h2 := Nat.div_lt_self hN hp.one_lt
    omega⟩

theorem lfsr_period (L : Lfsr) (hL : L.Valid) (hw : L.bits = L.w) (hc : L.w + L.s + L.q ≤ 2 * L.k) {N : Nat} (hN : HasOrder (trinomial L.k L.q) N)
    (hs : Nat.Coprime N L.s) {v : Nat} (hv : Significant L.w L.k v) : HasPeriod (fun n => after L v (n + 1)) N :=
  ⟨hN.pos, fun P => ⟨fun h => (after_eq_iff hL hw hc hN hs hv 0 P).1 (h 0), fun h n => (after_eq_iff hL hw hc hN hs hv n P).2 h⟩⟩

theorem lfsr_returns (L : Lfsr) (v : Nat) : Returns L.next v fun n => (after L v (n + 1) : Int) := fun k => ⟨_, lfsr_run L v k⟩

theorem period_cast {f : Nat → Nat} {T : Nat} (h : HasPeriod f T) : HasPeriod (fun n => (f n : Int)) T :=
  ⟨h.1, fun P => by rw [← h.2 P]; exact ⟨fun h n => Int.ofNat.inj (h n), fun h n => congrArg Int.ofNat (h n)⟩⟩

/-- **C60.** If `X^k + X^q + 1` is irreducible over GF(2) and the order of `X` modulo it is `N`, and `s` has no common divisor with `N`,
then the engine has the period `N` from every state with a significant bit: what it returns repeats after `P` calls exactly if
`P` is a multiple of `N`. The type has `w` bits, and the bits below the significant ones depend on significant bits only. -/
theorem c60_lfsr (L : Lfsr) (hL : L.Valid) (hw : L.bits = L.w) (hc : L.w + L.s + L.q ≤ 2 * L.k) {N : Nat} (hN : 0 < N)
    (irr : Irreducible (X ^ L.k + X ^ L.q + 1 : (ZMod 2)[X])) (ord : ∀ e, (X ^ L.k + X ^ L.q + 1 : (ZMod 2)[X]) ∣ X ^ e - 1 ↔ N ∣ e)
    (hs : Nat.Coprime N L.s) {v : Nat} (hv : Significant L.w L.k v) :
    ∃ out, Returns L.next v out ∧ HasPeriod out N :=
  ⟨_, lfsr_returns L v, period_cast (lfsr_period L hL hw hc (hasOrder_of_irreducible hN irr ord) hs hv)⟩

/-- **C60.** The three components of `taus88`. -/
theorem c60_components :
    (∀ v, Significant 32 31 v → ∃ out, Returns taus88A.next v out ∧ HasPeriod out (2 ^ 31 - 1)) ∧
    (∀ v, Significant 32 29 v → ∃ out, Returns taus88B.next v out ∧ HasPeriod out (2 ^ 29 - 1)) ∧
    (∀ v, Significant 32 28 v → ∃ out, Returns taus88C.next v out ∧ HasPeriod out (2 ^ 28 - 1)) :=
  ⟨fun v hv => ⟨_, lfsr_returns _ v, period_cast (lfsr_period taus88A (by decide) rfl (by decide) orderA (by decide) hv)⟩,
    fun v hv => ⟨_, lfsr_returns _ v, period_cast (lfsr_period taus88B (by decide) rfl (by decide) orderB (by decide) hv)⟩,
    fun v hv => ⟨_, lfsr_returns _ v, period_cast (lfsr_period taus88C (by decide) rfl (by decide) orderC (by decide) hv)⟩⟩

/-- The hypotheses hold of the state seeded by default. -/
example : Taus88OK ((341, 341), 341) := by
  unfold Taus88OK Significant topBit
  decide
example : taus88A.bits = taus88A.w ∧ taus88C.w + taus88C.s + taus88C.q ≤ 2 * taus88C.k := by decide

/-- **C60.** `taus88` has the period `(2^31 - 1) (2^29 - 1) (2^28 - 1)` from every state whose components have significant bits. -/
theorem c60_taus88 (st : (Nat × Nat) × Nat) (h : Taus88OK st) : ∃ out, Returns taus88.next st out ∧ HasPeriod out taus88Period := by
  obtain ⟨⟨a, b⟩, c⟩ := st
  obtain ⟨ha, hb, hc⟩ := h
  refine ⟨_, fun k => ⟨_, taus88_run a b c k⟩, ?_⟩
  exact period_cast (xor_period (lfsr_period taus88A (by decide) rfl (by decide) orderA (by decide) ha) (lfsr_period taus88B (by decide) rfl (by decide) orderB (by decide) hb)
    (lfsr_period taus88C (by decide) rfl (by decide) orderC (by decide) hc) coAB coAC coBC)

theorem taus88_seed_ok (v : Nat) : ∃ st, taus88Seed v = some st ∧ Taus88OK st := by
  obtain ⟨a, ea, -, ha, -⟩ := c14_seed_partial taus88A (by decide) (by decide) v
  obtain ⟨b, eb, -, hb, -⟩ := c14_seed_partial taus88B (by decide) (by decide) v
  obtain ⟨c, ec, -, hc, -⟩ := c14_seed_partial taus88C (by decide) (by decide) v
  exact ⟨((a, b), c), by simp [taus88Seed, ea, eb, ec], ha, hb, hc⟩

/-- **C60.** However `taus88` is seeded: from any value. -/
theorem c60_seed (v : Nat) : ∃ st out, taus88Seed v = some st ∧ Returns taus88.next st out ∧ HasPeriod out taus88Period := by
  obtain ⟨st, e, h⟩ := taus88_seed_ok v
  obtain ⟨out, h1, h2⟩ := c60_taus88 st h
  exact ⟨st, out, e, h1, h2⟩

/-- **C60.** From any sequence of 32-bit words. -/
theorem c60_seed_seq (gen : Nat → List Nat) (hg : SeqOK gen) :
    ∃ st out, taus88SeedSeq gen = some st ∧ Returns taus88.next st out ∧ HasPeriod out taus88Period := by
  obtain ⟨a, ea, -, -, ha⟩ := c137_lfsr taus88A (by decide) (by decide) (by decide) gen hg
  obtain ⟨b, eb, -, -, hb⟩ := c137_lfsr taus88B (by decide) (by decide) (by decide) gen hg
  obtain ⟨c, ec, -, -, hc⟩ := c137_lfsr taus88C (by decide) (by decide) (by decide) gen hg
  obtain ⟨out, h1, h2⟩ := c60_taus88 ((a, b), c) ⟨ha, hb, hc⟩
  exact ⟨_, out, by simp [taus88SeedSeq, ea, eb, ec], h1, h2⟩

/-- **C60.** From any range of at least three words: one for each component; a shorter range is refused. -/
theorem c60_seed_range (ws : List Nat) (hws : ∀ x ∈ ws, x < 2 ^ 32) :
    (ws.length < 3 → taus88SeedRange ws = .throws) ∧
    (3 ≤ ws.length → ∃ st out, taus88SeedRange ws = .ok st (ws.drop 3) ∧ Returns taus88.next st out ∧ HasPeriod out taus88Period) := by
  have rA := c137_lfsr_range taus88A (by decide) (by decide) (by decide)
  have rB := c137_lfsr_range taus88B (by decide) (by decide) (by decide)
  have rC := c137_lfsr_range taus88C (by decide) (by decide) (by decide)
  have sub : ∀ n, ∀ x ∈ ws.drop n, x < 2 ^ 32 := fun n x hx => hws x (List.mem_of_mem_drop hx)
  have hA : ws.length = 0 → taus88SeedRange ws = .throws := fun h => by
    unfold taus88SeedRange
    rw [(rA ws hws).1 (by rw [h]; decide)]
  have mA : 1 ≤ ws.length → ∃ a, taus88A.seedRange ws = .ok a (ws.drop 1) ∧ Significant 32 31 a := fun h => by
    obtain ⟨a, e, -, -, s⟩ := (rA ws hws).2 h
    exact ⟨a, e, s⟩
  have mB : 2 ≤ ws.length → ∃ b, taus88B.seedRange (ws.drop 1) = .ok b (ws.drop 2) ∧ Significant 32 29 b := fun h => by
    obtain ⟨a, e, -, -, s⟩ := (rB _ (sub 1)).2 (by rw [List.length_drop]; show 1 ≤ _; omega)
    refine ⟨a, ?_, s⟩
    rw [e, List.drop_drop]; rfl
  have mC : 3 ≤ ws.length → ∃ c, taus88C.seedRange (ws.drop 2) = .ok c (ws.drop 3) ∧ Significant 32 28 c := fun h => by
    obtain ⟨a, e, -, -, s⟩ := (rC _ (sub 2)).2 (by rw [List.length_drop]; show 1 ≤ _; omega)
    refine ⟨a, ?_, s⟩
    rw [e, List.drop_drop]; rfl
  constructor
  · intro h
    by_cases h0 : ws.length = 0
    · exact hA h0
    obtain ⟨a, ea, -⟩ := mA (by omega)
    by_cases h1 : ws.length = 1
    · unfold taus88SeedRange
      rw [ea]
      dsimp only
      rw [(rB _ (sub 1)).1 (by rw [List.length_drop, h1]; decide)]
    obtain ⟨b, eb, -⟩ := mB (by omega)
    unfold taus88SeedRange
    rw [ea]
    dsimp only
    rw [eb]
    dsimp only
    rw [(rC _ (sub 2)).1 (by rw [List.length_drop, show ws.length = 2 by omega]; decide)]
  · intro h
    obtain ⟨a, ea, ha⟩ := mA (by omega)
    obtain ⟨b, eb, hb⟩ := mB (by omega)
    obtain ⟨c, ec, hc⟩ := mC h
    obtain ⟨out, h1, h2⟩ := c60_taus88 ((a, b), c) ⟨ha, hb, hc⟩
    refine ⟨_, out, ?_, h1, h2⟩
    unfold taus88SeedRange
    rw [ea]
    dsimp only
    rw [eb]
    dsimp only
    rw [ec]

example : taus88SeedRange [5, 1, 0, 9] = .ok ((5, 9), 16) [9] ∧ taus88SeedRange [5, 1] = .throws ∧ taus88Seed 0 = some ((2, 8), 16) := by decide

/-- **C60.** As `operator==` sees it: the engine after `n + 1` calls and the engine `P` calls later are equal exactly if `P` is a
multiple of the period. (Before the first call the bits that are not significant need not be those that recur.) -/
theorem c60_eq (st : (Nat × Nat) × Nat) (h : Taus88OK st) (n P : Nat) :
    ∃ s s', stateAfter taus88.next (n + 1) st = some s ∧ stateAfter taus88.next (n + 1 + P) st = some s' ∧ (taus88.eq s s' = true ↔ taus88Period ∣ P) := by
  obtain ⟨⟨a, b⟩, c⟩ := st
  obtain ⟨ha, hb, hc⟩ := h
  refine ⟨_, _, by rw [stateAfter, taus88_run]; rfl, by rw [stateAfter, taus88_run]; rfl, ?_⟩
  have eA := after_eq_iff (L := taus88A) (by decide) rfl (by decide) orderA (by decide) ha n P
  have eB := after_eq_iff (L := taus88B) (by decide) rfl (by decide) orderB (by decide) hb n P
  have eC := after_eq_iff (L := taus88C) (by decide) rfl (by decide) orderC (by decide) hc n P
  rw [show n + P + 1 = n + 1 + P by omega, eq_comm] at eA eB eC
  simp only [taus88, taus88Inner, XorCombine.engine, XorCombine.eq, Lfsr.engine, Lfsr.eq, Bool.and_eq_true, beq_iff_eq, eA, eB, eC]
  constructor
  · rintro ⟨⟨hA, hB⟩, hC⟩
    exact (Nat.Coprime.mul_left coAC coBC).mul_dvd_of_dvd_of_dvd (coAB.mul_dvd_of_dvd_of_dvd hA hB) hC
  · intro h
    exact ⟨⟨(Dvd.intro ((2 ^ 29 - 1) * (2 ^ 28 - 1)) (by rw [taus88Period, mul_assoc])).trans h,
      (Dvd.intro ((2 ^ 31 - 1) * (2 ^ 28 - 1)) (by rw [taus88Period, mul_left_comm, mul_assoc])).trans h⟩, (Dvd.intro_left _ rfl).trans h⟩

/-! ## C138: equidistribution of `taus88` -/

/-- **C138.** In a period every combination of nonzero significant bits of the three components occurs exactly once: all states lie on one cycle. -/
theorem c138_cycle (st st' : (Nat × Nat) × Nat) (h : Taus88OK st) (h' : Taus88OK st') (b1 : st'.1.1 < 2 ^ 32) (b2 : st'.1.2 < 2 ^ 32) (b3 : st'.2 < 2 ^ 32) :
    ∃ S : Nat → (Nat × Nat) × Nat, (∀ n, stateAfter taus88.next n st = some (S n)) ∧ ∃! n, n < taus88Period ∧ SameBits (S (n + 1)) st' := by
  obtain ⟨⟨a, b⟩, c⟩ := st
  obtain ⟨⟨x, y⟩, z⟩ := st'
  obtain ⟨ha, hb, hc⟩ := h
  obtain ⟨hx, hy, hz⟩ := h'
  refine ⟨fun n => ((after taus88A a n, after taus88B b n), after taus88C c n), fun n => by rw [stateAfter, taus88_run]; rfl, ?_⟩
  exact cycle_unique (L := taus88A) (M := taus88B) (K := taus88C) (by decide) (by decide) (by decide) rfl rfl rfl orderA orderB orderC (by decide) (by decide) (by decide)
    (by decide) (by decide) (by decide) coAB coAC coBC ha hb hc b1 b2 b3 hx hy hz

/-- Two states to which it applies. -/
example : Taus88OK ((2, 8), 16) ∧ Taus88OK ((4294967295, 4294967295), 4294967295) := by
  unfold Taus88OK Significant topBit
  decide

/-- **C138.** How often each 32-bit value occurs in a period: `2^56 - 2^28 - 2^27 - 2^25` times, and once more for each component that could
return it alone (its low bits continue the sequence of its significant bits); zero once less. -/
theorem c138_counts (st : (Nat × Nat) × Nat) (h : Taus88OK st) (y : Nat) (hy : y < 2 ^ 32) [Decidable (Continues 32 31 13 y)] [Decidable (Continues 32 29 2 y)]
    [Decidable (Continues 32 28 3 y)] :
    ∃ out, Returns taus88.next st out ∧ ((Finset.range taus88Period).filter fun n => out n = y).card + (2 ^ 28 + 2 ^ 27 + 2 ^ 25) + (if y = 0 then 1 else 0) =
      2 ^ 56 + (if Continues 32 31 13 y then 1 else 0) + (if Continues 32 29 2 y then 1 else 0) + (if Continues 32 28 3 y then 1 else 0) := by
  obtain ⟨⟨a, b⟩, c⟩ := st
  obtain ⟨ha, hb, hc⟩ := h
  refine ⟨_, fun k => ⟨_, taus88_run a b c k⟩, ?_⟩
  have h1 := triples_gen (w := 32) (ka := 31) (kb := 29) (kc := 28) (qa := 13) (qb := 2) (qc := 3) (by decide) (by decide) (by decide) (by decide) (by decide) (by decide)
    pairsAB pairsAC pairsBC y hy
  have h2 := count_value (L := taus88A) (M := taus88B) (K := taus88C) (by decide) (by decide) (by decide) rfl rfl rfl orderA orderB orderC (by decide) (by decide) (by decide)
    (by decide) (by decide) (by decide) coAB coAC coBC ha hb hc (by decide) (by decide) (by decide) y
  rw [show (2 : Nat) ^ 31 * 2 ^ 25 = 2 ^ 56 by norm_num] at h1
  rw [← h1]
  simp only [Int.natCast_inj]
  exact congrArg (fun x => x + (2 ^ 28 + 2 ^ 27 + 2 ^ 25) + (if y = 0 then 1 else 0)) h2

example : Continues 32 31 13 (2 ^ 31 + 2 ^ 18) ∧ ¬ Continues 32 31 13 (2 ^ 31) := by
  refine ⟨fun i h1 h2 => ?_, fun h => ?_⟩
  · obtain rfl : i = 31 := by omega
    decide
  · have := h 31 (by decide) (by decide)
    revert this; decide

end Boost.Random
