import Verif.Proofs.Lfsr
import Verif.Props.Adaptors

namespace Boost.Random
open Spec Lfsr

/-! ## C13 -/

/-- C13: a call moves the `w`-bit word `s` places along its Tausworthe sequence: from the top, the first
`k - s` bits are the old ones `s` places on, and every further bit is the sum of the two bits `k` and
`k - q` places before it. The value returned is the new state. -/
theorem c13_step (L : Lfsr) (hL : L.Valid) (v : Nat) :
    ∃ v' : Nat, L.next v = some ((v' : Int), v') ∧ ∀ i, i < L.w →
      topBit L.w v' i = if i + L.s < L.k then topBit L.w v (i + L.s)
        else (topBit L.w v (i + L.s - L.k) ^^ topBit L.w v (i + L.s - L.k + L.q)) :=
  ⟨_, next_eq L v, fun i hi => stp_top L hL v i hi⟩

example : taus88A.Valid ∧ taus88B.Valid ∧ taus88C.Valid := by decide
example : (taus88A.next 341).map Prod.fst = some (((341 &&& (2 ^ 32 - 2)) * 2 ^ 12) ^^^ ((341 * 2 ^ 13 ^^^ 341) / 2 ^ 19) : Nat) := by
  decide

/-- C13: for every state there is a sequence satisfying `u (n+k) = u (n+q) + u n` such that after `n`
calls the `k` significant bits are `u (n s), ..., u (n s + k - 1)`. -/
theorem c13_sequence (L : Lfsr) (hL : L.Valid) (v : Nat) :
    ∃ u, Tausworthe L.k L.q u ∧ (∀ i, i < L.k → u i = topBit L.w v i) ∧
      ∀ n, ∃ vs v', run L.next n v = some (vs, v') ∧ ∀ i, i < L.k → topBit L.w v' i = u (n * L.s + i) := by
  have hq : L.q < L.k := by obtain ⟨h1, h2, h3, h4, h5, h6, h7, h8, h9⟩ := hL; omega
  have hs : L.s ≤ L.k - L.q := hL.2.2.2.2.2.2.1
  have hw : L.k < L.w := hL.2.2.1
  have hs0 : 0 < L.s := hL.2.2.2.2.2.1
  refine ⟨tseq L.k L.q (topBit L.w v), tseq_rec hq _, fun i hi => tseq_init hi, fun n => ?_⟩
  induction n with
  | zero => exact ⟨[], v, rfl, fun i hi => by rw [Nat.zero_mul, Nat.zero_add, tseq_init hi]⟩
  | succ n ih =>
    obtain ⟨vs, v', hr, hb⟩ := ih
    refine ⟨vs ++ [(L.stp v' : Int)], L.stp v', ?_, fun i hi => ?_⟩
    · rw [run_add, hr, Option.bind_some, run_one, next_eq]; rfl
    · rw [stp_top L hL v' i (by omega), Nat.add_mul, Nat.one_mul]
      split
      · rename_i h
        rw [hb _ h]
        congr 1; omega
      · rename_i h
        rw [hb _ (by omega), hb _ (by omega)]
        have := tseq_rec hq (topBit L.w v) (n * L.s + (i + L.s - L.k))
        rw [show n * L.s + (i + L.s - L.k) + L.k = n * L.s + L.s + i by omega,
          show n * L.s + (i + L.s - L.k) + L.q = n * L.s + (i + L.s - L.k + L.q) by omega] at this
        rw [this, Bool.xor_comm]

/-- C13, range (partial): if the type has exactly `w` bits, values are in `[min(), max()]`. Missing: wider
types, where the claim is false (`c13_range_false`). -/
theorem c13_range_partial (L : Lfsr) (hL : L.Valid) (hw : L.bits = L.w) (v : Nat) :
    ∃ x : Nat, (L.next v).map Prod.fst = some (x : Int) ∧ Lfsr.minv ≤ x ∧ x ≤ L.maxv ∧ L.maxv = 2 ^ L.w - 1 := by
  refine ⟨L.stp v, rfl, Nat.zero_le _, ?_, rfl⟩
  have := stp_lt L hL v
  rw [hw] at this
  unfold maxv wordmask
  omega

example : taus88A.bits = taus88A.w ∧ taus88A.maxv = 2 ^ 32 - 1 := by decide

/-- C13, range: false for every engine whose type has more than `w` bits. Seeding with `2^(w-s)` is
possible and the first value exceeds `max()`. -/
theorem c13_range_false (L : Lfsr) (hL : L.Valid) (hw : L.w < L.bits) (hk : L.w - L.k ≤ 30) :
    L.seed (2 ^ (L.w - L.s)) = some (2 ^ (L.w - L.s)) ∧
    ∃ x : Nat, (L.next (2 ^ (L.w - L.s))).map Prod.fst = some (x : Int) ∧ L.maxv < x := by
  obtain ⟨h1, h2, h3, h4, h5, h6, h7, h8, h9⟩ := hL
  have hp : 2 ^ (L.w - L.s) < 2 ^ L.w := Nat.pow_lt_pow_right (by omega) (by omega)
  constructor
  · unfold seed wordmask
    rw [if_pos hk]
    simp only [Nat.and_two_pow_sub_one_eq_mod, Nat.mod_eq_of_lt hp]
    rw [if_neg]
    rw [Nat.one_shiftLeft, Nat.not_lt]
    exact Nat.pow_le_pow_right (by omega) (by omega)
  · refine ⟨L.stp (2 ^ (L.w - L.s)), rfl, ?_⟩
    have hb : (L.stp (2 ^ (L.w - L.s))).testBit L.w = true := by
      rw [stp_testBit]
      have e1 : ¬ L.k - L.s + L.w < L.w := by omega
      have e2 : L.s ≤ L.w := by omega
      have e3 : L.w - L.s < L.bits := by omega
      have e4 : L.w - L.k ≤ L.w - L.s := by omega
      have e5 : L.w - L.s - (L.w - L.k) < L.w := by omega
      have e6 : L.w - L.s < L.w := by omega
      simp [e1, hw, e2, e3, e4, e5, e6]
    have := Nat.ge_two_pow_of_testBit hb
    unfold maxv wordmask
    have : 0 < 2 ^ L.w := by positivity
    omega

example : (⟨64, 32, 31, 13, 12⟩ : Lfsr).Valid ∧
    ((⟨64, 32, 31, 13, 12⟩ : Lfsr).next 341).map (fun p => decide ((2 ^ 32 - 1 : Int) < p.1)) = some false ∧
    ((⟨64, 32, 31, 13, 12⟩ : Lfsr).next (2 ^ 20)).map (fun p => decide ((2 ^ 32 - 1 : Int) < p.1)) = some true := by
  decide

/-! ## C14 -/

/-- C14 (partial): whatever the seed, the significant bits are not all zero, the state fits in `w` bits, and
seeds that already have a significant bit are taken as they are. Missing: `w - k > 30`, where seeding is not
defined (`c14_seed_false`). -/
theorem c14_seed_partial (L : Lfsr) (hL : L.Valid) (hk : L.w - L.k ≤ 30) (s0 : Nat) :
    ∃ v, L.seed s0 = some v ∧ v < 2 ^ L.w ∧ Significant L.w L.k v ∧
      (Significant L.w L.k (s0 % 2 ^ L.w) → v = s0 % 2 ^ L.w) := by
  obtain ⟨h1, h2, h3, h4, h5, h6, h7, h8, h9⟩ := hL
  have key : ∀ v, v < 2 ^ L.w → (Significant L.w L.k v ↔ 2 ^ (L.w - L.k) ≤ v) := by
    intro v hv
    constructor
    · rintro ⟨i, hi, hb⟩
      exact le_trans (Nat.pow_le_pow_right (by omega) (by omega)) (Nat.ge_two_pow_of_testBit hb)
    · intro h
      obtain ⟨p, hp, hb⟩ := Nat.exists_ge_and_testBit_of_ge_two_pow h
      have hpw : p < L.w := by
        by_contra hc
        have := Nat.ge_two_pow_of_testBit hb
        have := Nat.pow_le_pow_right (show 0 < 2 by omega) (show L.w ≤ p by omega)
        omega
      exact ⟨L.w - 1 - p, by omega, by unfold topBit; rw [show L.w - 1 - (L.w - 1 - p) = p by omega]; exact hb⟩
  have hlt : s0 % 2 ^ L.w < 2 ^ L.w := Nat.mod_lt _ (by positivity)
  unfold seed wordmask
  rw [if_pos hk]
  simp only [Nat.and_two_pow_sub_one_eq_mod, Nat.one_shiftLeft]
  have hpk : 2 * 2 ^ (L.w - L.k) ≤ 2 ^ L.w := by
    rw [← Nat.pow_succ']; exact Nat.pow_le_pow_right (by omega) (by omega)
  have hpb : 2 ^ L.w ≤ 2 ^ L.bits := Nat.pow_le_pow_right (by omega) h8
  refine ⟨_, rfl, ?_⟩
  split
  · rename_i h
    rw [Nat.mod_eq_of_lt (by omega)]
    refine ⟨by omega, (key _ (by omega)).2 (by omega), fun hs => ?_⟩
    have := (key _ hlt).1 hs
    omega
  · rename_i h
    exact ⟨hlt, (key _ hlt).2 (by omega), fun _ => rfl⟩

example : taus88C.w - taus88C.k ≤ 30 ∧ taus88C.seed 0 = some 16 ∧ taus88C.seed 341 = some 341 := by decide

/-- C14, seeding: false if `w - k > 30`: the shift `1 << (w-k)` of an `int` is not defined, for a valid set
of parameters. -/
theorem c14_seed_false : ∃ L : Lfsr, L.Valid ∧ ∀ s0, L.seed s0 = none :=
  ⟨⟨64, 64, 31, 13, 12⟩, by decide, fun _ => rfl⟩

/-- C14: no number of calls leads from a state with a significant bit to one without. -/
theorem c14_never_zero (L : Lfsr) (hL : L.Valid) (v : Nat) (hv : Significant L.w L.k v) (n : Nat) :
    ∃ vs v', run L.next n v = some (vs, v') ∧ Significant L.w L.k v' := by
  obtain ⟨u, hu, hi, hr⟩ := c13_sequence L hL v
  obtain ⟨vs, v', e, hb⟩ := hr n
  refine ⟨vs, v', e, ?_⟩
  by_contra hc
  have hz : ∀ i, i < L.k → u (n * L.s + i) = false := by
    intro i hik
    rw [← hb i hik]
    by_contra h
    exact hc ⟨i, hik, by simpa using h⟩
  obtain ⟨h1, h2, h3, h4, h5, h6, h7, h8, h9⟩ := hL
  have := tausworthe_back h2 (by omega) hu _ hz
  obtain ⟨i, hik, hbi⟩ := hv
  rw [← hi i hik, this i (by omega)] at hbi
  exact absurd hbi (by simp)

example : Significant 32 31 341 := ⟨23, by decide, by decide⟩

/-- C14, converse: from a state without significant bits only such states are reached, so that the
condition on the seed is needed. -/
theorem c14_zero_stuck (L : Lfsr) (hL : L.Valid) (v : Nat) (hv : ¬ Significant L.w L.k v) (n : Nat) :
    ∃ vs v', run L.next n v = some (vs, v') ∧ ¬ Significant L.w L.k v' := by
  obtain ⟨u, hu, hi, hr⟩ := c13_sequence L hL v
  obtain ⟨vs, v', e, hb⟩ := hr n
  refine ⟨vs, v', e, ?_⟩
  have hz : ∀ n, u n = false := by
    intro n
    induction n using Nat.strong_induction_on with
    | _ n ih =>
      obtain ⟨h1, h2, h3, h4, h5, h6, h7, h8, h9⟩ := hL
      by_cases hn : n < L.k
      · rw [hi n hn]
        by_contra h
        exact hv ⟨n, hn, by simpa using h⟩
      · have := hu (n - L.k)
        rw [show n - L.k + L.k = n by omega, ih (n - L.k + L.q) (by omega), ih (n - L.k) (by omega)] at this
        simpa using this
  rintro ⟨i, hik, hbi⟩
  rw [hb i hik, hz] at hbi
  exact absurd hbi (by simp)

example : ¬ Significant 32 31 1 := by
  unfold Significant topBit
  decide

/-! ## C59: state handling of `linear_feedback_shift_engine` and `taus88` -/

/-- C59: `discard(z)` is `z` calls. -/
theorem c59_discard (L : Lfsr) (z v : Nat) : L.discard z v = stateAfter L.next z v := by
  induction z generalizing v with
  | zero => rfl
  | succ z ih =>
    rw [Nat.add_comm z 1, stateAfter_add, stateAfter_one, Nat.add_comm, Lfsr.discard]
    cases L.next v with
    | none => rfl
    | some p => rw [Option.map_some, Option.bind_some, Option.bind_some, ih]

example : taus88A.discard 2 341 = stateAfter taus88A.next 2 341 ∧ taus88A.discard 1 341 ≠ some 341 := by decide

/-- C59: engines that compare equal have the same future. -/
theorem c59_eq (L : Lfsr) (I : Nat → Prop) : EqOK L.engine I := by
  intro a b _ _ h
  have : a = b := by simpa [Lfsr.engine, Lfsr.eq] using h
  rw [this]; exact SameFuture.refl _

/-- C59: writing and reading back restores every engine. -/
theorem c59_text (L : Lfsr) (hL : L.Valid) : TextOK L.engine fun v => v < 2 ^ L.bits := by
  intro s other hs _ rest
  refine ⟨s, ?_, hs, by simp [Lfsr.engine, Lfsr.eq], SameFuture.refl _⟩
  show L.read ⟨Lfsr.write s ++ rest, true⟩ other = _
  unfold Lfsr.read Lfsr.write
  dsimp only [List.cons_append, List.nil_append]
  rw [readInto_spec (T := ⟨L.bits, false⟩)]
  · simp
  · exact le_trans (by decide) hL.2.2.2.2.2.2.2.2
  · show 0 ≤ (s : Int) ∧ (s : Int) < 2 ^ L.bits
    exact ⟨by positivity, by exact_mod_cast hs⟩

example : taus88A.read ⟨Lfsr.write 4294967295 ++ [Tok.num 5], true⟩ 341 = (⟨[Tok.num 5], true⟩, 4294967295) := by
  decide

/-- C59: every value of `taus88` is the exclusive or of the values of the three components at the same
position, lies in `[0, 2^32-1]`, and no component ever gets stuck at zero. -/
theorem c59_taus88 (a b c : Nat) (ha : Significant 32 31 a) (hb : Significant 32 29 b) (hc : Significant 32 28 c)
    (n : Nat) :
    ∃ xs ys zs vs a' b' c', run taus88A.next n a = some (xs, a') ∧ run taus88B.next n b = some (ys, b') ∧
      run taus88C.next n c = some (zs, c') ∧ run taus88.next n ((a, b), c) = some (vs, ((a', b'), c')) ∧
      Significant 32 31 a' ∧ Significant 32 29 b' ∧ Significant 32 28 c' ∧
      (∀ v ∈ vs, 0 ≤ v ∧ v ≤ 2 ^ 32 - 1) ∧ vs.length = n ∧
      ∀ i, i < n → ∃ x y z : Nat, xs[i]? = some (x : Int) ∧ ys[i]? = some (y : Int) ∧ zs[i]? = some (z : Int) ∧
        vs[i]? = some ((x ^^^ y ^^^ z : Nat) : Int) := by
  have step : ∀ a b c : Nat, taus88.next ((a, b), c) =
      some (((taus88A.stp a ^^^ taus88B.stp b ^^^ taus88C.stp c : Nat) : Int),
        ((taus88A.stp a, taus88B.stp b), taus88C.stp c)) := by
    intro a b c
    have hA := stp_lt taus88A (by decide) a
    have hB := stp_lt taus88B (by decide) b
    have hC := stp_lt taus88C (by decide) c
    simp only [taus88A, taus88B, taus88C] at hA hB hC
    have hAB := Nat.xor_lt_two_pow hA hB
    have hABC := Nat.xor_lt_two_pow hAB hC
    simp only [taus88, taus88Inner, XorCombine.engine, XorCombine.next, Lfsr.engine, next_eq, Option.bind_eq_bind,
      Option.bind_some, XorCombine.value, Int.toNat_natCast, Nat.shiftLeft_zero, taus88A, taus88B, taus88C]
    rw [if_pos (by decide), Option.bind_some, Option.bind_some]
    dsimp only
    rw [if_pos (by decide), Option.bind_some, Int.toNat_natCast, Nat.mod_eq_of_lt hA, Nat.mod_eq_of_lt hB, Nat.mod_eq_of_lt hAB,
      Nat.mod_eq_of_lt hAB, Nat.mod_eq_of_lt hC, Nat.mod_eq_of_lt hABC]
  induction n generalizing a b c with
  | zero => exact ⟨[], [], [], [], a, b, c, rfl, rfl, rfl, rfl, ha, hb, hc, by simp, rfl, by simp⟩
  | succ n ih =>
    have sA : Significant 32 31 (taus88A.stp a) := by
      obtain ⟨vs, v', e, h⟩ := c14_never_zero taus88A (by decide) a ha 1
      rw [run_one, next_eq] at e
      cases e; exact h
    have sB : Significant 32 29 (taus88B.stp b) := by
      obtain ⟨vs, v', e, h⟩ := c14_never_zero taus88B (by decide) b hb 1
      rw [run_one, next_eq] at e
      cases e; exact h
    have sC : Significant 32 28 (taus88C.stp c) := by
      obtain ⟨vs, v', e, h⟩ := c14_never_zero taus88C (by decide) c hc 1
      rw [run_one, next_eq] at e
      cases e; exact h
    obtain ⟨xs, ys, zs, vs, a', b', c', h1, h2, h3, h4, h5, h6, h7, h8, h9, h10⟩ := ih _ _ _ sA sB sC
    refine ⟨_, _, _, _, a', b', c', run_succ_of (next_eq _ _) n |>.trans (by rw [h1]; rfl), run_succ_of (next_eq _ _) n |>.trans (by rw [h2]; rfl),
      run_succ_of (next_eq _ _) n |>.trans (by rw [h3]; rfl), run_succ_of (step a b c) n |>.trans (by rw [h4]; rfl), h5, h6, h7, ?_, by simp [h9], ?_⟩
    · intro v hv
      rcases List.mem_cons.1 hv with rfl | hv
      · have := Nat.xor_lt_two_pow (Nat.xor_lt_two_pow (stp_lt taus88A (by decide) a) (stp_lt taus88B (by decide) b))
          (stp_lt taus88C (by decide) c)
        have : taus88A.stp a ^^^ taus88B.stp b ^^^ taus88C.stp c < 2 ^ 32 := this
        constructor
        · positivity
        · omega
      · exact h8 v hv
    · intro i hi
      cases i with
      | zero => exact ⟨_, _, _, rfl, rfl, rfl, rfl⟩
      | succ i => simpa using h10 i (by omega)

/-- The seeds used by the default constructor are such states, and this is the first value. -/
example : taus88A.seed 341 = some 341 ∧ taus88B.seed 341 = some 341 ∧ taus88C.seed 341 = some 341 ∧
    Significant 32 31 341 ∧ Significant 32 29 341 ∧ Significant 32 28 341 ∧
    (taus88.next ((341, 341), 341)).map Prod.fst = some 45438212 := by
  unfold Significant topBit
  decide

/-- C59: `taus88` engines that compare equal have the same future, and text restores them. -/
theorem c59_taus88_state :
    EqOK taus88 (fun _ => True) ∧ TextOK taus88 (fun st => (st.1.1 < 2 ^ 32 ∧ st.1.2 < 2 ^ 32) ∧ st.2 < 2 ^ 32) := by
  constructor
  · intro a b _ _ h
    exact c56_xor_eq _ _ _ _ _ _ (fun st => (fun _ => True) st.1 ∧ (fun _ => True) st.2) (fun _ => True)
      (c56_xor_eq _ _ _ _ taus88A.engine taus88B.engine _ _ (c59_eq _ (fun _ => True)) (c59_eq _ (fun _ => True))) (c59_eq _ _) a b ⟨⟨trivial, trivial⟩, trivial⟩
      ⟨⟨trivial, trivial⟩, trivial⟩ h
  · exact c56_xor_text _ _ _ _ _ _ _ _
      (c56_xor_text _ _ _ _ _ _ _ _ (c59_text taus88A (by decide)) (c59_text taus88B (by decide)))
      (c59_text taus88C (by decide))

end Boost.Random
