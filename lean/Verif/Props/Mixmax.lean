import Verif.Proofs.Mixmax
import Verif.Proofs.Adaptors
import Mathlib.LinearAlgebra.Matrix.Notation

namespace Boost.Random
open Spec Mixmax

/-! ## C36 -/

/-- C36: from any well-formed state at the start of its vector (`counter = 1`, as after seeding), calls are
never undefined, keep the state well-formed, and call number `n` returns, modulo `2^61 - 1`, element
`1 + n mod (N-1)` of the vector multiplied `n / (N-1)` times by the MIXMAX matrix with `m = 2^mul + 1`. -/
theorem c36_sequence (mul N : Nat) (hm : 1 ≤ mul) (hm' : mul ≤ 60) (hN : 2 ≤ N) (hN' : N < 2 ^ 31) (S : State)
    (h : MixOK N S) (hc : S.counter = 1) :
    ∃ (V : Nat → Nat) (St : Nat → State), (∀ n, run (Mixmax.next mul) n S = some ((List.range n).map V, St n)) ∧
      ∀ n, MixOK N (St n) ∧
        (V n : ZMod mixP) = ((mixMatrix N (2 ^ mul + 1) ^ (n / (N - 1))).mulVec (mixVec N S.V))
          ⟨1 + n % (N - 1), by have := Nat.mod_lt n (show 0 < N - 1 by omega); omega⟩ := by
  have step : ∀ n (T : State), (MixOK N T ∧ ∃ k, n + 1 = k * (N - 1) + T.counter ∧
      mixVec N T.V = (mixMatrix N (2 ^ mul + 1) ^ k).mulVec (mixVec N S.V)) →
      ∃ v T', Mixmax.next mul T = some (v, T') ∧ (MixOK N T' ∧ ∃ k, n + 1 + 1 = k * (N - 1) + T'.counter ∧
        mixVec N T'.V = (mixMatrix N (2 ^ mul + 1) ^ k).mulVec (mixVec N S.V)) ∧
        (v : ZMod mixP) = ((mixMatrix N (2 ^ mul + 1) ^ (n / (N - 1))).mulVec (mixVec N S.V))
          ⟨1 + n % (N - 1), by have := Nat.mod_lt n (show 0 < N - 1 by omega); omega⟩ := by
    rintro n T ⟨hT, k, hk, hv⟩
    have hcp := hT.counter_pos
    have key : ∀ k r, r < N - 1 → n = k * (N - 1) + r → n / (N - 1) = k ∧ n % (N - 1) = r := by
      intro k r hr e
      rw [e, Nat.mul_comm, Nat.mul_add_div (by omega), Nat.mul_add_mod, Nat.div_eq_of_lt hr, Nat.mod_eq_of_lt hr]
      exact ⟨rfl, rfl⟩
    rcases Nat.lt_or_ge T.counter N with hlt | hge
    · obtain ⟨v, e, _, _, hve, hOK⟩ := next_mid mul N T hT hlt
      obtain ⟨k1, k2⟩ := key k (T.counter - 1) (by omega) (by omega)
      refine ⟨v, _, e, ⟨hOK, k, by simp; omega, hv⟩, ?_⟩
      rw [hve, k1, ← hv]
      congr 1
      apply Fin.ext
      show T.counter = 1 + n % (N - 1)
      omega
    · obtain ⟨v, T', e, _, _, hc2, hve, hOK, _, _, hmat⟩ := next_refill mul N hm hm' hN hN' T hT (by have := hT.counter_le; omega)
      have hTN : T.counter = N := by have := hT.counter_le; omega
      have hn : n = (k + 1) * (N - 1) + 0 := by rw [Nat.add_mul]; omega
      obtain ⟨k1, k2⟩ := key (k + 1) 0 (by omega) hn
      have hv' : mixVec N T'.V = (mixMatrix N (2 ^ mul + 1) ^ (k + 1)).mulVec (mixVec N S.V) := by
        rw [hmat, hv, Matrix.mulVec_mulVec, ← pow_succ']
      refine ⟨v, T', e, ⟨hOK, k + 1, by omega, hv'⟩, ?_⟩
      rw [hve, k1, ← hv']
      congr 1
      apply Fin.ext
      show 1 = 1 + n % (N - 1)
      omega
  have ex : ∀ n, ∃ vs T, run (Mixmax.next mul) n S = some (vs, T) ∧ (MixOK N T ∧ ∃ k, n + 1 = k * (N - 1) + T.counter ∧
      mixVec N T.V = (mixMatrix N (2 ^ mul + 1) ^ k).mulVec (mixVec N S.V)) := by
    intro n
    induction n with
    | zero => exact ⟨[], S, rfl, h, 0, by omega, by simp⟩
    | succ n ih =>
      obtain ⟨vs, T, e, hT⟩ := ih
      obtain ⟨v, T', e', hT', _⟩ := step n T hT
      exact ⟨vs ++ [v], T', by rw [run_add, e, Option.bind_some, run_one, e']; rfl, hT'⟩
  choose vs St hrun hSt using ex
  choose V T' hnext hT' hV using fun n => step n (St n) (hSt n)
  have hsucc : ∀ n, vs (n + 1) = vs n ++ [V n] ∧ St (n + 1) = T' n := by
    intro n
    have := hrun (n + 1)
    rw [run_add, hrun n, Option.bind_some, run_one, hnext] at this
    simp only [Option.map_some, Option.some.injEq, Prod.mk.injEq] at this
    exact ⟨this.1.symm, this.2.symm⟩
  refine ⟨V, St, fun n => ?_, fun n => ⟨(hSt n).1, hV n⟩⟩
  rw [hrun n]
  have : vs n = (List.range n).map V := by
    induction n with
    | zero => have := hrun 0; simp [run] at this; simp [this.1]
    | succ n ih => rw [(hsucc n).1, ih, List.range_succ, List.map_append]; rfl
  rw [this]

/-- The matrix for `N = 4`, as published. -/
example : mixMatrix 4 10 = !![1, 1, 1, 1; 1, 2, 1, 1; 1, 12, 2, 1; 1, 22, 12, 2] := by
  ext i j; fin_cases i <;> fin_cases j <;> rfl

/-- A well-formed state: the first unit vector. -/
theorem mix_unit_ok (N : Nat) (hN : 1 ≤ N) : MixOK N { Mixmax.seedVielbein N 0 with counter := 1 } := by
  obtain ⟨k, rfl⟩ : ∃ k, N = k + 1 := ⟨N - 1, by omega⟩
  have hV : (Mixmax.seedVielbein (k + 1) 0).V = 1 :: List.replicate k 0 := by
    simp [Mixmax.seedVielbein, List.replicate_succ]
  refine ⟨by simp [hV], ?_, by show 1 ≤ 2 ^ 61; decide, ?_, by simp, by simp⟩
  · intro v hv
    simp only [hV, List.mem_cons, List.mem_replicate] at hv
    omega
  · simp only [hV, List.sum_cons, List.sum_replicate]
    simp [Mixmax.seedVielbein]

/-- C36, range (partial): from any well-formed state values never exceed `max() + 2 = 2^61 + 1`. Missing: the
bound `max()` itself, which is exceeded (`c36_range_false`). -/
theorem c36_range_partial (mul N : Nat) (hm : 1 ≤ mul) (hm' : mul ≤ 60) (hN : 2 ≤ N) (hN' : N < 2 ^ 31) (S : State)
    (h : MixOK N S) (n : Nat) :
    ∃ vs S', run (Mixmax.next mul) n S = some (vs, S') ∧ vs.length = n ∧ MixOK N S' ∧
      ∀ v ∈ vs, Mixmax.minv ≤ v ∧ v ≤ Mixmax.maxv + 2 := by
  induction n with
  | zero => exact ⟨[], S, rfl, rfl, h, by simp⟩
  | succ n ih =>
    obtain ⟨vs, S', e, hl, hS', hb⟩ := ih
    have : ∃ v T, Mixmax.next mul S' = some (v, T) ∧ v ≤ 2 ^ 61 + 1 ∧ MixOK N T := by
      rcases Nat.lt_or_ge S'.counter N with hlt | hge
      · obtain ⟨v, e, _, hv, _, hOK⟩ := next_mid mul N S' hS' hlt
        exact ⟨v, _, e, hv, hOK⟩
      · obtain ⟨v, T', e, _, hv, _, _, hOK, _⟩ := next_refill mul N hm hm' hN hN' S' hS' (by have := hS'.counter_le; omega)
        exact ⟨v, _, e, hv, hOK⟩
    obtain ⟨v, T, e', hv, hT⟩ := this
    refine ⟨vs ++ [v], T, by rw [run_add, e, Option.bind_some, run_one, e']; rfl, by simp [hl], hT, ?_⟩
    intro x hx
    rcases List.mem_append.1 hx with hx | hx
    · exact hb x hx
    · rw [List.mem_singleton] at hx
      unfold Mixmax.minv Mixmax.maxv
      omega

example : (run (Mixmax.next 36) 3 { Mixmax.seedVielbein 17 0 with counter := 17 }).map Prod.fst = some [1, 1, 1] := by
  decide

/-- The state used to refute the range claim. -/
def mixWitness : State := ⟨[2 ^ 61 - 10, 2 ^ 61 - 1, 5, 0, 0, 0, 0, 0, 0, 0, 0, 0, 0, 0, 0, 0, 0], 2 ^ 61 - 5, 17⟩

/-- C36, range: false. From this well-formed state of `mixmax`, all of whose elements are below `2^61`, the
second value returned is `2^61`, above `max()`. The state, one call earlier, is accepted by `operator>>`. -/
theorem c36_range_false : MixOK 17 mixWitness ∧ (∀ v ∈ mixWitness.V, v ≤ Mixmax.maxv) ∧
    (∃ v1 v2 S, run (Mixmax.next 36) 2 mixWitness = some ([v1, v2], S) ∧ Mixmax.maxv < v2) ∧
    Mixmax.read ⟨Mixmax.write { mixWitness with counter := 16 }, true⟩ (Mixmax.seedVielbein 17 0) =
      (⟨[], true⟩, { mixWitness with counter := 16 }) := by
  refine ⟨⟨by decide, by decide, by decide, ?_, by decide, by decide⟩, by decide, ?_, by decide⟩
  · exact (ZMod.natCast_eq_natCast_iff' _ _ _).2 (by decide)
  · exact ⟨_, _, _, rfl, by decide⟩

/-! ## C37 -/

theorem mix_read (S other : State) (N : Nat) (rest : List Tok) (hl : S.V.length = N) (ho : other.V.length = N)
    (hN : N < 2 ^ 31) (hb : ∀ v ∈ S.V, v < 2 ^ 64) (hs : S.sumtot < 2 ^ 64) (hc : S.counter ≤ N) :
    Mixmax.read ⟨Mixmax.write S ++ rest, true⟩ other =
      if checkSum S.V = S.sumtot ∧ 0 < S.counter ∧ S.counter < N then (⟨rest, true⟩, S) else (⟨rest, false⟩, other) := by
  have inty : ∀ v : Nat, v < 2 ^ 64 → InTy ⟨64, false⟩ (v : Int) := by
    intro v hv
    show 0 ≤ (v : Int) ∧ (v : Int) < 2 ^ 64
    exact ⟨by positivity, by exact_mod_cast hv⟩
  unfold Mixmax.read Mixmax.write
  dsimp only [List.cons_append, List.nil_append, List.append_assoc]
  rw [readInto_spec (by decide) (inty _ (by omega))]
  dsimp only
  rw [readInto_spec (by decide) (inty _ (by omega))]
  dsimp only
  rw [readInto_spec (by decide) (inty _ hs)]
  dsimp only
  have e : (S.V.map fun v : Nat => Tok.num v) = (S.V.map fun v : Nat => (v : Int)).map Tok.num := by
    rw [List.map_map]; rfl
  rw [e, readList_spec (by decide) (S.V.map fun v : Nat => (v : Int)) _ (by simp [hl, ho])]
  · dsimp only
    have e2 : (S.V.map fun v : Nat => (v : Int)).map Int.toNat = S.V := by
      rw [List.map_map]
      exact (List.map_congr_left fun v _ => by simp).trans (List.map_id _)
    rw [e2, Int.toNat_natCast, Int.toNat_natCast, ho]
  · intro v hv
    obtain ⟨w, hw, rfl⟩ := List.mem_map.1 hv
    exact inty w (hb w hw)

/-- C37 (partial): writing and reading back, into any engine, restores every state whose counter is below `N`
and whose stored sum is the one recomputed by `operator>>`, and leaves the stream good behind the text. The
second condition holds after seeding (`c37_seeded`) and after every refill that gives elements in the proper
range (`c37_refilled`). Missing: the counter `N`, for which the claim is false (`c37_round_trip_false`). -/
theorem c37_round_trip_partial (N : Nat) (hN : N < 2 ^ 31) (S other : State) (h : MixOK N S) (ho : other.V.length = N)
    (hc : S.counter < N) (hsum : checkSum S.V = S.sumtot) (rest : List Tok) :
    Mixmax.read ⟨Mixmax.write S ++ rest, true⟩ other = (⟨rest, true⟩, S) := by
  rw [mix_read S other N rest h.len ho hN (fun v hv => by have := h.bound v hv; omega) (by have := h.sum_le; omega) h.counter_le,
    if_pos ⟨hsum, h.counter_pos, hc⟩]

example : MixOK 17 { mixWitness with counter := 16 } ∧ checkSum mixWitness.V = mixWitness.sumtot :=
  ⟨⟨by decide, by decide, by decide, (ZMod.natCast_eq_natCast_iff' _ _ _).2 (by decide), by decide, by decide⟩, by decide⟩

/-- C37: the state left by a refill reads back, if its elements are at most `max()`. -/
theorem c37_refilled (mul N : Nat) (hm : 1 ≤ mul) (hm' : mul ≤ 60) (hN : 3 ≤ N) (hN' : N < 2 ^ 31) (S other : State)
    (h : MixOK N S) (hc : S.counter = N) (ho : other.V.length = N) (rest : List Tok) :
    ∃ v S', Mixmax.next mul S = some (v, S') ∧ ((∀ v ∈ S'.V, v ≤ Mixmax.maxv) →
      checkSum S'.V = S'.sumtot ∧ Mixmax.read ⟨Mixmax.write S' ++ rest, true⟩ other = (⟨rest, true⟩, S')) := by
  obtain ⟨v, S', e, _, _, hc2, _, hOK, hV, hs, _⟩ := next_refill mul N hm hm' (by omega) hN' S h hc
  refine ⟨v, S', e, fun hb => ?_⟩
  obtain ⟨i1, i2, i3, i4, i5, i6⟩ := iterate_spec mul hm hm' N (by omega) hN' S.V S.sumtot h.len h.bound h.sum_le h.sum_eq
  rw [← hV] at i1 i2 i4 i5
  rw [← hs] at i3 i4 i5
  obtain ⟨c1, c2, c3⟩ := checkSum_spec S'.V 0 (by decide) hb
  have hsum : checkSum S'.V = S'.sumtot := by
    refine eq_of_cast c1 i3 ?_ ?_
    · rw [i4]; exact c2.trans (by simp)
    · rw [i5]; exact c3.trans (by simp)
  exact ⟨hsum, c37_round_trip_partial N hN' S' other hOK ho (by omega) hsum rest⟩

example : ∃ v S', Mixmax.next 36 { Mixmax.seedVielbein 17 0 with counter := 17 } = some (v, S') ∧
    (∀ v ∈ S'.V, v ≤ Mixmax.maxv) ∧ S'.sumtot = 17 := ⟨_, _, rfl, by decide, by decide⟩

/-- C37: the sum stored by the seeding functions is the one recomputed by `operator>>`. -/
theorem c37_seeded (mul N a b c d : Nat) (table : List (List Nat)) (S : State)
    (h : seedUniquestream mul table N a b c d = some S) : checkSum S.V = S.sumtot ∧ S.counter = 1 := by
  unfold seedUniquestream at h
  simp only [Option.bind_eq_bind] at h
  obtain ⟨⟨V, s⟩, h1, h2⟩ := Option.bind_eq_some_iff.1 h
  dsimp only at h2
  cases h2
  unfold applyBigskip at h1
  simp only [Option.bind_eq_bind] at h1
  obtain ⟨_, _, h1⟩ := Option.bind_eq_some_iff.1 h1
  obtain ⟨_, _, h1⟩ := Option.bind_eq_some_iff.1 h1
  obtain ⟨_, _, h1⟩ := Option.bind_eq_some_iff.1 h1
  obtain ⟨_, _, h1⟩ := Option.bind_eq_some_iff.1 h1
  cases h1
  exact ⟨rfl, rfl⟩

example : seedUniquestream 36 [] 17 0 0 0 0 = some { seedVielbein 17 0 with counter := 1 } := by decide

/-- C37 is false: with the counter at `N` the text is rejected. That is the state of every engine `N - 1` calls
after seeding, and again every `N - 1` calls later. -/
theorem c37_round_trip_false (N : Nat) (hN : N < 2 ^ 31) (S other : State) (h : MixOK N S) (ho : other.V.length = N)
    (hc : S.counter = N) (rest : List Tok) :
    Mixmax.read ⟨Mixmax.write S ++ rest, true⟩ other = (⟨rest, false⟩, other) := by
  rw [mix_read S other N rest h.len ho hN (fun v hv => by have := h.bound v hv; omega) (by have := h.sum_le; omega) h.counter_le,
    if_neg (by omega)]

theorem c37_reached_false (mul N : Nat) (hN : 2 ≤ N) (S : State) (h : MixOK N S) (hc : S.counter = 1) :
    ∃ vs S', run (Mixmax.next mul) (N - 1) S = some (vs, S') ∧ MixOK N S' ∧ S'.counter = N := by
  have : ∀ k, k ≤ N - 1 → ∃ vs, run (Mixmax.next mul) k S = some (vs, { S with counter := 1 + k }) ∧
      MixOK N { S with counter := 1 + k } := by
    intro k
    induction k with
    | zero => intro _; exact ⟨[], by rw [← hc]; rfl, by rw [show 1 + 0 = S.counter by omega]; exact h⟩
    | succ k ih =>
      intro hk
      obtain ⟨vs, e, hOK⟩ := ih (by omega)
      obtain ⟨v, e', _, _, _, hOK'⟩ := next_mid mul N _ hOK (by simp; omega)
      exact ⟨vs ++ [v], by rw [run_add, e, Option.bind_some, run_one, e']; rfl, hOK'⟩
  obtain ⟨vs, e, hOK⟩ := this (N - 1) (le_refl _)
  exact ⟨vs, _, e, hOK, by simp; omega⟩

/-- C37: `operator==` holds exactly for equal states. -/
theorem c37_eq (a b : State) : Mixmax.eq a b = true ↔ a = b := by
  cases a; cases b
  simp [Mixmax.eq]
  tauto

example : Mixmax.eq mixWitness { mixWitness with counter := 16 } = false := by decide

/-- C37: `discard(n)` is `n` calls. -/
theorem c37_discard (mul z : Nat) (S : State) : Mixmax.discard mul z S = stateAfter (Mixmax.next mul) z S := by
  induction z generalizing S with
  | zero => rfl
  | succ z ih =>
    rw [Nat.add_comm z 1, stateAfter_add, stateAfter_one, Nat.add_comm, Mixmax.discard]
    cases Mixmax.next mul S with
    | none => rfl
    | some p => rw [Option.map_some, Option.bind_some, Option.bind_some, ih]

example : (Mixmax.discard 36 3 mixWitness).map (fun S => S.counter) = some 4 := by decide

/-! ## C61 -/

/-- C61: the MIXMAX matrix is injective modulo `2^61 - 1`, for every `m = 2^mul + 1` and size. -/
theorem c61_matrix_injective (mul N : Nat) (hm : 1 ≤ mul) (hm' : mul ≤ 60) (hN : 1 ≤ N) (hN' : N < 2 ^ 31) :
    Function.Injective (mixMatrix N (2 ^ mul + 1)).mulVec := by
  intro x y h
  have := matrix_inj mul hm hm' N hN hN' (x - y) (by rw [Matrix.mulVec_sub, h, sub_self])
  exact sub_eq_zero.1 this

/-- C61: if the vector is not zero modulo `2^61 - 1`, no number of calls makes it zero. -/
theorem c61_never_zero (mul N : Nat) (hm : 1 ≤ mul) (hm' : mul ≤ 60) (hN : 2 ≤ N) (hN' : N < 2 ^ 31) (S : State)
    (h : MixOK N S) (hne : mixVec N S.V ≠ 0) (n : Nat) :
    ∃ vs S', run (Mixmax.next mul) n S = some (vs, S') ∧ MixOK N S' ∧ mixVec N S'.V ≠ 0 := by
  induction n with
  | zero => exact ⟨[], S, rfl, h, hne⟩
  | succ n ih =>
    obtain ⟨vs, T, e, hT, hz⟩ := ih
    have : ∃ v T', Mixmax.next mul T = some (v, T') ∧ MixOK N T' ∧ mixVec N T'.V ≠ 0 := by
      rcases Nat.lt_or_ge T.counter N with hlt | hge
      · obtain ⟨v, e, _, _, _, hOK⟩ := next_mid mul N T hT hlt
        exact ⟨v, _, e, hOK, hz⟩
      · obtain ⟨v, T', e, _, _, _, _, hOK, _, _, hmat⟩ := next_refill mul N hm hm' hN hN' T hT (by have := hT.counter_le; omega)
        refine ⟨v, T', e, hOK, fun h0 => hz ?_⟩
        rw [hmat] at h0
        exact matrix_inj mul hm hm' N (by omega) hN' _ h0
    obtain ⟨v, T', e', hT', hz'⟩ := this
    exact ⟨vs ++ [v], T', by rw [run_add, e, Option.bind_some, run_one, e']; rfl, hT', hz'⟩

example : mixVec 17 mixWitness.V ≠ 0 := by
  intro h
  have := congrFun h 2
  revert this
  decide

end Boost.Random
