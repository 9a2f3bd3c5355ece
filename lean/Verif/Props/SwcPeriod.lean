import Verif.Props.Ranlux
import Verif.Proofs.SwcPeriod
import Verif.Proofs.RanluxPeriod

/-!
# C127: the period of the subtract-with-carry and ranlux engines
-/

namespace Boost.Random
open Spec Swc

variable {E : Swc}

theorem swcModulus_eq (w s r : Nat) : swcModulus w s r = SwcPeriod.modulus w s r := by
  unfold swcModulus SwcPeriod.modulus
  rw [pow_mul, pow_mul]

theorem HasPeriod.map {α β : Type} {V : Nat → α} {T : Nat} (h : HasPeriod V T) (f : α → β) (hf : ∀ a b, f a = f b → a = b) :
    HasPeriod (fun n => f (V n)) T :=
  ⟨h.1, fun P => Iff.trans ⟨fun h n => hf _ _ (h n), fun h n => congrArg f (h n)⟩ (h.2 P)⟩

theorem alive_of_not_stuck {X C : Nat → Nat} {st : SwcState} (h0 : ∀ j < E.r, X j = swcWindow st j) (hc : C 0 = st.carry)
    (hns : ¬ E.stuck st) : SwcPeriod.Alive E.w E.r X C := by
  refine ⟨fun h => hns (Or.inl ⟨hc ▸ h.1, fun j hj => ?_⟩), fun h => hns (Or.inr ⟨hc ▸ h.1, fun j hj => ?_⟩)⟩
  · rw [← h0 j hj, h.2 j hj]
  · rw [← h0 j hj, h.2 j hj]

theorem ofTable_not_stuck (hv : SwcValid E) (hw : 0 < E.w) (x : List Nat) (hx : x.length = E.r) (hx' : ∀ v ∈ x, v < 2 ^ E.w) :
    ∃ st, E.ofTable x = some st ∧ SwcOK E st ∧ ¬ E.stuck st := by
  have := hv.s_pos
  have := hv.s_lt
  have hM : 2 ≤ 2 ^ E.w := by
    calc 2 = 2 ^ 1 := rfl
      _ ≤ _ := Nat.pow_le_pow_right (by omega) hw
  have e1 := Swc.getElem?_getD (x := x) (j := E.r - 1) (by omega)
  obtain ⟨st, hst⟩ : ∃ st : SwcState, st = ⟨x, if x.getD (E.r - 1) 0 = 0 then 1 else 0, 0⟩ := ⟨_, rfl⟩
  have ha : SwcOK E st := hst ▸ ⟨hx, hx', by dsimp; split <;> omega, by dsimp; omega⟩
  have hof : E.ofTable x = some st := by simp only [ofTable, e1, hst]; rfl
  refine ⟨st, hof, ha, ?_⟩
  have hwin := window_eq ha (show E.r - 1 < E.r by omega)
  simp only [hst, Nat.zero_add, Nat.mod_eq_of_lt (show E.r - 1 < E.r by omega)] at hwin
  rintro (⟨h1, h2⟩ | ⟨h1, h2⟩)
  · have := h2 (E.r - 1) (by omega)
    rw [hst] at this h1
    rw [hwin] at this
    simp only [this] at h1
    simp at h1
  · have := h2 (E.r - 1) (by omega)
    rw [hst] at this h1
    rw [hwin] at this
    rw [if_neg (by omega)] at h1
    simp at h1

/-- **C127.** If `b^r - b^s + 1` is prime, `b = 2^w`, then from every state but the two degenerate ones the values returned repeat after `P` calls
exactly if `b^P` is 1 modulo that prime. -/
theorem c127_period (hv : SwcValid E) (hw : 0 < E.w) (hm : (swcModulus E.w E.s E.r).Prime) (st : SwcState) (h : SwcOK E st)
    (hns : ¬ E.stuck st) :
    ∃ V : Nat → Nat, Produces E.next st V ∧ ∀ P, (∀ n, V (n + P) = V n) ↔ 2 ^ (E.w * P) % swcModulus E.w E.s E.r = 1 := by
  obtain ⟨X, C, h1, h2, h3, hX, hC, hrun⟩ := c15_recurrence hv st h
  refine ⟨fun n => X (n + E.r), fun n => ?_, fun P => ?_⟩
  · obtain ⟨st', e, -⟩ := hrun n
    exact ⟨st', e⟩
  · rw [swcModulus_eq] at hm ⊢
    rw [SwcPeriod.period_iff hw hv.s_lt h1 hX hC hm (alive_of_not_stuck h2 h3 hns) P, ← pow_mul]
    rw [show (2 : ZMod (SwcPeriod.modulus E.w E.s E.r)) ^ (E.w * P) = ((2 ^ (E.w * P) : Nat) : ZMod (SwcPeriod.modulus E.w E.s E.r)) by
      push_cast; rfl, ← Nat.cast_one, ZMod.natCast_eq_natCast_iff, Nat.ModEq, Nat.mod_eq_of_lt hm.one_lt]

/-- `w = 2, s = 1, r = 2`: the modulus is 13, and 4 has order 6 modulo 13. -/
def swcThirteen : Swc := ⟨8, 2, 1, 2⟩
example : SwcValid swcThirteen ∧ (swcModulus 2 1 2).Prime ∧ SwcOK swcThirteen ⟨[1, 2], 0, 0⟩ ∧ ¬ swcThirteen.stuck ⟨[1, 2], 0, 0⟩ ∧
    (run swcThirteen.next 13 ⟨[1, 2], 0, 0⟩).map Prod.fst = some [1, 3, 1, 2, 0, 2, 1, 3, 1, 2, 0, 2, 1] := by
  refine ⟨⟨by decide, by decide, by decide⟩, by norm_num [swcModulus], ⟨rfl, by decide, by decide, by decide⟩, ?_, by decide⟩
  unfold Swc.stuck
  decide

/-- What `c127_period` needs of the order of `b`. -/
theorem hasPeriod_of_order (hv : SwcValid E) (hw : 0 < E.w) {m T : Nat} (hmod : SwcPeriod.modulus E.w E.s E.r = m) (hm : m.Prime)
    (hT : 0 < T) (ho : orderOf ((2 ^ E.w : Nat) : ZMod m) = T) {X C : Nat → Nat} (h1 : IsSwc E.w E.s E.r X C) (hX : ∀ n, X n < 2 ^ E.w)
    (hC : ∀ n, C n ≤ 1) (ha : SwcPeriod.Alive E.w E.r X C) : HasPeriod (fun n => X (n + E.r)) T := by
  subst hmod
  refine ⟨hT, fun P => ?_⟩
  rw [SwcPeriod.period_iff hw hv.s_lt h1 hX hC hm ha P, ← ho, orderOf_dvd_iff_pow_eq_one]
  push_cast
  rfl

theorem ranluxBase_period {X C : Nat → Nat} (h1 : IsSwc 24 10 24 X C) (hX : ∀ n, X n < 2 ^ 24) (hC : ∀ n, C n ≤ 1)
    (ha : SwcPeriod.Alive 24 24 X C) : HasPeriod (fun n => X (n + 24)) ((RanluxPeriod.M - 1) / 48) :=
  hasPeriod_of_order ranluxBase_valid (by decide) (by decide +kernel) RanluxPeriod.M_prime (by decide +kernel) RanluxPeriod.order24 h1 hX hC ha

theorem ranlux48Base_period {X C : Nat → Nat} (h1 : IsSwc 48 5 12 X C) (hX : ∀ n, X n < 2 ^ 48) (hC : ∀ n, C n ≤ 1)
    (ha : SwcPeriod.Alive 48 12 X C) : HasPeriod (fun n => X (n + 12)) ((RanluxPeriod.M - 1) / 96) :=
  hasPeriod_of_order ranlux48Base_valid (by decide) (by decide +kernel) RanluxPeriod.M_prime (by decide +kernel) RanluxPeriod.order48 h1 hX hC ha

theorem RanluxPeriod.M_pred : RanluxPeriod.M - 1 = 2 ^ 576 - 2 ^ 240 := by decide +kernel

/-- **C127**, `ranlux24_base` and `ranlux48_base`: the period is `(2^576 - 2^240) / 48` and `(2^576 - 2^240) / 96`, from every state but the
degenerate ones. -/
theorem c127_ranlux_base (hE : E = ranluxBase ∨ E = ranlux48Base) (st : SwcState) (h : SwcOK E st) (hns : ¬ E.stuck st) :
    ∃ V : Nat → Nat, Produces E.next st V ∧ HasPeriod V ((2 ^ 576 - 2 ^ 240) / (2 * E.w)) := by
  have hv : SwcValid E := by
    rcases hE with rfl | rfl
    · exact ranluxBase_valid
    · exact ranlux48Base_valid
  obtain ⟨X, C, h1, h2, h3, hX, hC, hrun⟩ := c15_recurrence hv st h
  refine ⟨fun n => X (n + E.r), fun n => ?_, ?_⟩
  · obtain ⟨st', e, -⟩ := hrun n
    exact ⟨st', e⟩
  · have ha := alive_of_not_stuck h2 h3 hns
    rw [← RanluxPeriod.M_pred]
    rcases hE with rfl | rfl
    · exact ranluxBase_period h1 hX hC ha
    · exact ranlux48Base_period h1 hX hC ha

/-- **C127**, the `ranlux` engines on these bases: `r` times the period of the base. -/
theorem c127_ranlux (E : Swc) (p r : Nat) (hE : (E, p, r) ∈ ranluxInt) (hb : E.w * E.r = 576) (st : SwcState) (h : SwcOK E st)
    (hns : ¬ E.stuck st) :
    ∃ V : Nat → Int, Produces (DiscardBlock.next p r E.engine) ⟨st, 0⟩ V ∧ HasPeriod V (r * ((2 ^ 576 - 2 ^ 240) / (2 * E.w))) := by
  have hval : (E = ranluxBase ∨ E = ranlux48Base) ∧ 0 < r ∧ r < p ∧ p < 2 ^ 64 ∧
      Nat.Coprime p ((RanluxPeriod.M - 1) / (2 * E.w)) ∧ (p - r) * r < (RanluxPeriod.M - 1) / (2 * E.w) := by
    simp only [ranluxInt, List.mem_cons, Prod.mk.injEq, List.not_mem_nil, or_false] at hE
    rcases hE with ⟨rfl, rfl, rfl⟩ | ⟨rfl, rfl, rfl⟩ | ⟨rfl, rfl, rfl⟩ | ⟨rfl, rfl, rfl⟩ | ⟨rfl, rfl, rfl⟩ | ⟨rfl, rfl, rfl⟩
    · exact ⟨Or.inl rfl, by decide, by decide, by decide, by decide +kernel, by decide +kernel⟩
    · exact ⟨Or.inl rfl, by decide, by decide, by decide, by decide +kernel, by decide +kernel⟩
    · exact absurd hb (by decide)
    · exact absurd hb (by decide)
    · exact ⟨Or.inl rfl, by decide, by decide, by decide, by decide +kernel, by decide +kernel⟩
    · exact ⟨Or.inr rfl, by decide, by decide, by decide, by decide +kernel, by decide +kernel⟩
  obtain ⟨hE', hr, hrp, hp, hc, hT⟩ := hval
  obtain ⟨V, hV, hper⟩ := c127_ranlux_base hE' st h hns
  rw [← RanluxPeriod.M_pred] at hper ⊢
  refine ⟨fun n => (V (n / r * p + n % r) : Int), ?_, ?_⟩
  · refine c31_block p r E.engine st (fun n => (V n : Int)) hr hrp.le hp fun n => ?_
    obtain ⟨st', e⟩ := hV n
    refine ⟨st', ?_⟩
    rw [Swc.run_engine, e, Option.map_some, List.map_map]
    rfl
  · exact HasPeriod.map (RanluxPeriod.block_period hper hr hrp hc hT) (fun n : Nat => (n : Int)) fun a b e => Int.ofNat.inj e

/-- **C127**, `ranlux3_01` and `ranlux4_01`. -/
theorem c127_ranlux_real {fl : ℚ → ℚ} (R : Rounding 24 fl) (p : Nat) (hE : (ranluxBase01, p, 24) ∈ ranlux01) (st : SwcState)
    (h : SwcOK ranluxBase st) (hns : ¬ ranluxBase.stuck st) :
    ∃ V : Nat → ℚ, Produces (DiscardBlock.next p 24 (ranluxBase01.engine fl)) ⟨asFractions 24 st, 0⟩ V ∧
      HasPeriod V (24 * ((2 ^ 576 - 2 ^ 240) / 48)) := by
  have hval : 24 < p ∧ p < 2 ^ 64 ∧ Nat.Coprime p ((RanluxPeriod.M - 1) / 48) ∧ (p - 24) * 24 < (RanluxPeriod.M - 1) / 48 := by
    simp only [ranlux01, List.mem_cons, Prod.mk.injEq, List.not_mem_nil, or_false] at hE
    rcases hE with ⟨-, rfl, -⟩ | ⟨-, rfl, -⟩ | ⟨-, rfl, -⟩ | ⟨-, rfl, -⟩ <;>
      exact ⟨by decide, by decide, by decide +kernel, by decide +kernel⟩
  obtain ⟨hrp, hp, hc, hT⟩ := hval
  obtain ⟨X, C, h1, h2, h3, hX, hC, hrun⟩ := c122_recurrence (E := ranluxBase01) R ranluxBase01_valid st ⟨h.len, h.lt, h.carry, h.k⟩
  have hper := ranluxBase_period h1 hX hC (alive_of_not_stuck (E := ranluxBase) h2 h3 hns)
  rw [← RanluxPeriod.M_pred]
  refine ⟨fun n => (X (n / 24 * p + n % 24 + 24) : ℚ) / 2 ^ 24, ?_, ?_⟩
  · refine c31_block p 24 (ranluxBase01.engine fl) _ (fun n => (X (n + 24) : ℚ) / 2 ^ 24) (by decide) hrp.le hp fun n => ?_
    obtain ⟨st', e, -⟩ := hrun n
    exact ⟨_, e⟩
  · refine HasPeriod.map (RanluxPeriod.block_period hper (by decide) hrp hc hT) (fun n : Nat => (n : ℚ) / 2 ^ 24) fun a b e => ?_
    have : (a : ℚ) = b := by
      have h0 : (2 ^ 24 : ℚ) ≠ 0 := by positivity
      field_simp at e
      exact e
    exact_mod_cast this

/-- **C127**, seeded engines: whatever the table put in by `seed`, the engine has the full period. -/
theorem c127_seeded (E : Swc) (p r : Nat) (hE : (E, p, r) ∈ ranluxInt) (hb : E.w * E.r = 576) (x : List Nat) (hx : x.length = E.r)
    (hx' : ∀ v ∈ x, v < 2 ^ E.w) :
    ∃ st, E.ofTable x = some st ∧ ∃ V : Nat → Int, Produces (DiscardBlock.next p r E.engine) ⟨st, 0⟩ V ∧
      HasPeriod V (r * ((2 ^ 576 - 2 ^ 240) / (2 * E.w))) := by
  have hv : SwcValid E ∧ 0 < E.w := by
    simp only [ranluxInt, List.mem_cons, Prod.mk.injEq, List.not_mem_nil, or_false] at hE
    rcases hE with ⟨rfl, -⟩ | ⟨rfl, -⟩ | ⟨rfl, -⟩ | ⟨rfl, -⟩ | ⟨rfl, -⟩ | ⟨rfl, -⟩ <;>
      first | exact ⟨ranluxBase_valid, by decide⟩ | exact ⟨ranlux64Base_valid, by decide⟩ | exact ⟨ranlux48Base_valid, by decide⟩
  obtain ⟨st, e, ok, hns⟩ := ofTable_not_stuck hv.1 hv.2 x hx hx'
  exact ⟨st, e, c127_ranlux E p r hE hb st ok hns⟩

example : (ranluxBase, 223, 23) ∈ ranluxInt ∧ ranluxBase.w * ranluxBase.r = 576 ∧ (ranlux48Base, 389, 11) ∈ ranluxInt ∧
    ranlux48Base.w * ranlux48Base.r = 576 ∧ (ranluxBase01, 389, 24) ∈ ranlux01 ∧ (List.range 24).length = ranluxBase.r ∧
    ∀ v ∈ List.range 24, v < 2 ^ ranluxBase.w := by
  refine ⟨?_, rfl, ?_, rfl, ?_, rfl, by decide⟩ <;> simp [ranluxInt, ranlux01]

/-- A seed table of `ranlux64_base` whose number is a multiple of `m / 521`. -/
def shortTable : List Nat :=
  [216103628952519, 28633730836208, 194493266057267, 110212850765784, 175043939451540, 211781556373468, 270129536190648, 246898396078252,
   243116582571583, 137766063457230, 218804924314425, 264726945466835, 56186943527654, 238254250920152, 163158239859151, 242576323499202,
   203137411215367, 190171193478216, 70233679409568, 227449069472526, 63210311468611, 232851660196339, 253921764019209, 237713991847770]

theorem shortTable_run : ∃ st', ranlux64Base.ofTable shortTable = some ⟨shortTable, 0, 0⟩ ∧
    stateAfter ranlux64Base.next 65 ⟨shortTable, 0, 0⟩ = some st' ∧ st'.carry = 0 ∧
    ∀ j < 24, swcWindow st' j = swcWindow ⟨shortTable, 0, 0⟩ j := by
  refine ⟨(stateAfter ranlux64Base.next 65 ⟨shortTable, 0, 0⟩).getD ⟨[], 0, 0⟩, ?_, ?_, ?_, ?_⟩ <;> decide +kernel

theorem shortTable_ok : SwcOK ranlux64Base ⟨shortTable, 0, 0⟩ := ⟨rfl, by decide, by decide, by decide⟩

theorem shortTable_sequence {X C : Nat → Nat} (h1 : IsSwc 48 10 24 X C) (h2 : ∀ j < 24, X j = swcWindow ⟨shortTable, 0, 0⟩ j) (h3 : C 0 = 0)
    (n : Nat) : X (n + 65) = X n := by
  obtain ⟨Y, D, a1, a2, a3, -, -, hrun⟩ := c15_recurrence ranlux64Base_valid _ shortTable_ok
  obtain ⟨rfl, rfl⟩ := c15_unique (by decide) (by decide) h1 a1 (fun j hj => (h2 j hj).trans (a2 j hj).symm) (h3.trans a3.symm)
  obtain ⟨st', e, -, hc, hw⟩ := hrun 65
  obtain ⟨st'', -, e', hc', hw'⟩ := shortTable_run
  have : st' = st'' := by
    unfold stateAfter at e'
    rw [e] at e'
    exact Option.some.inj e'
  subst this
  have hs : IsSwc 48 10 24 (fun n => X (n + 65)) (fun n => C (n + 65)) := by
    refine ⟨fun n => ?_, fun n => ?_⟩
    · have := h1.value (n + 65)
      rw [show n + 65 + 24 - 10 = n + 24 - 10 + 65 by omega, show n + 65 + 24 = n + 24 + 65 by omega] at this
      exact this
    · have := h1.borrow (n + 65)
      rw [show n + 65 + 24 - 10 = n + 24 - 10 + 65 by omega, show n + 65 + 1 = n + 1 + 65 by omega] at this
      exact this
  obtain ⟨e1, -⟩ := c15_unique (by decide) (by decide) hs h1 (fun j hj => by
    show X (j + 65) = X j
    rw [Nat.add_comm, ← hw j hj, hw' j hj, h2 j hj]) (by show C (0 + 65) = C 0; rw [Nat.zero_add, ← hc, hc', h3])
  exact congrFun e1 n

/-- **C127 (false for `ranlux64_base`).** There the modulus `2^1152 - 2^480 + 1` is not prime, and a table exists from which the seeded engine
repeats its values after 65 calls; the engines `ranlux64_3` and `ranlux64_4` repeat theirs after 1560 calls. -/
theorem c127_ranlux64_false :
    ¬ (swcModulus 48 10 24).Prime ∧
    ∃ x st, x.length = 24 ∧ (∀ v ∈ x, v < 2 ^ 48) ∧ ranlux64Base.ofTable x = some st ∧
      (∃ V : Nat → Nat, Produces ranlux64Base.next st V ∧ ∀ n, V (n + 65) = V n) ∧
      ∀ p, (ranlux64Base, p, 24) ∈ ranluxInt →
        ∃ V : Nat → Int, Produces (DiscardBlock.next p 24 ranlux64Base.engine) ⟨st, 0⟩ V ∧ ∀ n, V (n + 1560) = V n := by
  refine ⟨fun h => ?_, shortTable, ⟨shortTable, 0, 0⟩, rfl, by decide, shortTable_run.choose_spec.1, ?_, fun p hp => ?_⟩
  · have h521 : 521 ∣ swcModulus 48 10 24 := by decide +kernel
    have hne : (521 : Nat) ≠ swcModulus 48 10 24 := by decide +kernel
    rcases (Nat.dvd_prime h).1 h521 with h | h
    · exact absurd h (by decide)
    · exact hne h
  · obtain ⟨X, C, h1, h2, h3, -, -, hrun⟩ := c15_recurrence ranlux64Base_valid _ shortTable_ok
    refine ⟨fun n => X (n + 24), fun n => ?_, fun n => ?_⟩
    · obtain ⟨st', e, -⟩ := hrun n
      exact ⟨st', e⟩
    · show X (n + 65 + 24) = X (n + 24)
      rw [show n + 65 + 24 = n + 24 + 65 by omega, shortTable_sequence h1 h2 h3]
  · obtain ⟨X, C, h1, h2, h3, hV⟩ := c126_values ranlux64Base p 24 hp _ shortTable_ok
    refine ⟨_, hV, fun n => ?_⟩
    have hmul : ∀ k n, X (n + k * 65) = X n := by
      intro k
      induction k with
      | zero => simp
      | succ k ih => intro n; rw [show n + (k + 1) * 65 = n + k * 65 + 65 by ring, shortTable_sequence h1 h2 h3, ih]
    show ((X ((n + 1560) / 24 * p + (n + 1560) % 24 + 24) : Nat) : Int) = (X (n / 24 * p + n % 24 + 24) : Nat)
    rw [show (n + 1560) / 24 = n / 24 + 65 by omega, show (n + 1560) % 24 = n % 24 by omega,
      show (n / 24 + 65) * p + n % 24 + 24 = n / 24 * p + n % 24 + 24 + p * 65 by ring, hmul]

end Boost.Random
