import Verif.Props.LagPeriod
import Verif.Props.Lcg
import Verif.Props.Adaptors
import Verif.Proofs.IcgPeriod

/-!
# The lengths of the cycles of the congruential engines

C141: the inversive congruential engines. C142: the numbers returned by the linear congruential engines, `rand48` and `ecuyer1988`.
-/

namespace Boost.Random
open Spec

/-! ## C141: the inversive congruential engines -/

theorem lucas_cast (p a b n : Nat) : ((lucas a b n : Nat) : ZMod p) = lucas (a : ZMod p) (b : ZMod p) n := by
  induction n using Nat.twoStepInduction with
  | zero => simp [lucas]
  | one => simp [lucas]
  | more n h1 h2 => simp only [lucas]; push_cast; rw [h1, h2]

theorem maximal_iff (p a b : Nat) [Fact p.Prime] : InversiveMaximal p a b ↔ ∀ n, 0 < n → n ≤ Fintype.card (ZMod p) → lucas (a : ZMod p) (b : ZMod p) n ≠ 0 := by
  rw [ZMod.card]
  refine forall_congr' fun n => forall_congr' fun _ => forall_congr' fun _ => not_congr ?_
  rw [← lucas_cast, ZMod.natCast_eq_zero_iff]

theorem icg_calls (E : Icg) [Fact E.p.Prime] (h : IcgValid E) (n x : Nat) (hx : x < E.p) :
    ∃ y, calls E.next n x = some y ∧ y < E.p ∧ (y : ZMod E.p) = (Icg.inv (E.a : ZMod E.p) (E.b : ZMod E.p))^[n] (x : ZMod E.p) := by
  induction n generalizing x with
  | zero => exact ⟨x, rfl, hx, rfl⟩
  | succ n ih =>
    obtain ⟨y, e, hy, hz⟩ := c12_next_partial E h x hx
    obtain ⟨z, e2, hz1, hz2⟩ := ih y hy
    refine ⟨z, by simp [calls, e, e2], hz1, ?_⟩
    rw [hz2, hz, Function.iterate_succ_apply]
    rfl

theorem icg_a_ne (E : Icg) (h : IcgValid E) (ha : E.a ≠ 0) : (E.a : ZMod E.p) ≠ 0 := fun h0 =>
  absurd (Nat.le_of_dvd (by omega) ((ZMod.natCast_eq_zero_iff _ _).1 h0)) (by have := h.a_lt; omega)

theorem icg_reach_iff (E : Icg) [Fact E.p.Prime] (h : IcgValid E) {n x v : Nat} (hx : x < E.p) (hv : v < E.p) :
    calls E.next n x = some v ↔ (Icg.inv (E.a : ZMod E.p) (E.b : ZMod E.p))^[n] (x : ZMod E.p) = v := by
  obtain ⟨y, e, hy, hz⟩ := icg_calls E h n x hx
  rw [e, Option.some.injEq, ← hz]
  constructor
  · rintro rfl; rfl
  · intro e'
    have := (ZMod.natCast_eq_natCast_iff' _ _ _).1 e'
    rwa [Nat.mod_eq_of_lt hy, Nat.mod_eq_of_lt hv] at this

/-- **C141.** An inversive congruential engine visits all `p` numbers, from each of them, each exactly once in `p` calls, exactly if its
parameters meet the condition of Chou (`IcgValid`: the moduli for which the modular multiplication is exact, C02). -/
theorem c141_full_period (E : Icg) (h : IcgValid E) (ha : E.a ≠ 0) :
    (∀ x v, x < E.p → v < E.p → ∃! n, n < E.p ∧ calls E.next n x = some v) ↔ InversiveMaximal E.p E.a E.b := by
  have : Fact E.p.Prime := ⟨h.prime⟩
  have hcard : Fintype.card (ZMod E.p) = E.p := ZMod.card _
  constructor
  · intro hr
    refine (maximal_iff _ _ _).2 (Icg.lucas_ne_of_reach fun y => ?_)
    obtain ⟨n, ⟨hn, e⟩, -⟩ := hr E.b y.val h.b_lt (ZMod.val_lt y)
    rw [icg_reach_iff E h h.b_lt (ZMod.val_lt y), ZMod.natCast_zmod_val] at e
    exact ⟨n, by rw [hcard]; exact hn, e⟩
  · intro hm x v hx hv
    have := Icg.reach (icg_a_ne E h ha) ((maximal_iff _ _ _).1 hm) (x : ZMod E.p) (v : ZMod E.p)
    rw [hcard] at this
    simp only [icg_reach_iff E h hx hv]
    exact this

/-- A small engine that meets the condition, one that does not. -/
example : IcgValid ⟨⟨32, false⟩, 3, 1, 5⟩ ∧ InversiveMaximal 5 3 1 ∧ ¬ InversiveMaximal 5 1 1 :=
  ⟨⟨⟨by decide, by decide⟩, by decide, by decide, by decide, by decide, Or.inl (by decide)⟩, fun n h1 h2 => by interval_cases n <;> decide,
    fun h => h 5 (by decide) (by decide) (by decide)⟩

/-! ### Cycles and periods -/

/-- If a map leads from every number of a set to every other one by exactly one number of steps below `N`, its sequences have the period `N`. -/
theorem hasPeriod_of_reach {f : Nat → Nat} {S : Nat → Prop} {N : Nat} (hN : 0 < N) (hf : ∀ x, S x → S (f x))
    (h : ∀ x v, S x → S v → ∃! n, n < N ∧ f^[n] x = v) (x : Nat) (hx : S x) :
    HasPeriod (fun n => f^[n + 1] x) N := by
  have hS : ∀ n y, S y → S (f^[n] y) := fun n => by
    induction n with
    | zero => exact fun y hy => hy
    | succ n ih => exact fun y hy => ih _ (hf y hy)
  have hper : ∀ y, S y → Function.IsPeriodicPt f N y := fun y hy => by
    obtain ⟨n, ⟨hn, e⟩, -⟩ := h (f y) y (hf y hy) hy
    rw [← Function.iterate_succ_apply] at e
    rcases Nat.lt_or_ge (n + 1) N with hl | hl
    · have := (h y y hy hy).unique ⟨hl, e⟩ ⟨hN, rfl⟩
      omega
    · rwa [show n.succ = N by omega] at e
  refine ⟨hN, fun P => ⟨fun hP => ?_, fun hd n => ?_⟩⟩
  · have e := hP 0
    have hy := hf x hx
    simp only [zero_add, Function.iterate_one] at e
    rw [Function.iterate_succ_apply, ← (hper _ hy).iterate_mod_apply] at e
    have := (h _ _ hy hy).unique ⟨Nat.mod_lt P hN, e⟩ ⟨hN, rfl⟩
    exact Nat.dvd_of_mod_eq_zero this
  · show f^[n + P + 1] x = f^[n + 1] x
    rw [show n + P + 1 = P + (n + 1) by ring, Function.iterate_add_apply]
    obtain ⟨k, rfl⟩ := hd
    exact (hper _ (hS _ x hx)).mul_const k

/-- The engines whose value is their state. -/
theorem returns_of_step {next : Nat → Option Nat} {f : Nat → Nat} {S : Nat → Prop} (hf : ∀ x, S x → S (f x)) (hn : ∀ x, S x → next x = some (f x)) (x : Nat) (hx : S x) :
    Returns (fun x => (next x).map fun y => (y, y)) x fun n => f^[n + 1] x := by
  intro k
  refine ⟨f^[k] x, ?_⟩
  induction k generalizing x with
  | zero => rfl
  | succ k ih =>
    rw [run, hn x hx]
    simp only [Option.map_some, Option.bind_eq_bind, Option.bind_some]
    rw [ih (f x) (hf x hx)]
    simp only [Option.bind_some, Option.some.injEq, Prod.mk.injEq]
    refine ⟨?_, rfl⟩
    rw [List.range_succ_eq_map, List.map_cons, List.map_map]
    rfl

/-- **C141.** Under the condition of Chou the numbers returned have the period `p`, from every state. -/
theorem c141_period (E : Icg) (h : IcgValid E) (ha : E.a ≠ 0) (hm : InversiveMaximal E.p E.a E.b) (x : Nat) (hx : x < E.p) :
    ∃ out, Returns (fun x => (E.next x).map fun y => (y, y)) x out ∧ HasPeriod out E.p := by
  have hr := (c141_full_period E h ha).2 hm
  have hn : ∀ x, x < E.p → E.next x = some ((E.next x).getD 0) ∧ (E.next x).getD 0 < E.p := fun x hx => by
    obtain ⟨y, e, hy, -⟩ := c12_next_partial E h x hx
    rw [e]
    exact ⟨rfl, hy⟩
  have hc : ∀ n x, x < E.p → calls E.next n x = some ((fun x => (E.next x).getD 0)^[n] x) := fun n => by
    induction n with
    | zero => exact fun x _ => rfl
    | succ n ih =>
      intro x hx
      rw [calls, (hn x hx).1, Option.bind_some, ih _ (hn x hx).2]
      rfl
  refine ⟨_, returns_of_step (S := (· < E.p)) (fun x hx => (hn x hx).2) (fun x hx => (hn x hx).1) x hx,
    hasPeriod_of_reach (S := (· < E.p)) h.prime.pos (fun x hx => (hn x hx).2) (fun x v hx hv => ?_) x hx⟩
  have := hr x v hx hv
  simp only [hc _ x hx, Option.some.injEq] at this
  exact this

/-- `(u n, u (n + 1))` modulo `p` from `(u m, u (m + 1))`, `n = 2 m`. -/
def lucasDouble (p a b : Nat) (s : Nat × Nat) : Nat × Nat :=
  (s.1 * (2 * s.2 + (p - b) * s.1) % p, (s.2 * s.2 + a * (s.1 * s.1)) % p)

theorem lucasDouble_spec (p a b : Nat) [Fact p.Prime] (hb : b ≤ p) (k : Nat) :
    (((lucasDouble p a b)^[k] (1, b)).1 : ZMod p) = lucas (a : ZMod p) (b : ZMod p) (2 ^ k) ∧
    (((lucasDouble p a b)^[k] (1, b)).2 : ZMod p) = lucas (a : ZMod p) (b : ZMod p) (2 ^ k + 1) := by
  induction k with
  | zero => simp [lucas]
  | succ k ih =>
    obtain ⟨e1, e2⟩ := Icg.lucas_two_mul (a := (a : ZMod p)) (b := (b : ZMod p)) (2 ^ k)
    rw [Function.iterate_succ_apply', pow_succ', e1, e2, ← ih.1, ← ih.2]
    generalize (lucasDouble p a b)^[k] (1, b) = s
    unfold lucasDouble
    simp only [ZMod.natCast_mod]
    push_cast [Nat.cast_sub hb, ZMod.natCast_self]
    constructor <;> ring

/-- **C141.** The parameters of `hellekalek1995` meet the condition. -/
theorem c141_hellekalek : InversiveMaximal hellekalek1995.p hellekalek1995.a hellekalek1995.b := by
  have : Fact (Nat.Prime hellekalek1995.p) := ⟨M31_prime⟩
  have ha : ((hellekalek1995.a : Nat) : ZMod hellekalek1995.p) ≠ 0 := fun h0 => absurd ((ZMod.natCast_eq_zero_iff _ _).1 h0) (by decide)
  have h31 : lucas (hellekalek1995.a : ZMod hellekalek1995.p) (hellekalek1995.b : ZMod hellekalek1995.p) (2 ^ 31) = 0 := by
    rw [← (lucasDouble_spec _ _ _ (by decide) 31).1, ZMod.natCast_eq_zero_iff]
    decide +kernel
  have h30 : lucas (hellekalek1995.a : ZMod hellekalek1995.p) (hellekalek1995.b : ZMod hellekalek1995.p) (2 ^ 30) ≠ 0 := by
    rw [← (lucasDouble_spec _ _ _ (by decide) 30).1, Ne, ZMod.natCast_eq_zero_iff]
    decide +kernel
  refine (maximal_iff _ _ _).2 fun n hn hle hz => h30 ?_
  rw [ZMod.card] at hle
  have hg := Icg.lucas_gcd ha hz h31
  obtain ⟨j, hj, e⟩ := (Nat.dvd_prime_pow Nat.prime_two).1 (Nat.gcd_dvd_right n (2 ^ 31))
  have hj' : j ≤ 30 := by
    by_contra hc
    have : j = 31 := by omega
    subst this
    have := Nat.le_of_dvd hn (e ▸ Nat.gcd_dvd_left n (2 ^ 31))
    have : hellekalek1995.p = 2 ^ 31 - 1 := by decide
    omega
  rw [e] at hg
  have := Icg.lucas_mul ha hg (2 ^ (30 - j))
  rwa [← pow_add, Nat.add_sub_cancel' hj'] at this

theorem hellekalek_valid : IcgValid hellekalek1995 :=
  ⟨⟨by decide, by decide⟩, by decide, M31_prime, by decide, by decide, Or.inl (by decide)⟩

/-- **C141.** `hellekalek1995` has the documented length of cycle, `2^31 - 1`, from every state: every number of the range is returned exactly once. -/
theorem c141_hellekalek_period (x : Nat) (hx : x < 2 ^ 31 - 1) :
    (∃ out, Returns (fun x => (hellekalek1995.next x).map fun y => (y, y)) x out ∧ HasPeriod out (2 ^ 31 - 1)) ∧
    ∀ v, v < 2 ^ 31 - 1 → ∃! n, n < 2 ^ 31 - 1 ∧ calls hellekalek1995.next n x = some v :=
  ⟨c141_period hellekalek1995 hellekalek_valid (by decide) c141_hellekalek x hx,
    fun v hv => (c141_full_period hellekalek1995 hellekalek_valid (by decide)).2 c141_hellekalek x v hx hv⟩

example : calls hellekalek1995.next 1 0 = some (2147483647 - 36884165) ∧ calls hellekalek1995.next 1 1 = some (2147483647 - 36884165 + 9102) := by decide

/-! ## C142: the linear congruential engines -/

theorem returns_of_iterate {σ α : Type} {next : σ → Option (α × σ)} {g : σ → σ} {o : σ → α} {I : σ → Prop} (hg : ∀ s, I s → I (g s))
    (hn : ∀ s, I s → next s = some (o s, g s)) (s : σ) (hs : I s) : Returns next s fun n => o (g^[n] s) := by
  intro k
  refine ⟨g^[k] s, ?_⟩
  induction k generalizing s with
  | zero => rfl
  | succ k ih =>
    rw [run, hn s hs]
    simp only [Option.bind_eq_bind, Option.bind_some]
    rw [ih (g s) (hg s hs)]
    simp only [Option.bind_some, Option.some.injEq, Prod.mk.injEq]
    refine ⟨?_, rfl⟩
    rw [List.range_succ_eq_map, List.map_cons, List.map_map]
    rfl

/-- **C142.** A linear congruential engine that meets the conditions of Hull and Dobell returns numbers of period `m`, from every state. -/
theorem c142_hull_dobell (E : Lcg) (h : LcgValid E) (hd : HullDobell E.a E.c (modulus E.T E.m)) (x : Nat) (hx : x < modulus E.T E.m) :
    ∃ out, Returns (fun x => (E.next x).map fun y => (y, y)) x out ∧ HasPeriod out (modulus E.T E.m) := by
  have hp := ConstMod.modulus_pos E.T E.m
  refine ⟨_, returns_of_step (S := (· < modulus E.T E.m)) (fun x _ => Nat.mod_lt _ hp) (fun x hx => Lcg.next_spec h x hx) x hx,
    hasPeriod_of_reach (S := (· < modulus E.T E.m)) hp (fun x _ => Nat.mod_lt _ hp) (fun x v hx hv => ?_) x hx⟩
  exact lcg_full_period E.a E.c _ hp.ne' hd x v hx hv

/-- The multiplicative engines. -/
theorem mlcg_period (E : Lcg) (h : LcgValid E) (hc : E.c = 0) (p : Nat) (hm : modulus E.T E.m = p) [hp : Fact p.Prime] (ho : orderOf (E.a : ZMod p) = p - 1) (x : Nat) (h0 : 0 < x)
    (hx : x < p) : ∃ out, Returns (fun x => (E.next x).map fun y => (y, y)) x out ∧ HasPeriod out (p - 1) := by
  have h2 := hp.out.two_le
  have ha : ¬ p ∣ E.a := fun hd => by
    have e : (E.a : ZMod p) = 0 := (ZMod.natCast_eq_zero_iff _ _).2 hd
    rw [e] at ho
    by_cases h3 : p = 2
    · subst h3
      rw [orderOf_eq_one_iff] at ho
      exact zero_ne_one ho
    · have := orderOf_pos_iff.1 (by rw [ho]; omega : 0 < orderOf (0 : ZMod p))
      rw [isOfFinOrder_iff_pow_eq_one] at this
      obtain ⟨n, hn, e⟩ := this
      rw [zero_pow (by omega)] at e
      exact zero_ne_one e
  have hs : ∀ y, 0 < y ∧ y < p → 0 < lcgStep E.a 0 p y ∧ lcgStep E.a 0 p y < p := fun y ⟨hy0, hy⟩ => by
    refine ⟨?_, Nat.mod_lt _ hp.out.pos⟩
    rw [lcgStep, add_zero, Nat.pos_iff_ne_zero, Ne, ← Nat.dvd_iff_mod_eq_zero, hp.out.dvd_mul]
    rintro (hh | hh)
    · exact ha hh
    · exact Nat.not_dvd_of_pos_of_lt hy0 hy hh
  refine ⟨_, returns_of_step (S := fun y => 0 < y ∧ y < p) (f := lcgStep E.a 0 p) hs (fun y hy => ?_) x ⟨h0, hx⟩,
    hasPeriod_of_reach (S := fun y => 0 < y ∧ y < p) (by omega) hs (fun x v hx hv => ?_) x ⟨h0, hx⟩⟩
  · have := Lcg.next_spec h y (hm ▸ hy.2)
    rw [this, hm, hc]
  · exact mlcg_full_period p E.a ho x v hx.1 hx.2 hv.1 hv.2

/-- **C142.** The lengths of cycle of `minstd_rand0` and `minstd_rand` are the documented ones, from every state. -/
theorem c142_minstd (x : Nat) (h0 : 0 < x) (hx : x < 2 ^ 31 - 1) :
    (∃ out, Returns (fun x => (minstdRand0.next x).map fun y => (y, y)) x out ∧ HasPeriod out (2 ^ 31 - 2)) ∧
    ∃ out, Returns (fun x => (minstdRand.next x).map fun y => (y, y)) x out ∧ HasPeriod out (2 ^ 31 - 2) := by
  have : Fact (Nat.Prime 2147483647) := ⟨M31_prime⟩
  exact ⟨mlcg_period minstdRand0 minstdRand0_valid rfl 2147483647 rfl (order_M31 16807 (by decide +kernel)) x h0 hx,
    mlcg_period minstdRand minstdRand_valid rfl 2147483647 rfl (order_M31 48271 (by decide +kernel)) x h0 hx⟩

/-! ### rand48 -/

theorem lcgStep_mod (a c M K : Nat) (hd : M ∣ K) (x : Nat) (n : Nat) : (lcgStep a c K)^[n] x % M = (lcgStep a c M)^[n] (x % M) % M := by
  induction n generalizing x with
  | zero => simp
  | succ n ih =>
    rw [Function.iterate_succ_apply, Function.iterate_succ_apply, ih]
    congr 2
    unfold lcgStep
    rw [Nat.mod_mod_of_dvd _ hd, Nat.add_mod, Nat.mul_mod, Nat.add_mod (a * (x % M)), Nat.mul_mod a (x % M), Nat.mod_mod]

/-- Shifting out bits does not shorten the period of a congruential sequence modulo a power of two. -/
theorem lcg_top_period (k s a c : Nat) (hk : 1 ≤ k) (hs : s ≤ k) (ha : a % 4 = 1) (hc : c % 2 = 1) (x : Nat) (hx : x < 2 ^ (k + 1)) :
    HasPeriod (fun n => (lcgStep a c (2 ^ (k + 1)))^[n + 1] x / 2 ^ s) (2 ^ (k + 1)) := by
  have per : ∀ j, 1 ≤ j → ∀ x, x < 2 ^ j → HasPeriod (fun n => (lcgStep a c (2 ^ j))^[n + 1] x) (2 ^ j) := fun j hj x hx =>
    hasPeriod_of_reach (S := (· < 2 ^ j)) (Nat.two_pow_pos j) (fun x _ => Nat.mod_lt _ (Nat.two_pow_pos j))
      (fun x v hx hv => lcg_full_period_two_pow j a c hj ha hc x v hx hv) x hx
  have h1 := per (k + 1) (by omega) x hx
  have hN : ∀ n, (lcgStep a c (2 ^ (k + 1)))^[n + 2 ^ (k + 1) + 1] x / 2 ^ s = (lcgStep a c (2 ^ (k + 1)))^[n + 1] x / 2 ^ s := fun n => by
    exact congrArg (· / 2 ^ s) ((h1.2 _).2 dvd_rfl n)
  refine ⟨Nat.two_pow_pos _, fun P => ⟨fun hP => ?_, fun hd n => ?_⟩⟩
  · by_contra hnd
    have hg := Tausworthe.repeat_gcd (b := fun n => (lcgStep a c (2 ^ (k + 1)))^[n + 1] x / 2 ^ s) (Nat.two_pow_pos (k + 1)) hP hN
    obtain ⟨j, hj, e⟩ := (Nat.dvd_prime_pow Nat.prime_two).1 (Nat.gcd_dvd_right P (2 ^ (k + 1)))
    have hj' : j ≤ k := by
      by_contra hcj
      have : j = k + 1 := by omega
      subst this
      exact hnd (e ▸ Nat.gcd_dvd_left P _)
    have hk2 := Tausworthe.repeat_dvd (b := fun n => (lcgStep a c (2 ^ (k + 1)))^[n + 1] x / 2 ^ s) hg (M := 2 ^ k) (e ▸ pow_dvd_pow 2 hj') 0
    have hne : (lcgStep a c (2 ^ (k + 1)))^[2 ^ k + 1] x ≠ (lcgStep a c (2 ^ (k + 1)))^[1] x := fun e => by
      have hd : 2 ^ (k + 1) ∣ 2 ^ k := (h1.2 _).1 fun n => by
        show (lcgStep a c (2 ^ (k + 1)))^[n + 2 ^ k + 1] x = (lcgStep a c (2 ^ (k + 1)))^[n + 1] x
        rw [show n + 2 ^ k + 1 = n + (2 ^ k + 1) by ring, Function.iterate_add_apply, e, ← Function.iterate_add_apply]
      have := Nat.le_of_dvd (Nat.two_pow_pos k) hd
      rw [pow_succ] at this
      have := Nat.two_pow_pos k
      omega
    have hmod : (lcgStep a c (2 ^ (k + 1)))^[2 ^ k + 1] x % 2 ^ k = (lcgStep a c (2 ^ (k + 1)))^[1] x % 2 ^ k := by
      rw [lcgStep_mod a c (2 ^ k) (2 ^ (k + 1)) (pow_dvd_pow 2 (by omega)) x (2 ^ k + 1), lcgStep_mod a c (2 ^ k) (2 ^ (k + 1)) (pow_dvd_pow 2 (by omega)) x 1]
      have := ((per k hk (x % 2 ^ k) (Nat.mod_lt _ (Nat.two_pow_pos k))).2 (2 ^ k)).2 dvd_rfl 0
      simp only [zero_add] at this
      rw [this]
    apply hne
    have hk2' : (lcgStep a c (2 ^ (k + 1)))^[2 ^ k + 1] x / 2 ^ s = (lcgStep a c (2 ^ (k + 1)))^[1] x / 2 ^ s := by
      simpa only [zero_add] using hk2
    generalize (lcgStep a c (2 ^ (k + 1)))^[2 ^ k + 1] x = u at *
    generalize (lcgStep a c (2 ^ (k + 1)))^[1] x = v at *
    have hq : u / 2 ^ k = v / 2 ^ k := by
      obtain ⟨t, rfl⟩ := Nat.exists_eq_add_of_le hs
      rw [pow_add, ← Nat.div_div_eq_div_mul, ← Nat.div_div_eq_div_mul, hk2']
    rw [← Nat.div_add_mod u (2 ^ k), ← Nat.div_add_mod v (2 ^ k), hq, hmod]
  · show (lcgStep a c (2 ^ (k + 1)))^[n + P + 1] x / 2 ^ s = (lcgStep a c (2 ^ (k + 1)))^[n + 1] x / 2 ^ s
    exact congrArg (· / 2 ^ s) ((h1.2 _).2 hd n)

/-- The sequence of `rand48`. -/
theorem rand48_returns (x : Nat) (hx : x < 2 ^ 48) : Returns Rand48.next x fun n => (lcgStep 0x5DEECE66D 0xB (2 ^ 48))^[n + 1] x / 2 ^ 17 := by
  have h := returns_of_iterate (next := Rand48.next) (g := lcgStep 0x5DEECE66D 0xB (2 ^ 48)) (o := fun y => lcgStep 0x5DEECE66D 0xB (2 ^ 48) y / 2 ^ 17) (I := (· < 2 ^ 48))
    (fun y _ => Nat.mod_lt _ (Nat.two_pow_pos 48)) (fun y hy => (c11_next y hy).1) x hx
  simpa only [← Function.iterate_succ_apply' (lcgStep 0x5DEECE66D 0xB (2 ^ 48))] using h

/-- **C142.** `rand48` has the period `2^48` from every state, although its values are only 31 bits of the state. -/
theorem c142_rand48 (x : Nat) (hx : x < 2 ^ 48) : ∃ out, Returns Rand48.next x out ∧ HasPeriod out (2 ^ 48) :=
  ⟨_, rand48_returns x hx, lcg_top_period 47 17 0x5DEECE66D 0xB (by decide) (by decide) (by decide) (by decide) x hx⟩

/-- **C142.** The documented length of cycle, `2^48 - 1`, is not that of `rand48`: after so many calls the values do not repeat, from any state. -/
theorem c142_rand48_documented_false (x : Nat) (hx : x < 2 ^ 48) (out : Nat → Nat) (h : Returns Rand48.next x out) : ¬ HasPeriod out (2 ^ 48 - 1) := by
  intro hp
  obtain ⟨out', h', hp'⟩ := c142_rand48 x hx
  have e : out = out' := funext fun n => returns_unique h h' n
  subst e
  have := (hp'.2 _).1 ((hp.2 _).2 dvd_rfl)
  exact absurd this (by decide)

example : Rand48.next 78606 = some (89400484, 11717900325121) := by decide

/-! ### ecuyer1988 -/

/-- Two of three numbers between `-K` and `K` that are congruent modulo `K` are equal. -/
theorem three_congr {K : Int} {g0 g1 g2 : Int} (h0 : -K < g0 ∧ g0 < K) (h1 : -K < g1 ∧ g1 < K) (h2 : -K < g2 ∧ g2 < K)
    (e1 : K ∣ g1 - g0) (e2 : K ∣ g2 - g0) : g0 = g1 ∨ g0 = g2 ∨ g1 = g2 := by
  obtain ⟨c, hc⟩ := e1
  obtain ⟨d, hd⟩ := e2
  have b : ∀ c : Int, -(2 * K) < K * c → K * c < 2 * K → c = -1 ∨ c = 0 ∨ c = 1 := fun c l u => by
    have hK : 0 < K := by omega
    have : -2 < c := by nlinarith
    have : c < 2 := by nlinarith
    omega
  rcases b c (by omega) (by omega) with rfl | rfl | rfl <;> rcases b d (by omega) (by omega) with rfl | rfl | rfl <;> omega

/-- The differences of two multiplicative sequences modulo `p` and `q`, taken modulo `p - 1`, repeat only with both sequences. -/
theorem diff_period {p q a b : Nat} [hp : Fact p.Prime] [hq : Fact q.Prime] (hqp : q ≤ p) (hob : orderOf (b : ZMod q) = q - 1)
    (hn : ¬ q - 1 ∣ 2 * (p - 1)) {X Y : Nat → Nat} (hX : ∀ n, 1 ≤ X n ∧ X n < p) (hY : ∀ n, 1 ≤ Y n ∧ Y n < q)
    (sX : ∀ n, (X (n + 1) : ZMod p) = a * X n) (sY : ∀ n, (Y (n + 1) : ZMod q) = b * Y n) {P : Nat}
    (h : ∀ n, ((p : Int) - 1) ∣ ((X (n + P) : Int) - Y (n + P)) - (X n - Y n)) : ∀ n, X (n + P) = X n ∧ Y (n + P) = Y n := by
  have iter : ∀ {r c : Nat} {Z : Nat → Nat}, (∀ n, (Z (n + 1) : ZMod r) = c * Z n) → ∀ k n, (Z (n + k) : ZMod r) = c ^ k * Z n := fun s k n => by
    induction k with
    | zero => simp
    | succ k ih => rw [← Nat.add_assoc, s, ih, pow_succ']; ring
  have eqn : ∀ {r u v : Nat}, u < r → v < r → (u : ZMod r) = v → u = v := fun hu hv e => by
    have := (ZMod.natCast_eq_natCast_iff' _ _ _).1 e
    rwa [Nat.mod_eq_of_lt hu, Nat.mod_eq_of_lt hv] at this
  have nz : ∀ {r u : Nat}, 1 ≤ u → u < r → (u : ZMod r) ≠ 0 := fun h1 h2 e => Nat.not_dvd_of_pos_of_lt h1 h2 ((ZMod.natCast_eq_zero_iff _ _).1 e)
  -- the first sequence repeats after p - 1 steps
  have hXp : ∀ k n, X (n + (p - 1) * k) = X n := fun k n => by
    refine eqn (hX _).2 (hX _).2 ?_
    rw [iter sX, pow_mul]
    have ha : (a : ZMod p) ≠ 0 := fun e => by
      have := sX 0
      rw [e, zero_mul] at this
      exact nz (hX 1).1 (hX 1).2 this
    rw [ZMod.pow_card_sub_one_eq_one ha, one_pow, one_mul]
  have hb : (b : ZMod q) ^ P = 1 := by
    have key : ∀ k, ((p : Int) - 1) ∣ ((Y ((p - 1) * k + P) : Int) - Y ((p - 1) * k)) - (Y P - Y 0) := fun k => by
      have e := h ((p - 1) * k)
      have e0 := h 0
      have x1 : X ((p - 1) * k) = X 0 := by simpa using hXp k 0
      have x2 : X ((p - 1) * k + P) = X P := by rw [Nat.add_comm]; exact hXp k P
      rw [zero_add] at e0
      rw [x1, x2] at e
      have := dvd_sub e0 e
      have e' : ((X P : Int) - Y P - (X 0 - Y 0)) - ((X P : Int) - Y ((p - 1) * k + P) - (X 0 - Y ((p - 1) * k))) =
        ((Y ((p - 1) * k + P) : Int) - Y ((p - 1) * k)) - (Y P - Y 0) := by ring
      rwa [e'] at this
    have bd : ∀ k, -((p : Int) - 1) < (Y ((p - 1) * k + P) : Int) - Y ((p - 1) * k) ∧ (Y ((p - 1) * k + P) : Int) - Y ((p - 1) * k) < (p : Int) - 1 := fun k => by
      have := hY ((p - 1) * k + P)
      have := hY ((p - 1) * k)
      omega
    have val : ∀ k, (((Y ((p - 1) * k + P) : Int) - Y ((p - 1) * k) : Int) : ZMod q) = (b : ZMod q) ^ ((p - 1) * k) * ((b : ZMod q) ^ P - 1) * Y 0 := fun k => by
      push_cast
      rw [iter sY P, show (p - 1) * k = 0 + (p - 1) * k by omega, iter sY ((p - 1) * k) 0, zero_add]
      ring
    have y0 := nz (hY 0).1 (hY 0).2
    have b0 : (b : ZMod q) ≠ 0 := fun e => by
      have := sY 0
      rw [e, zero_mul] at this
      exact nz (hY 1).1 (hY 1).2 this
    have conc : ∀ i j, i < j → j ≤ 2 → (Y ((p - 1) * i + P) : Int) - Y ((p - 1) * i) = (Y ((p - 1) * j + P) : Int) - Y ((p - 1) * j) → (b : ZMod q) ^ P = 1 := fun i j hij hj e => by
      have e2 := congrArg (Int.cast : Int → ZMod q) e
      rw [val, val] at e2
      obtain ⟨d, rfl⟩ := Nat.exists_eq_add_of_lt hij
      by_contra hne
      have hne' := sub_ne_zero.2 hne
      have h1 : (b : ZMod q) ^ ((p - 1) * (d + 1)) = 1 := by
        rw [show (p - 1) * (i + d + 1) = (p - 1) * i + (p - 1) * (d + 1) by ring, pow_add] at e2
        have : (b : ZMod q) ^ ((p - 1) * i) * (((b : ZMod q) ^ P - 1) * (Y 0 * ((b : ZMod q) ^ ((p - 1) * (d + 1)) - 1))) = 0 := by linear_combination -e2
        rcases mul_eq_zero.1 this with h | h
        · exact absurd h (pow_ne_zero _ b0)
        rcases mul_eq_zero.1 h with h | h
        · exact absurd h hne'
        rcases mul_eq_zero.1 h with h | h
        · exact absurd h y0
        · exact sub_eq_zero.1 h
      have hd := orderOf_dvd_of_pow_eq_one h1
      rw [hob] at hd
      have : d = 0 ∨ d = 1 := by omega
      rcases this with rfl | rfl
      · exact hn (by rw [Nat.mul_comm]; exact hd.trans ⟨2, by ring⟩)
      · exact hn (by rw [Nat.mul_comm]; exact hd)
    have k1 := key 1
    have k2 := key 2
    rcases three_congr (bd 0) (bd 1) (bd 2) (by simpa using k1) (by simpa using k2) with e | e | e
    · exact conc 0 1 (by omega) (by omega) e
    · exact conc 0 2 (by omega) (by omega) e
    · exact conc 1 2 (by omega) (by omega) e
  intro n
  have y : Y (n + P) = Y n := eqn (hY _).2 (hY _).2 (by rw [iter sY, hb, one_mul])
  refine ⟨?_, y⟩
  have e := h n
  rw [y] at e
  have e' : (X (n + P) : Int) - Y n - (X n - Y n) = X (n + P) - X n := by ring
  rw [e'] at e
  have h1 := hX (n + P)
  have h2 := hX n
  have := Int.eq_zero_of_abs_lt_dvd e (by rw [abs_lt]; omega)
  omega

theorem mlcg_good {E : Lcg} (h : MlcgOK E) {x : Nat} : E.Good x ↔ 1 ≤ x ∧ x ≤ E.m - 1 := by
  unfold Lcg.Good Lcg.min Lcg.max
  rw [if_pos h.c_zero, if_neg h.m_pos]

/-- **C142.** The values of an `additive_combine_engine` of two multiplicative engines with prime moduli and primitive multipliers have
the period `lcm(m1 - 1, m2 - 1)`, from every state: forming the differences does not shorten it. -/
theorem c142_additive (E1 E2 : Lcg) (k1 : MlcgOK E1) (k2 : MlcgOK E2) (h21 : E2.m ≤ E1.m) (p1 : E1.m.Prime) (p2 : E2.m.Prime)
    (o1 : orderOf (E1.a : ZMod E1.m) = E1.m - 1) (o2 : orderOf (E2.a : ZMod E2.m) = E2.m - 1) (hn : ¬ E2.m - 1 ∣ 2 * (E1.m - 1))
    (st : Nat × Nat) (h1 : 1 ≤ st.1 ∧ st.1 ≤ E1.m - 1) (h2 : 1 ≤ st.2 ∧ st.2 ≤ E2.m - 1) :
    ∃ out, Returns (AdditiveCombine.next E1 E2) st out ∧ HasPeriod out (Nat.lcm (E1.m - 1) (E2.m - 1)) := by
  have i1 : Fact E1.m.Prime := ⟨p1⟩
  have i2 : Fact E2.m.Prime := ⟨p2⟩
  let g : Nat × Nat → Nat × Nat := fun s => (lcgStep E1.a 0 E1.m s.1, lcgStep E2.a 0 E2.m s.2)
  let o : Nat × Nat → Int := fun s => ((AdditiveCombine.next E1 E2 s).map Prod.fst).getD 0
  let I : Nat × Nat → Prop := fun s => E1.Good s.1 ∧ E2.Good s.2
  have step : ∀ s, I s → AdditiveCombine.next E1 E2 s = some (o s, g s) ∧ I (g s) ∧ 1 ≤ o s ∧ o s ≤ (E1.m : Int) - 1 ∧
      o s % ((E1.m : Int) - 1) = (((g s).1 : Int) - (g s).2) % ((E1.m : Int) - 1) := fun s hs => by
    obtain ⟨v, e, g1, g2, l, u, c⟩ := c33_next E1 E2 k1 k2 h21 s hs.1 hs.2
    have ho : o s = v := by show ((AdditiveCombine.next E1 E2 s).map Prod.fst).getD 0 = _; rw [e]; rfl
    have := p1.pos
    unfold AdditiveCombine.min at l
    unfold AdditiveCombine.max at u
    refine ⟨by rw [ho, e]; rfl, ⟨g1, g2⟩, by omega, by omega, by rw [ho]; exact c⟩
  have hI : ∀ n, I (g^[n] st) := fun n => by
    induction n with
    | zero => exact ⟨(mlcg_good k1).2 h1, (mlcg_good k2).2 h2⟩
    | succ n ih => rw [Function.iterate_succ_apply']; exact (step _ ih).2.1
  have hg : ∀ n s, g^[n] s = ((lcgStep E1.a 0 E1.m)^[n] s.1, (lcgStep E2.a 0 E2.m)^[n] s.2) := fun n => by
    induction n with
    | zero => exact fun s => rfl
    | succ n ih => intro s; rw [Function.iterate_succ_apply, ih]; rfl
  have q1 := p1.two_le
  have q2 := p2.two_le
  refine ⟨_, returns_of_iterate (fun s hs => (step s hs).2.1) (fun s hs => (step s hs).1) st (hI 0),
    Nat.lcm_pos (by omega) (by omega), fun P => ⟨fun hP => ?_, fun hd n => ?_⟩⟩
  · have cast : ∀ {r c : Nat} (x : Nat), ((lcgStep c 0 r x : Nat) : ZMod r) = c * x := fun x => by
      unfold lcgStep
      rw [ZMod.natCast_mod]
      push_cast
      rw [add_zero]
    have rng : ∀ n, (1 ≤ (g^[n] st).1 ∧ (g^[n] st).1 < E1.m) ∧ 1 ≤ (g^[n] st).2 ∧ (g^[n] st).2 < E2.m := fun n => by
      have a1 := (mlcg_good k1).1 (hI n).1
      have a2 := (mlcg_good k2).1 (hI n).2
      omega
    have key := diff_period (a := E1.a) (b := E2.a) h21 o2 hn (X := fun n => (g^[n + 1] st).1) (Y := fun n => (g^[n + 1] st).2) (P := P)
      (fun n => (rng (n + 1)).1) (fun n => (rng (n + 1)).2)
      (fun n => by show (((g^[n + 1 + 1] st).1 : Nat) : ZMod E1.m) = _; rw [Function.iterate_succ_apply' g (n + 1)]; exact cast _)
      (fun n => by show (((g^[n + 1 + 1] st).2 : Nat) : ZMod E2.m) = _; rw [Function.iterate_succ_apply' g (n + 1)]; exact cast _)
      (fun n => by
        have e1 := (step _ (hI (n + P))).2.2.2.2
        have e2 := (step _ (hI n)).2.2.2.2
        have e3 : o (g^[n + P] st) = o (g^[n] st) := hP n
        rw [e3, e2, ← Function.iterate_succ_apply' g, ← Function.iterate_succ_apply' g] at e1
        exact Int.ModEq.dvd e1)
    obtain ⟨x, y⟩ := key 0
    have d1 := (mlcg_return E1.m E1.a o1 (g^[1] st).1 P (rng 1).1.1 (rng 1).1.2).1 (by
      have : (g^[0 + P + 1] st).1 = (g^[0 + 1] st).1 := x
      rw [show 0 + P + 1 = P + 1 by omega, Function.iterate_add_apply, hg P] at this
      exact this)
    have d2 := (mlcg_return E2.m E2.a o2 (g^[1] st).2 P (rng 1).2.1 (rng 1).2.2).1 (by
      have : (g^[0 + P + 1] st).2 = (g^[0 + 1] st).2 := y
      rw [show 0 + P + 1 = P + 1 by omega, Function.iterate_add_apply, hg P] at this
      exact this)
    exact Nat.lcm_dvd d1 d2
  · show o (g^[n + P] st) = o (g^[n] st)
    have a1 := (mlcg_good k1).1 (hI n).1
    have a2 := (mlcg_good k2).1 (hI n).2
    have r1 := (mlcg_return E1.m E1.a o1 (g^[n] st).1 P (by omega) (by omega)).2 ((Nat.dvd_lcm_left _ _).trans hd)
    have r2 := (mlcg_return E2.m E2.a o2 (g^[n] st).2 P (by omega) (by omega)).2 ((Nat.dvd_lcm_right _ _).trans hd)
    rw [Nat.add_comm, Function.iterate_add_apply, hg P, r1, r2]

/-- **C142.** The values of `ecuyer1988` have the period `(m1 - 1)(m2 - 1) / 2`, about `2^61` as documented, from every state. -/
theorem c142_ecuyer1988 (st : Nat × Nat) (h1 : 1 ≤ st.1 ∧ st.1 ≤ 2147483562) (h2 : 1 ≤ st.2 ∧ st.2 ≤ 2147483398) :
    ∃ out, Returns (AdditiveCombine.next ecuyerA ecuyerB) st out ∧ HasPeriod out 2305842648436451838 := by
  have := c142_additive ecuyerA ecuyerB ecuyerA_ok ecuyerB_ok (by decide) ecuyerA_prime ecuyerB_prime ecuyerA_order ecuyerB_order (by decide) st h1 h2
  rwa [show Nat.lcm (ecuyerA.m - 1) (ecuyerB.m - 1) = 2305842648436451838 from (by norm_num : Nat.lcm (2147483563 - 1) (2147483399 - 1) = 2305842648436451838)] at this

example : (1 ≤ (1, 1).1 ∧ (1, 1).1 ≤ 2147483562) ∧ (1 ≤ (1, 1).2 ∧ (1, 1).2 ≤ 2147483398) ∧ 2 ^ 61 - 2305842648436451838 < 2 ^ 41 := by decide

end Boost.Random
