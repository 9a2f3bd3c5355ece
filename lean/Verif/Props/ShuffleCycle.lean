import Verif.Proofs.ShuffleCycle
import Verif.Props.Cycles

/-!
# The lengths of the cycles of the shuffled engines

C144: over a base engine that goes through `P` different values, a shuffled engine enters a cycle whose length is a multiple of `P`, but never
returns to where it was seeded. `knuth_b` and `kreutzer1986` are the instances.
-/

namespace Boost.Random
open Spec ShuffleCycle

/-- **C144.** Shuffling with a table of `k` elements a base engine that goes through `P > k` different values: the values returned enter a cycle
whose length is a multiple of `P`, and the first values are not part of it: there is no number of calls after which the engine returns what it
returned from the beginning. -/
theorem c144_cycle (E : EngInfo) (k : Nat) (B : Engine σ) (I : σ → Prop) (hE : EngOK E) (h64 : E.ty.bits ≤ 64) (hB : BaseOK E B I) (hk : 0 < k) (hk64 : k < 2 ^ 64)
    (s : σ) (hs : I s) (X : Nat → Int) (P : Nat) (hX : Produces B.next s X) (hP : DistinctCycle X P) (hkP : k < P) :
    ∃ st0 out C, ShuffleOrder.init k B s = some st0 ∧ Returns (ShuffleOrder.next E k B) st0 out ∧ HasCycle out C ∧ P ∣ C ∧
      ∀ T, 0 < T → ∃ n, out (n + T) ≠ out n := by
  obtain ⟨S, hS0, hS, hrun⟩ := Produces.seq hX
  have hI : ∀ n, I (S n) ∧ E.min ≤ X n ∧ X n ≤ E.max := by
    have h1 : ∀ n, I (S n) := fun n => by
      induction n with
      | zero => rwa [hS0]
      | succ n ih =>
        obtain ⟨v, s', e, hi, _⟩ := hB.step _ ih
        rw [hS n, Option.some.injEq, Prod.mk.injEq] at e
        rwa [e.2]
    refine fun n => ⟨h1 n, ?_⟩
    obtain ⟨v, s', e, _, hr⟩ := hB.step _ (h1 n)
    rw [hS n, Option.some.injEq, Prod.mk.injEq] at e
    rwa [e.1]
  let st0 : ShuffleState σ := ⟨S (k + 1), (List.range k).map X, X k⟩
  have hinit : ShuffleOrder.init k B s = some st0 := by
    simp [ShuffleOrder.init, ShuffleOrder.fill_eq_run, hrun k, hS k, st0]
  let g : ShuffleState σ → ShuffleState σ := fun st => ((ShuffleOrder.next E k B st).map Prod.snd).getD st
  have hnext : ∀ st, ShuffleOrder.Inv E k I st → ShuffleOrder.next E k B st = some ((g st).y, g st) ∧ ShuffleOrder.Inv E k I (g st) := fun st h => by
    obtain ⟨j, u, rng, y, hj, hjk, hy, hu, hn, hi⟩ := ShuffleOrder.next_spec hE h64 hB hk hk64 h
    have e : g st = ⟨rng, st.v.set j u, y⟩ := by simp [g, hn]
    rw [e]
    exact ⟨hn, hi⟩
  have h0 : ShuffleOrder.Inv E k I st0 := ⟨(hI _).1, by simp [st0], fun x hx => by
    obtain ⟨i, _, rfl⟩ := List.mem_map.1 hx
    exact (hI i).2, (hI k).2⟩
  have hinv : ∀ n, ShuffleOrder.Inv E k I (g^[n] st0) := fun n => by
    induction n with
    | zero => exact h0
    | succ n ih => rw [Function.iterate_succ_apply']; exact (hnext _ ih).2
  have hrng : ∀ n, (g^[n] st0).rng = S (k + 1 + n) := fun n => by
    induction n with
    | zero => rfl
    | succ n ih =>
      obtain ⟨j, u, rng, y, hj, hjk, hy, hu, hn, hi⟩ := ShuffleOrder.next_spec hE h64 hB hk hk64 (hinv n)
      have e : g (g^[n] st0) = ⟨rng, (g^[n] st0).v.set j u, y⟩ := by simp [g, hn]
      rw [Function.iterate_succ_apply', e]
      rw [ih, hS, Option.some.injEq, Prod.mk.injEq] at hu
      exact hu.2.symm
  let idx : Int → Nat := fun y => (shuffleIndex E.ty.bits k (E.b - 1) (dig E y)).getD 0
  have hsh : Shuffles idx (fun n => X (k + 1 + n)) (fun n => (g^[n] st0).v) (fun n => (g^[n] st0).y) := by
    have key : ∀ n, (g^[n] st0).v[idx (g^[n] st0).y]? = some (g^[n + 1] st0).y ∧ (g^[n + 1] st0).v = (g^[n] st0).v.set (idx (g^[n] st0).y) (X (k + 1 + n)) := fun n => by
      obtain ⟨j, u, rng, y, hj, hjk, hy, hu, hn, hi⟩ := ShuffleOrder.next_spec hE h64 hB hk hk64 (hinv n)
      have e : g (g^[n] st0) = ⟨rng, (g^[n] st0).v.set j u, y⟩ := by simp [g, hn]
      have ej : idx (g^[n] st0).y = j := by simp [idx, hj]
      rw [Function.iterate_succ_apply', e, ej]
      rw [hrng, hS, Option.some.injEq, Prod.mk.injEq] at hu
      exact ⟨hy, by rw [hu.1]⟩
    exact ⟨fun n => (key n).1, fun n => (key n).2⟩
  have hret : Returns (ShuffleOrder.next E k B) st0 fun n => (g^[n + 1] st0).y := by
    have := returns_of_iterate (next := ShuffleOrder.next E k B) (g := g) (o := fun st => (g st).y) (I := ShuffleOrder.Inv E k I)
      (fun st h => (hnext st h).2) (fun st h => (hnext st h).1) st0 h0
    simpa only [Function.iterate_succ_apply'] using this
  have hxP : ∀ n, X (k + 1 + (n + P)) = X (k + 1 + n) := fun n => by rw [hP.2, ← Nat.add_assoc, Nat.add_mod_right]
  obtain ⟨N, T, hT, hNT⟩ := hsh.recurs hP.1 hxP (Finset.Icc E.min E.max) (k := k)
    (fun n => ⟨(hinv n).len, fun z hz => Finset.mem_Icc.2 ((hinv n).v z hz)⟩) (fun n => Finset.mem_Icc.2 (hinv n).y)
  obtain ⟨C, hC⟩ := hasCycle_of (out := fun n => (g^[n + 1] st0).y) ⟨N, T, hT, fun n hn => by
    have := hNT (n + 1) (by omega)
    rwa [show n + 1 + T = n + T + 1 by omega] at this⟩
  refine ⟨st0, _, C, hinit, hret, hC, ?_, fun T hT => ?_⟩
  · obtain ⟨N, hN⟩ := (hC.2 C).2 (dvd_refl C)
    have hp : ∀ n, N + 1 ≤ n → (g^[n + C] st0).y = (g^[n] st0).y := fun n hn => by
      have := hN (n - 1) (by omega)
      dsimp only at this
      rwa [show n - 1 + C + 1 = n + C by omega, show n - 1 + 1 = n by omega] at this
    have hx := hsh.period hC.1 hp (m := N + 1) (le_refl _)
    have h1 := (hP.2 _ _).1 hx
    have h2 : Nat.ModEq P (C + (k + 1 + (N + 1))) (0 + (k + 1 + (N + 1))) := by
      rw [Nat.ModEq, Nat.zero_add, ← h1]; congr 1; omega
    exact (Nat.modEq_zero_iff_dvd).1 (Nat.ModEq.add_right_cancel' _ h2)
  · exact hsh.fresh hk hP hkP (by simp [st0]) (fun s hs => by simp [st0, hs]) rfl hT

/-- An engine that returns its state: the values of a cycle are different. -/
theorem distinct_of_period {f : Nat → Option Nat} {x P : Nat} {out : Nat → Nat} (h : Returns (fun x => (f x).map fun y => (y, y)) x out) (hp : HasPeriod out P) :
    DistinctCycle out P := by
  obtain ⟨S, hS0, hS, -⟩ := Produces.seq (V := out) h
  have hS1 : ∀ n, S (n + 1) = out n ∧ f (S n) = some (out n) := fun n => by
    have := hS n
    rw [Option.map_eq_some_iff] at this
    obtain ⟨a, e, e2⟩ := this
    rw [Prod.mk.injEq] at e2
    exact ⟨by rw [← e2.2, e2.1], by rw [e, e2.1]⟩
  have hper : ∀ c n, out (n + P * c) = out n := fun c n => (hp.2 (P * c)).2 (Dvd.intro _ rfl) n
  have hmod : ∀ n, out n = out (n % P) := fun n => by
    rw [← hper (n / P) (n % P), Nat.mod_add_div]
  have key : ∀ m d, out (m + d) = out m → P ∣ d := fun m d he => by
    have h1 : ∀ i, out (m + d + i) = out (m + i) := fun i => by
      induction i with
      | zero => exact he
      | succ i ih =>
        have e1 := (hS1 (m + d + i + 1)).2
        have e2 := (hS1 (m + i + 1)).2
        rw [(hS1 _).1, ih] at e1
        rw [(hS1 _).1, e1] at e2
        exact Option.some.inj e2
    refine (hp.2 d).1 fun n => ?_
    obtain ⟨i, hi⟩ : ∃ i, n + P * m = m + i := ⟨n + P * m - m, by have := Nat.le_mul_of_pos_left m hp.1; omega⟩
    rw [← hper m (n + d), ← hper m n, hi, show n + d + P * m = m + d + i by omega, h1]
  refine ⟨hp.1, fun m n => ⟨fun he => ?_, fun he => by rw [hmod m, hmod n, he]⟩⟩
  rcases Nat.le_total m n with hle | hle
  · have := key m (n - m) (by rw [show m + (n - m) = n by omega, he])
    exact (Nat.modEq_iff_dvd' hle).2 this
  · have := key n (m - n) (by rw [show n + (m - n) = m by omega, he])
    exact ((Nat.modEq_iff_dvd' hle).2 this).symm

/-- The linear congruential engines as bases. -/
theorem lcg_produces {E : Lcg} {x P : Nat} {out : Nat → Nat} (h : Returns (fun x => (E.next x).map fun y => (y, y)) x out) (hp : HasPeriod out P) :
    ∃ X : Nat → Int, Produces E.engine.next x X ∧ DistinctCycle X P := by
  refine ⟨fun n => (out n : Int), fun n => ?_, ?_⟩
  · obtain ⟨S, hS0, hS, -⟩ := Produces.seq (V := out) h
    have hS2 : ∀ n, E.engine.next (S n) = some ((out n : Int), S (n + 1)) := fun n => by
      have := hS n
      rw [Option.map_eq_some_iff] at this
      obtain ⟨a, e, e2⟩ := this
      rw [Prod.mk.injEq] at e2
      simp [Lcg.engine, e, ← e2.1, ← e2.2]
    refine ⟨S n, ?_⟩
    rw [← hS0]
    induction n with
    | zero => rfl
    | succ n ih =>
      rw [run_add, ih, Option.bind_some, run_one, hS2 n, List.range_succ, List.map_append]
      rfl
  · have := distinct_of_period h hp
    exact ⟨this.1, fun m n => by rw [← this.2]; exact Int.ofNat_inj⟩

/-- **C144.** `knuth_b`, from every seed. -/
theorem c144_knuth_b (x : Nat) (hx : 1 ≤ x ∧ x ≤ 2147483646) :
    ∃ st0 out C, ShuffleOrder.init 256 minstdRand0.engine x = some st0 ∧ Returns (ShuffleOrder.next minstdRand0.info 256 minstdRand0.engine) st0 out ∧
      HasCycle out C ∧ 2 ^ 31 - 2 ∣ C ∧ ∀ T, 0 < T → ∃ n, out (n + T) ≠ out n := by
  obtain ⟨out, h1, h2⟩ := (c142_minstd x hx.1 (by omega)).1
  obtain ⟨X, hX, hP⟩ := lcg_produces h1 h2
  exact c144_cycle minstdRand0.info 256 minstdRand0.engine minstdRand0.Good
    (Lcg.infoOK _ minstdRand0_valid (by decide)) (by decide)
    (Lcg.baseOK _ minstdRand0_valid (Or.inr (by decide +kernel))) (by decide) (by decide) x hx X _ hX hP (by decide)

theorem kreutzer_hullDobell : HullDobell kreutzerBase.a kreutzerBase.c (modulus kreutzerBase.T kreutzerBase.m) := by
  refine ⟨by decide +kernel, ?_, by decide⟩
  intro p hp hd
  have e : modulus kreutzerBase.T kreutzerBase.m = 5 ^ 2 * 13 ^ 4 := by decide
  rw [e, hp.dvd_mul] at hd
  rcases hd with h | h
  · rw [(Nat.prime_dvd_prime_iff_eq hp (by norm_num)).1 (hp.dvd_of_dvd_pow h)]; decide
  · rw [(Nat.prime_dvd_prime_iff_eq hp (by norm_num)).1 (hp.dvd_of_dvd_pow h)]; decide

/-- **C144.** `kreutzer1986`, from every seed. -/
theorem c144_kreutzer1986 (x : Nat) (hx : x ≤ 714024) :
    ∃ st0 out C, ShuffleOrder.init 97 kreutzerBase.engine x = some st0 ∧ Returns (ShuffleOrder.next kreutzerBase.info 97 kreutzerBase.engine) st0 out ∧
      HasCycle out C ∧ 714025 ∣ C ∧ ∀ T, 0 < T → ∃ n, out (n + T) ≠ out n := by
  obtain ⟨out, h1, h2⟩ := c142_hull_dobell kreutzerBase kreutzerBase_valid kreutzer_hullDobell x (show x < 714025 by omega)
  obtain ⟨X, hX, hP⟩ := lcg_produces h1 h2
  exact c144_cycle kreutzerBase.info 97 kreutzerBase.engine kreutzerBase.Good
    (Lcg.infoOK _ kreutzerBase_valid (by decide)) (by decide)
    (Lcg.baseOK _ kreutzerBase_valid (Or.inl (by decide))) (by decide) (by decide) x ⟨Nat.zero_le _, hx⟩ X 714025 hX hP (by decide)

/-- A small shuffled engine: a table of two over `x ↦ 3 x mod 7`, which goes through six values; the shuffled values enter a cycle of length 6 after four others. -/
def tinyLcg : Lcg := ⟨minstdRand0.T, 3, 0, 7⟩

#guard ((ShuffleOrder.init 2 tinyLcg.engine 1).bind fun st => (run (ShuffleOrder.next tinyLcg.info 2 tinyLcg.engine) 20 st).map Prod.fst) ==
  some [2, 3, 5, 4, 3, 1, 6, 2, 4, 5, 3, 1, 6, 2, 4, 5, 3, 1, 6, 2]

theorem tiny_order : orderOf (tinyLcg.a : ZMod 7) = 7 - 1 := (orderOf_eq_iff (by decide)).2 (by decide +kernel)

example : ∃ st0 out C, ShuffleOrder.init 2 tinyLcg.engine 1 = some st0 ∧ Returns (ShuffleOrder.next tinyLcg.info 2 tinyLcg.engine) st0 out ∧
    HasCycle out C ∧ 6 ∣ C ∧ ∀ T, 0 < T → ∃ n, out (n + T) ≠ out n := by
  have hv : LcgValid tinyLcg := ⟨⟨by decide, by decide⟩, by decide, by decide, by decide, by decide, Or.inl (by decide), by decide⟩
  have : Fact (Nat.Prime 7) := ⟨by norm_num⟩
  obtain ⟨out, h1, h2⟩ := mlcg_period tinyLcg hv rfl 7 rfl tiny_order 1 (by decide) (by decide)
  obtain ⟨X, hX, hP⟩ := lcg_produces h1 h2
  exact c144_cycle tinyLcg.info 2 tinyLcg.engine tinyLcg.Good (Lcg.infoOK _ hv (by decide)) (by decide)
    (Lcg.baseOK _ hv (Or.inr (by decide +kernel))) (by decide) (by decide) 1 ⟨by decide, by decide⟩ X 6 hX hP (by decide)

/-- **C144, the documentation.** doc/generators.qbk gives `2 ^ 31 - 2` as the length of cycle of `knuth_b`. What it returns from a fresh seed does not
repeat after `2 ^ 31 - 2` calls, nor after any other number of calls. -/
theorem c144_knuth_b_documented_false (x : Nat) (hx : 1 ≤ x ∧ x ≤ 2147483646) :
    ∃ st0 out, ShuffleOrder.init 256 minstdRand0.engine x = some st0 ∧ Returns (ShuffleOrder.next minstdRand0.info 256 minstdRand0.engine) st0 out ∧
      ∀ T, ¬ HasPeriod out T := by
  obtain ⟨st0, out, C, h1, h2, -, -, h3⟩ := c144_knuth_b x hx
  refine ⟨st0, out, h1, h2, fun T hT => ?_⟩
  obtain ⟨n, hn⟩ := h3 T hT.1
  exact hn ((hT.2 T).2 (dvd_refl T) n)

end Boost.Random
