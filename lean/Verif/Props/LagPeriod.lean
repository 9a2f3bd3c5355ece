import Verif.Spec.LagPeriod
import Verif.Proofs.LagPeriod
import Verif.Proofs.LagSquares.Small
import Verif.Proofs.LagSquares.L9689All
import Verif.Proofs.LagSquares.L19937All
import Verif.Proofs.LagSquares.L23209All
import Verif.Proofs.LagSquares.L44497All
import Verif.Props.LaggedFibonacci
import Verif.Props.SeedImpl
import Verif.Model.SeedAll

/-!
# C139, C140: the period of the lagged Fibonacci engines, and their seeds
-/

namespace Boost.Random
open Spec Polynomial

/-! ## C139 -/

theorem lag_rec {w p q : Nat} (hq : q < p) {Y : Nat → Nat} (hY : IsLagged w p q Y) : Lag.Rec w p (p - q) fun n => (Y n : ℤ) :=
  Lag.rec_iff.2 fun n => by
    have h := hY n
    rw [show n + p - q = n + (p - q) by omega] at h
    have : ((Y (n + p) : Nat) : ℤ) = ((Y n + Y (n + (p - q)) : Nat) : ℤ) % ((2 ^ w : Nat) : ℤ) := by exact_mod_cast h
    have h2 := Int.emod_add_mul_ediv ((Y n + Y (n + (p - q)) : Nat) : ℤ) ((2 ^ w : Nat) : ℤ)
    refine ⟨-(((Y n + Y (n + (p - q)) : Nat) : ℤ) / ((2 ^ w : Nat) : ℤ)), ?_⟩
    rw [← this] at h2
    push_cast at h2 ⊢
    linear_combination h2

theorem lag_dvd {w p q v : Nat} (hq0 : 0 < q) (hq : q < p) (hv : v ≤ w) {Y : Nat → Nat} (hY : IsLagged w p q Y) (h0 : ∀ j, j < p → 2 ^ v ∣ Y j) (n : Nat) :
    2 ^ v ∣ Y n := by
  induction n using Nat.strong_induction_on with
  | _ n ih =>
    rcases Nat.lt_or_ge n p with h | h
    · exact h0 n h
    · have := hY (n - p)
      rw [Nat.sub_add_cancel h] at this
      rw [this, Nat.dvd_mod_iff (pow_dvd_pow 2 hv)]
      exact Nat.dvd_add (ih _ (by omega)) (ih _ (by omega))

theorem lag_seq_period {w p q v : Nat} (hg : Lag.Good p (p - q)) (hq0 : 0 < q) (hq : q < p) (hv : v < w) {Y : Nat → Nat} (hY : IsLagged w p q Y) (hb : ∀ n, Y n < 2 ^ w)
    (h1 : ∀ j, j < p → 2 ^ v ∣ Y j) (h2 : ∃ j, j < p ∧ ¬ 2 ^ (v + 1) ∣ Y j) (i : Nat) : HasPeriod (fun n => Y (i + n)) (lagPeriod w p v) := by
  have hrec := lag_rec hq hY
  have key := hg.period_val hv hrec (fun n => by exact_mod_cast lag_dvd hq0 hq hv.le hY h1 n) (by
    obtain ⟨j, -, hj⟩ := h2
    exact ⟨j, by exact_mod_cast hj⟩)
  have hmod : ∀ a b, (2 : ℤ) ^ w ∣ (Y a : ℤ) - Y b ↔ Y a = Y b := fun a b => by
    rw [show (2 : ℤ) ^ w = ((2 ^ w : Nat) : ℤ) by push_cast; rfl, ← Nat.modEq_iff_dvd]
    exact ⟨fun h => (Nat.ModEq.eq_of_lt_of_lt h (hb b) (hb a)).symm, fun h => by rw [h]⟩
  refine ⟨Nat.mul_pos (Nat.two_pow_pos _) hg.prime.pos, fun P => ?_⟩
  unfold lagPeriod
  rw [← key P]
  refine ⟨fun h n => (hmod _ _).2 ?_, fun h n => ?_⟩
  · refine LaggedInt.backward hq0 hq (X := fun n => Y (n + P)) (Y := Y) (fun n => ?_) hY (fun n => hb _) hb i (fun k => ?_) n
    · have := hY (n + P)
      rw [show n + P + p = n + p + P by omega, show n + p + P - q = n + p - q + P by omega] at this
      exact this
    · have := h k
      simp only [← Nat.add_assoc] at this
      exact this
  · have := (hmod _ _).1 (h (i + n))
    rw [Nat.add_assoc] at this
    exact this

/-- What is known about lags `p`, `q`: `2^p - 1` is a prime number and `X^p + X^(p-q) + 1` divides `X^(2^p) - X` over GF(2). -/
def GoodLags (p q : Nat) : Prop := 0 < q ∧ q < p ∧ p % 2 = 1 ∧ (2 ^ p - 1).Prime ∧ (X ^ p + X ^ (p - q) + 1 : (ZMod 2)[X]) ∣ X ^ 2 ^ p - X

theorem GoodLags.good {p q : Nat} (h : GoodLags p q) : Lag.Good p (p - q) := ⟨by have := h.2.1; omega, by have := h.1; have := h.2.1; omega, h.2.2.1, h.2.2.2.1, h.2.2.2.2⟩

theorem goodLags_of {p q : Nat} (h0 : 0 < q) (h1 : q < p) (h : Lag.Good p (p - q)) : GoodLags p q := ⟨h0, h1, h.odd, h.prime, h.dvd⟩

/-- **C139.** The lags of the nine typedefs: `X^p + X^(p-q) + 1` divides `X^(2^p) - X`, and `2^p - 1` is prime. -/
theorem c139_lags : ∀ l ∈ lagged01Lags, GoodLags l.1 l.2 := by
  intro l hl
  simp only [lagged01Lags, List.mem_cons, List.not_mem_nil, or_false] at hl
  rcases hl with rfl | rfl | rfl | rfl | rfl | rfl | rfl | rfl | rfl
  · exact goodLags_of (by decide) (by decide) Gf2N.L607.good
  · exact goodLags_of (by decide) (by decide) Gf2N.L1279.good
  · exact goodLags_of (by decide) (by decide) Gf2N.L2281.good
  · exact goodLags_of (by decide) (by decide) Gf2N.L3217.good
  · exact goodLags_of (by decide) (by decide) Gf2N.L4423.good
  · exact goodLags_of (by decide) (by decide) Gf2N.L9689.good
  · exact goodLags_of (by decide) (by decide) Gf2N.L19937.good
  · exact goodLags_of (by decide) (by decide) Gf2N.L23209.good
  · exact goodLags_of (by decide) (by decide) Gf2N.L44497.good

theorem lag_table {L : Lagged.Params} {st : BlockEng Nat} (h : LaggedOK L st) {Y : Nat → Nat} (h0 : ∀ j < L.p, st.x[j]? = some (Y j)) {v : Nat} (hv : TwoAdic v st.x) :
    (∀ j, j < L.p → 2 ^ v ∣ Y j) ∧ ∃ j, j < L.p ∧ ¬ 2 ^ (v + 1) ∣ Y j := by
  refine ⟨fun j hj => hv.1 _ (List.mem_of_getElem? (h0 j hj)), ?_⟩
  obtain ⟨a, ha, hn⟩ := hv.2
  obtain ⟨j, hj, rfl⟩ := List.mem_iff_getElem.1 ha
  have hj' : j < L.p := by rw [← h.len]; exact hj
  refine ⟨j, hj', fun hd => hn ?_⟩
  have := h0 j hj'
  rw [List.getElem?_eq_getElem hj] at this
  rw [Option.some.inj this]; exact hd

/-- **C139.** `lagged_fibonacci_engine` with such lags, any word size, from every state that is not all zeros: if `2^v` is the greatest
power of 2 that divides all elements of the table, the values returned repeat after `P` calls exactly if `P` is a multiple of
`2^(w-1-v) (2^p - 1)`. -/
theorem c139_period (L : Lagged.Params) (hv : LaggedValid L) (hg : GoodLags L.p L.q) (st : BlockEng Nat) (h : LaggedOK L st) {v : Nat} (hvw : v < L.w) (ht : TwoAdic v st.x) :
    ∃ out, Returns (LaggedInt.next L) st out ∧ HasPeriod out (lagPeriod L.w L.p v) := by
  obtain ⟨Y, hY, h0, hb, hr⟩ := c19_recurrence hv st h
  obtain ⟨t1, t2⟩ := lag_table h h0 ht
  refine ⟨fun n => Y (st.i + n), fun k => ?_, lag_seq_period hg.good hv.q_pos hv.q_lt hvw hY (fun n => ?_) t1 t2 st.i⟩
  · obtain ⟨st', e, -⟩ := hr k
    exact ⟨st', e⟩
  · have := (hb n).2
    have := Nat.two_pow_pos L.w
    unfold LaggedInt.maxv at *
    omega

/-- **C139.** `lagged_fibonacci_01_engine`: the same of the fractions. -/
theorem c139_period01 (L : Lagged.Params) (hv : LaggedValid L) (hg : GoodLags L.p L.q) (st : BlockEng Nat) (h : LaggedOK L st) {v : Nat} (hvw : v < L.w) (ht : TwoAdic v st.x) :
    ∃ out, Returns (Lagged01.next L.p L.q) (scale L.w st) out ∧ HasPeriod out (lagPeriod L.w L.p v) := by
  obtain ⟨Y, hY, h0, hb, hr⟩ := c63_recurrence hv st h
  obtain ⟨t1, t2⟩ := lag_table h h0 ht
  have hp : (0 : ℚ) < 2 ^ L.w := by positivity
  have hper := lag_seq_period hg.good hv.q_pos hv.q_lt hvw hY (fun n => by
    have := (hb n).2
    rw [Lagged01.maxv, div_lt_one hp] at this
    exact_mod_cast this) t1 t2 st.i
  refine ⟨fun n => (Y (st.i + n) : ℚ) / 2 ^ L.w, hr, hper.1, fun P => ?_⟩
  rw [← hper.2 P]
  refine forall_congr' fun n => ?_
  rw [div_left_inj' hp.ne', Nat.cast_inj]

/-- **C139.** The nine typedefs, from every table of multiples of `2^-48` in which some element is an odd multiple. -/
theorem c139_typedefs : ∀ l ∈ lagged01Lags, ∀ st : BlockEng Nat, LaggedOK ⟨64, 48, l.1, l.2⟩ st → (∃ a ∈ st.x, a % 2 = 1) →
    ∃ out, Returns (Lagged01.next l.1 l.2) (scale 48 st) out ∧ HasPeriod out (2 ^ 47 * (2 ^ l.1 - 1)) := by
  intro l hl st h hodd
  refine c139_period01 ⟨64, 48, l.1, l.2⟩ (c63_typedefs l hl) (c139_lags l hl) st h (v := 0) (Nat.zero_lt_succ 47) ⟨fun a _ => by rw [pow_zero]; exact one_dvd a, ?_⟩
  obtain ⟨a, ha, h1⟩ := hodd
  exact ⟨a, ha, by rw [zero_add, pow_one]; omega⟩

/-- The hypotheses hold of a small engine with good lags (`p = 3`, `q = 1`): 7 times 2^7 calls. -/
example : GoodLags 3 1 ∧ LaggedOK ⟨32, 8, 3, 1⟩ ⟨[255, 4, 0], 2⟩ ∧ TwoAdic 0 [255, 4, 0] ∧ TwoAdic 2 [4, 12, 0] := by
  refine ⟨⟨by decide, by decide, by decide, by decide, ?_⟩, ⟨rfl, by decide, by decide⟩, by unfold TwoAdic; decide, by unfold TwoAdic; decide⟩
  refine ⟨X ^ 5 + X ^ 4 + X ^ 3 + X, ?_⟩
  linear_combination -(X ^ 7 + X ^ 6 + X ^ 5 + X ^ 4 + X ^ 3 + X) * (CharTwo.two_eq_zero : (2 : (ZMod 2)[X]) = 0)

theorem returns_unique {σ α : Type} {next : σ → Option (α × σ)} {st : σ} {out out' : Nat → α} (h : Returns next st out) (h' : Returns next st out') (n : Nat) :
    out n = out' n := by
  obtain ⟨s1, e1⟩ := h (n + 1)
  obtain ⟨s2, e2⟩ := h' (n + 1)
  rw [e1] at e2
  have := congrArg (fun o => o.map Prod.fst) e2
  simp only [Option.map_some, Option.some.injEq] at this
  have := congrArg (fun l => l[n]?) this
  simpa using this

/-- **C139.** From every state, the table of zeros included, the values repeat after `2^47 (2^p - 1)` calls. -/
theorem c139_bound : ∀ l ∈ lagged01Lags, ∀ st : BlockEng Nat, LaggedOK ⟨64, 48, l.1, l.2⟩ st → ∀ out, Returns (Lagged01.next l.1 l.2) (scale 48 st) out →
    ∀ n, out (n + 2 ^ 47 * (2 ^ l.1 - 1)) = out n := by
  intro l hl st h out ho n
  obtain ⟨Y, hY, h0, hb, hr⟩ := c63_recurrence (c63_typedefs l hl) st h
  have hv := c63_typedefs l hl
  have hY' : IsLagged 48 l.1 l.2 Y := hY
  have hp : (0 : ℚ) < 2 ^ 48 := by positivity
  have hlt : ∀ n, Y n < 2 ^ 48 := fun n => by
    have : (Y n : ℚ) / 2 ^ 48 < Lagged01.maxv := (hb n).2
    rw [Lagged01.maxv, div_lt_one hp] at this
    exact_mod_cast this
  have hd := (c139_lags l hl).good.full (w := 48) (by decide) (lag_rec hv.q_lt hY') (st.i + n)
  rw [show (2 : ℤ) ^ 48 = ((2 ^ 48 : Nat) : ℤ) by norm_num, ← Nat.modEq_iff_dvd] at hd
  have he := Nat.ModEq.eq_of_lt_of_lt hd (hlt _) (hlt _)
  have hr' : Returns (Lagged01.next l.1 l.2) (scale 48 st) fun k => (Y (st.i + k) : ℚ) / 2 ^ 48 := hr
  rw [returns_unique ho hr', returns_unique ho hr']
  show (Y (st.i + (n + 2 ^ 47 * (2 ^ l.1 - 1))) : ℚ) / 2 ^ 48 = (Y (st.i + n) : ℚ) / 2 ^ 48
  rw [← Nat.add_assoc, ← he]

/-- **C139.** The lengths of cycle in the documentation are false of all nine typedefs: whatever the state, the period is below `2^(p+47)`,
of which the documented length exceeds even the 40th power. -/
theorem c139_documented_false : ∀ d ∈ lagDocumented, ∃ l ∈ lagged01Lags, l.1 = d.1 ∧ 40 * (l.1 + 47) < d.2 ∧
    ∀ st : BlockEng Nat, LaggedOK ⟨64, 48, l.1, l.2⟩ st → ∀ out T, Returns (Lagged01.next l.1 l.2) (scale 48 st) out → HasPeriod out T → T < 2 ^ (l.1 + 47) := by
  intro d hd
  have : ∃ l ∈ lagged01Lags, l.1 = d.1 ∧ 40 * (l.1 + 47) < d.2 := by
    revert d
    decide
  obtain ⟨l, hl, e, hlt⟩ := this
  refine ⟨l, hl, e, hlt, fun st h out T ho hT => ?_⟩
  have h1 := (hT.2 _).1 (c139_bound l hl st h out ho)
  have hpos := (c139_lags l hl).2.2.2.1.pos
  have h2 := Nat.le_of_dvd (Nat.mul_pos (Nat.two_pow_pos 47) hpos) h1
  refine lt_of_le_of_lt h2 ?_
  rw [Nat.add_comm l.1 47, pow_add]
  exact Nat.mul_lt_mul_of_pos_left (by omega) (Nat.two_pow_pos 47)

/-! ### Seeding -/

/-- The integers behind the table that is read from words: element `j` from the words `2 j` and `2 j + 1`. -/
def lagTable (w p : Nat) (ws : List Nat) : List Nat := (List.range p).map fun j => number (2 ^ 32) (chunk ((w + 31) / 32) ws j) % 2 ^ w

theorem lagTable_ok (l : Nat × Nat) (ws : List Nat) : LaggedOK ⟨64, 48, l.1, l.2⟩ ⟨lagTable 48 l.1 ws, l.1⟩ :=
  ⟨by simp [lagTable], fun v hv => by
    obtain ⟨j, -, rfl⟩ := List.mem_map.1 hv
    exact Nat.mod_lt _ (Nat.two_pow_pos _), le_refl _⟩

theorem seedRange01 (p : Nat) (ws : List Nat) (hws : ∀ x ∈ ws, x < 2 ^ 32) (hn : 2 * p ≤ ws.length) :
    Lagged01.seedRange 53 48 p ws = .ok (scale 48 ⟨lagTable 48 p ws, p⟩) (ws.drop (2 * p)) := by
  unfold Lagged01.seedRange
  rw [c25_fill_array_real 53 48 p (by decide) ws hws, if_neg (by omega)]
  simp only [scale, lagTable, List.map_map, Function.comp_def]

theorem odd_mem {p : Nat} {ws : List Nat} (hn : 2 * p ≤ ws.length) {j : Nat} (hj : j < p) {x : Nat} (hx : ws[2 * j]? = some x) (h1 : x % 2 = 1) :
    ∃ a ∈ lagTable 48 p ws, a % 2 = 1 := by
  refine ⟨_, List.mem_map.2 ⟨j, List.mem_range.2 hj, rfl⟩, ?_⟩
  obtain ⟨h2, e⟩ := List.getElem?_eq_some_iff.1 hx
  have : chunk ((48 + 31) / 32) ws j = [x, ws[2 * j + 1]'(by omega)] := by
    unfold chunk
    rw [show (48 + 31) / 32 = 2 from rfl, List.drop_eq_getElem_cons h2, List.drop_eq_getElem_cons (by omega : 2 * j + 1 < ws.length), e]
    rfl
  rw [this]
  simp only [number]
  omega

/-- **C139.** Seeding from a range of 32-bit words: if one of the words 0, 2, 4, ..., 2p-2 is odd the engine has the full period. -/
theorem c139_seed_range : ∀ l ∈ lagged01Lags, ∀ ws : List Nat, (∀ x ∈ ws, x < 2 ^ 32) → 2 * l.1 ≤ ws.length →
    (∃ j x, j < l.1 ∧ ws[2 * j]? = some x ∧ x % 2 = 1) →
    ∃ st out, Lagged01.seedRange 53 48 l.1 ws = .ok st (ws.drop (2 * l.1)) ∧ Returns (Lagged01.next l.1 l.2) st out ∧ HasPeriod out (2 ^ 47 * (2 ^ l.1 - 1)) := by
  intro l hl ws hws hn ⟨j, x, hj, hx, h1⟩
  obtain ⟨out, h2, h3⟩ := c139_typedefs l hl _ (lagTable_ok l ws) (odd_mem hn hj hx h1)
  exact ⟨_, out, seedRange01 l.1 ws hws hn, h2, h3⟩

/-- C139: nothing prevents a table of zeros: seeded from a range of words that are zeros, the engines return 0 for ever. -/
theorem c139_zeros_false : ∀ l ∈ lagged01Lags, ∃ st, Lagged01.seedRange 53 48 l.1 (List.replicate (2 * l.1) 0) = .ok st [] ∧
    Returns (Lagged01.next l.1 l.2) st fun _ => 0 := by
  intro l hl
  have hlen : (List.replicate (2 * l.1) 0).length = 2 * l.1 := List.length_replicate ..
  have h1 := seedRange01 l.1 (List.replicate (2 * l.1) 0) (fun x hx => by rw [List.eq_of_mem_replicate hx]; decide) hlen.ge
  rw [List.drop_of_length_le hlen.le] at h1
  refine ⟨_, h1, fun k => ?_⟩
  have hv := c63_typedefs l hl
  obtain ⟨Y, hY, h0, -, hr⟩ := c63_recurrence hv _ (lagTable_ok l (List.replicate (2 * l.1) 0))
  have hz : ∀ n, Y n = 0 := fun n => by
    have hn : ∀ (c : Nat) (a : List Nat), (∀ x ∈ a, x = 0) → number c a = 0 := fun c a => by
      induction a with
      | nil => intro _; rfl
      | cons x a ih => intro h; rw [number, h x (by simp), ih fun y hy => h y (by simp [hy])]; simp
    have hj : ∀ j, j < l.1 → Y j = 0 := fun j hj => by
      have := h0 j hj
      simp only [lagTable, List.getElem?_map, List.getElem?_range hj, Option.map_some, Option.some.injEq] at this
      rw [← this, hn _ _ fun x hx => ?_, Nat.zero_mod]
      exact List.eq_of_mem_replicate (List.mem_of_mem_drop (List.mem_of_mem_take hx))
    induction n using Nat.strong_induction_on with
    | _ n ih =>
      rcases Nat.lt_or_ge n l.1 with h | h
      · exact hj n h
      · have := hY (n - l.1)
        have e : n - l.1 + l.1 = n := Nat.sub_add_cancel h
        simp only [e] at this
        have q0 := hv.q_pos
        have q1 := hv.q_lt
        simp only at q0 q1
        rw [this, ih _ (by omega), ih _ (by omega)]
  obtain ⟨st', e⟩ := hr k
  refine ⟨st', e.trans ?_⟩
  simp only [hz, Nat.cast_zero, zero_div]

theorem minstd_seed (value : Nat) : (minstdRand0.seed ((value % 2 ^ 32 : Nat) : Int)).toNat =
    if value % 2 ^ 32 % 2147483647 = 0 then 1 else value % 2 ^ 32 % 2147483647 := by
  rw [(c08_seed minstdRand0 (by decide) ((value % 2 ^ 32 : Nat) : Int) (by intro h; exact absurd h (by decide))).2.2]
  have e1 : ((modulus minstdRand0.T minstdRand0.m : Nat) : Int) = 2147483647 := by decide
  have e2 : minstdRand0.c = 0 := rfl
  rw [e1, e2]
  generalize value % 2 ^ 32 = z
  by_cases hz : z % 2147483647 = 0
  · rw [if_pos hz, if_pos ⟨rfl, by omega⟩]; rfl
  · rw [if_neg hz, if_neg (by omega)]; omega

/-- The seed of the `minstd_rand0`: 1 instead of a multiple of the modulus. -/
def lagSeed (value : Nat) : Nat := if value % 2 ^ 32 % 2147483647 = 0 then 1 else value % 2 ^ 32 % 2147483647

theorem lagSeed_lt (value : Nat) : 0 < lagSeed value ∧ lagSeed value < 2147483647 := by unfold lagSeed; split <;> omega

/-- The words of the `minstd_rand0`. -/
def lagWords (n value : Nat) : List Nat := (List.range n).map fun k => 16807 ^ (k + 1) * lagSeed value % 2147483647

theorem seedValue01 (p value : Nat) : Lagged01.seedValue 53 48 p value = some (scale 48 ⟨lagTable 48 p (lagWords (2 * p) value), p⟩) := by
  unfold Lagged01.seedValue
  rw [minstd_seed, ← lagSeed.eq_def, minstd_words _ _ (lagSeed_lt value).2, Option.bind_some]
  unfold Lagged01.seedSeq
  have h := seedRange01 p (lagWords (2 * p) value) (fun x hx => by
    obtain ⟨k, -, rfl⟩ := List.mem_map.1 hx
    exact lt_of_lt_of_le (Nat.mod_lt _ (by decide)) (by decide)) (by simp [lagWords])
  unfold Lagged01.seedRange at h
  simp only [lagWords, lagSeed] at h ⊢
  rw [show (48 + 31) / 32 * p = 2 * p from rfl]
  split at h
  · rename_i xs rest e
    rw [e]
    simp only [SeedImpl.Got.ok.injEq] at h
    exact congrArg some h.1
  · cases h
  · cases h

theorem lagWords_get {n k : Nat} (value : Nat) (hk : k < n) : (lagWords n value)[k]? = some (16807 ^ (k + 1) * lagSeed value % 2147483647) := by
  simp [lagWords, hk]

/-- **C139.** Constructed by default (seed 331), all nine typedefs have the full period. -/
theorem c139_default : ∀ l ∈ lagged01Lags, ∃ st out, Lagged01.seedValue 53 48 l.1 Lagged01.defaultSeed = some st ∧ Returns (Lagged01.next l.1 l.2) st out ∧
    HasPeriod out (2 ^ 47 * (2 ^ l.1 - 1)) := by
  intro l hl
  have hp : 0 < l.1 := by have := (c63_typedefs l hl).q_lt; simp only at this; omega
  obtain ⟨out, h2, h3⟩ := c139_typedefs l hl _ (lagTable_ok l (lagWords (2 * l.1) Lagged01.defaultSeed))
    (odd_mem (j := 0) (by simp [lagWords]) hp (lagWords_get _ (by omega)) (by decide))
  exact ⟨_, out, seedValue01 _ _, h2, h3⟩

/-! ## C140: the seeds -/

theorem lag_first {p : Nat} (hp : 0 < p) (value : Nat) : ∃ y, (lagTable 48 p (lagWords (2 * p) value))[0]? = some (16807 * lagSeed value % 2147483647 + 2 ^ 32 * y) := by
  have h0 : (lagWords (2 * p) value)[0]? = some (16807 * lagSeed value % 2147483647) := by rw [lagWords_get value (by omega)]; rfl
  have hlen : (lagWords (2 * p) value).length = 2 * p := by simp [lagWords]
  obtain ⟨h2, e⟩ := List.getElem?_eq_some_iff.1 h0
  have : chunk ((48 + 31) / 32) (lagWords (2 * p) value) 0 = [16807 * lagSeed value % 2147483647, (lagWords (2 * p) value)[1]'(by omega)] := by
    unfold chunk
    rw [show (48 + 31) / 32 = 2 from rfl, Nat.mul_zero, List.drop_eq_getElem_cons h2, List.drop_eq_getElem_cons (by omega : 0 + 1 < (lagWords (2 * p) value).length), e]
    rfl
  refine ⟨(lagWords (2 * p) value)[1] % 2 ^ 16, ?_⟩
  unfold lagTable
  rw [List.getElem?_map, List.getElem?_range hp, Option.map_some, this]
  simp only [number]
  have := Nat.mod_lt (16807 * lagSeed value) (show 0 < 2147483647 by decide)
  congr 1
  omega

theorem minstd_inj {a b : Nat} (ha : a < 2147483647) (hb : b < 2147483647) (h : 16807 * a % 2147483647 = 16807 * b % 2147483647) : a = b :=
  Nat.ModEq.eq_of_lt_of_lt (Nat.ModEq.cancel_left_of_coprime (by decide) h) ha hb

/-- C140: engines at the same position that return the same values for ever have the same table. -/
theorem c140_tables (L : Lagged.Params) (hv : LaggedValid L) (st st' : BlockEng Nat) (h : LaggedOK L st) (h' : LaggedOK L st') (hi : st.i = st'.i)
    (hf : SameFuture (Lagged01.next L.p L.q) (scale L.w st) (scale L.w st')) : st.x = st'.x := by
  obtain ⟨Y, hY, h0, hb, hr⟩ := c63_recurrence hv st h
  obtain ⟨Z, hZ, z0, zb, zr⟩ := c63_recurrence hv st' h'
  have hp : (0 : ℚ) < 2 ^ L.w := by positivity
  have lt : ∀ (W : Nat → Nat) n, (W n : ℚ) / 2 ^ L.w < Lagged01.maxv → W n < 2 ^ L.w := fun W n h => by
    rw [Lagged01.maxv, div_lt_one hp] at h
    exact_mod_cast h
  have hYZ : ∀ k, Y (st.i + k) = Z (st.i + k) := fun k => by
    obtain ⟨s1, e1⟩ := hr (k + 1)
    obtain ⟨s2, e2⟩ := zr (k + 1)
    have := hf (k + 1)
    rw [e1, e2] at this
    simp only [Option.map_some, Option.some.injEq] at this
    have := congrArg (fun l => l[k]?) this
    simp only [List.getElem?_map, List.getElem?_range (Nat.lt_succ_self k), Option.map_some, Option.some.injEq] at this
    rw [div_left_inj' hp.ne', Nat.cast_inj] at this
    rw [this, hi]
  have all := LaggedInt.backward hv.q_pos hv.q_lt hY hZ (fun n => lt Y n (hb n).2) (fun n => lt Z n (zb n).2) st.i hYZ
  refine List.ext_getElem? fun j => ?_
  by_cases hj : j < L.p
  · rw [h0 j hj, z0 j hj, all j]
  · rw [List.getElem?_eq_none (by rw [h.len]; omega), List.getElem?_eq_none (by rw [h'.len]; omega)]

theorem low_eq {a b y z : Nat} (ha : a < 2147483647) (hb : b < 2147483647) (h : b + 2 ^ 32 * z = a + 2 ^ 32 * y) : a = b := by omega

/-- **C140.** Two seeds give `lagged_fibonacci607` ... `lagged_fibonacci44497` the same state, or the same values for ever, exactly if they give the
`minstd_rand0` the same state. -/
theorem c140_seeds : ∀ l ∈ lagged01Lags, ∀ v v' : Nat, ∃ st st', Lagged01.seedValue 53 48 l.1 v = some st ∧ Lagged01.seedValue 53 48 l.1 v' = some st' ∧
    (st = st' ↔ lagSeed v = lagSeed v') ∧ (SameFuture (Lagged01.next l.1 l.2) st st' ↔ lagSeed v = lagSeed v') := by
  intro l hl v v'
  have hv := c63_typedefs l hl
  have hp : 0 < l.1 := Nat.lt_of_le_of_lt (Nat.zero_le _) hv.q_lt
  have hsame : lagSeed v = lagSeed v' → lagWords (2 * l.1) v = lagWords (2 * l.1) v' := fun e => by unfold lagWords; rw [e]
  have hf : SameFuture (Lagged01.next l.1 l.2) (scale 48 ⟨lagTable 48 l.1 (lagWords (2 * l.1) v), l.1⟩) (scale 48 ⟨lagTable 48 l.1 (lagWords (2 * l.1) v'), l.1⟩) →
      lagSeed v = lagSeed v' := fun h => by
    have ht := c140_tables ⟨64, 48, l.1, l.2⟩ hv _ _ (lagTable_ok l (lagWords (2 * l.1) v)) (lagTable_ok l (lagWords (2 * l.1) v')) rfl h
    obtain ⟨y, ey⟩ := lag_first hp v
    obtain ⟨z, ez⟩ := lag_first hp v'
    have ht' : lagTable 48 l.1 (lagWords (2 * l.1) v) = lagTable 48 l.1 (lagWords (2 * l.1) v') := ht
    rw [ht', ez, Option.some.injEq] at ey
    refine minstd_inj (lagSeed_lt v).2 (lagSeed_lt v').2 ?_
    have a1 := Nat.mod_lt (16807 * lagSeed v) (show 0 < 2147483647 by decide)
    have a2 := Nat.mod_lt (16807 * lagSeed v') (show 0 < 2147483647 by decide)
    exact low_eq a1 a2 ey
  refine ⟨_, _, seedValue01 _ _, seedValue01 _ _, ⟨fun e => hf ?_, fun e => by rw [hsame e]⟩, ⟨hf, fun e => ?_⟩⟩
  · rw [e]; exact SameFuture.refl _
  · rw [hsame e]; exact SameFuture.refl _

/-- **C140.** Distinct seeds from 1 to `2^31 - 2` give different states, from which different values are returned. -/
theorem c140_distinct : ∀ l ∈ lagged01Lags, ∀ v v' : Nat, 1 ≤ v → v < 2147483647 → 1 ≤ v' → v' < 2147483647 → v ≠ v' →
    ∃ st st', Lagged01.seedValue 53 48 l.1 v = some st ∧ Lagged01.seedValue 53 48 l.1 v' = some st' ∧ st ≠ st' ∧ ¬ SameFuture (Lagged01.next l.1 l.2) st st' := by
  intro l hl v v' h1 h2 h3 h4 hne
  obtain ⟨st, st', e, e', i1, i2⟩ := c140_seeds l hl v v'
  have : lagSeed v ≠ lagSeed v' := by
    unfold lagSeed
    rw [Nat.mod_eq_of_lt (by omega : v < 2 ^ 32), Nat.mod_eq_of_lt h2, if_neg (by omega), Nat.mod_eq_of_lt (by omega : v' < 2 ^ 32), Nat.mod_eq_of_lt h4, if_neg (by omega)]
    exact hne
  exact ⟨st, st', e, e', fun h => this (i1.1 h), fun h => this (i2.1 h)⟩

/-- **C140.** Any other seed is equivalent to one of these. -/
theorem c140_others : ∀ l ∈ lagged01Lags, ∀ v : Nat, ∃ v' st, 1 ≤ v' ∧ v' < 2147483647 ∧ Lagged01.seedValue 53 48 l.1 v = some st ∧ Lagged01.seedValue 53 48 l.1 v' = some st := by
  intro l hl v
  obtain ⟨h1, h2⟩ := lagSeed_lt v
  have : lagSeed (lagSeed v) = lagSeed v := by
    conv_lhs => unfold lagSeed
    rw [show (if v % 2 ^ 32 % 2147483647 = 0 then 1 else v % 2 ^ 32 % 2147483647) = lagSeed v from rfl, Nat.mod_eq_of_lt (by omega : lagSeed v < 2 ^ 32), Nat.mod_eq_of_lt h2, if_neg (by omega)]
  obtain ⟨st, st', e, e', i1, -⟩ := c140_seeds l hl v (lagSeed v)
  exact ⟨lagSeed v, st, h1, h2, e, by rw [e', i1.2 this.symm]⟩

/-- The seeds 331 and 331 + 2^31 - 1 are equivalent. -/
example : lagSeed 331 = 331 ∧ lagSeed (331 + 2147483647) = 331 ∧ lagSeed 0 = 1 := by decide

end Boost.Random
