import Verif.Proofs.SeedImpl
import Verif.Proofs.SeedSeq
import Verif.Model.SeedEngines
import Verif.Props.Lcg
import Verif.Props.MersenneTwister
import Verif.Props.LaggedFibonacci
import Verif.Props.Swc

/-!
# C25, C26, C27: seeding from ranges and sequences, `generate`
-/

namespace Boost.Random
open Spec SeedImpl

/-! ## C25 -/

/-- **C25 (linear congruential and feedback shift engines).** `get_one_int` reads exactly the least number of 32-bit
words that can hold every value below the modulus, or throws if the range is shorter. The result is the number with
these words as digits, reduced modulo `m`; the rest of the range is not touched.
For a modulus for which the 128-bit arithmetic helper is right (`WideOK`, see C03). -/
theorem c25_get_one_int (T : IntTy) (m : Nat) (hT : AnyTy T) (hm : m ≤ T.maxv) (h1 : m ≠ 1) (hw : WideOK m) :
    ∃ k, 1 ≤ k ∧ 2 ^ (32 * (k - 1)) < modulus T m ∧ modulus T m ≤ 2 ^ (32 * k) ∧
      ∀ ws : List Nat, (∀ w ∈ ws, w ≤ T.maxv) →
        getOneInt T m ws = if ws.length < k then .throws
          else .ok (number (2 ^ 32) (ws.take k) % modulus T m) (ws.drop k) := by
  obtain ⟨k1, k2, k3⟩ := wordCount_spec T m hT hm h1
  refine ⟨wordCount T m, k1, k2, k3, fun ws hws => ?_⟩
  unfold getOneInt
  rw [getLoop_spec T m hT hm hw _ _ _ ws hws _ (ConstMod.modulus_pos T m)]
  · simp
  · intro i hi
    refine lt_of_le_of_lt (Nat.pow_le_pow_right (by norm_num) ?_) k2
    omega

example : getOneInt ⟨64, false⟩ (2 ^ 48) [0x89abcdef, 0x12345678, 7] = .ok 0x567889abcdef [7] ∧
    getOneInt ⟨64, false⟩ (2 ^ 48) [0x89abcdef] = .throws := by decide

/-- C25: `seed_one_int` uses the words 3, 4, ... of the sequence in the same way; its local array is long enough. -/
theorem c25_seed_one_int (T : IntTy) (m : Nat) (hT : AnyTy T) (hm : m ≤ T.maxv) (h1 : m ≠ 1) (hw : WideOK m)
    (gen : Nat → List Nat) (hg : ∀ n, (gen n).length = n ∧ ∀ w ∈ gen n, w ≤ T.maxv) :
    ∃ k, 1 ≤ k ∧ 2 ^ (32 * (k - 1)) < modulus T m ∧ modulus T m ≤ 2 ^ (32 * k) ∧
      seedOneInt T m gen = some (number (2 ^ 32) ((gen (k + 3)).drop 3) % modulus T m) := by
  obtain ⟨k1, k2, k3⟩ := wordCount_spec T m hT hm h1
  refine ⟨wordCount T m, k1, k2, k3, ?_⟩
  unfold seedOneInt
  have hb := wordCount_buffer T m
  simp only
  rw [if_pos (by omega)]
  obtain ⟨g1, g2⟩ := hg (wordCount T m + 3)
  rw [getLoop_spec T m hT hm hw _ _ _ _ (fun w hx => g2 w (List.mem_of_mem_drop hx)) _ (ConstMod.modulus_pos T m)]
  · rw [if_neg (by rw [List.length_drop, g1]; omega)]
    simp only [Nat.mul_zero, pow_zero, one_mul, Nat.zero_add]
    rw [List.take_of_length_le (by rw [List.length_drop, g1]; omega)]
  · intro i hi
    refine lt_of_le_of_lt (Nat.pow_le_pow_right (by norm_num) ?_) k2
    omega

example : seedOneInt ⟨32, false⟩ 2147483647 (fun n => (List.range n).map (· + 4000000000)) = some 1852516356 := by decide

/-- **C25 (types narrower than `int`).** For an unsigned type of at most 16 bits one word is read, whatever the modulus,
and it is reduced to the type first: its high bits do not count. No step overflows `int`, also for the modulus `2^16`, for
which the engine itself overflows (C150). -/
theorem c25_narrow (T : IntTy) (m : Nat) (hT : AnyTy T) (hu : T.signed = false) (hb : T.bits ≤ 16) (hm : m ≤ T.maxv)
    (h1 : m ≠ 1) :
    (∀ w ws, getOneInt T m (w :: ws) = .ok (w % 2 ^ T.bits % modulus T m) ws) ∧ getOneInt T m [] = .throws ∧
    ∀ gen : Nat → List Nat, (∀ n, (gen n).length = n) →
      seedOneInt T m gen = some ((gen 4).getD 3 0 % 2 ^ T.bits % modulus T m) := by
  have hk := wordCount_narrow T m hT hb hm h1
  have hw : WideOK m := Or.inl (by
    have : 2 ^ T.bits ≤ 2 ^ 16 := Nat.pow_le_pow_right (by norm_num) hb
    have : T.maxv < 2 ^ T.bits := by
      have := Nat.two_pow_pos T.bits
      unfold IntTy.maxv; rw [hu]; simp only [Bool.false_eq_true, if_false]; omega
    omega)
  have hM : 1 < modulus T m := by
    obtain ⟨-, k2, -⟩ := wordCount_spec T m hT hm h1
    rwa [hk] at k2
  have one : ∀ w ws, getLoop T m 1 0 0 (w :: ws) = .ok (w % 2 ^ T.bits % modulus T m) ws := by
    intro w ws
    rw [getLoop_any T m hT hm hw (· % 2 ^ T.bits) 1 0 0 (w :: ws) (fun x _ => fit_unsigned T hu x)
      (fun i hi => by rw [show i = 0 by omega]; simpa using hM) (by omega), if_neg (by simp)]
    simp [number]
  refine ⟨fun w ws => ?_, ?_, fun gen hg => ?_⟩
  · unfold getOneInt; rw [hk, one]
  · unfold getOneInt; rw [hk]; rfl
  · unfold seedOneInt
    have hbuf := wordCount_buffer T m
    simp only
    rw [if_pos (by omega), hk]
    have h4 := hg 4
    match h : gen 4, h4 with
    | [a, b, c, d], _ =>
      rw [show [a, b, c, d].drop 3 = [d] from rfl, one]
      rfl

example : getOneInt ⟨16, false⟩ 65521 [0x1234fffe, 5] = .ok 13 [5] ∧ getOneInt ⟨16, false⟩ 0 [0x12345678] = .ok 0x5678 [] ∧
    seedOneInt ⟨8, false⟩ 251 (fun n => (List.range n).map (· + 1000)) = some 235 := by decide

/-- **C25 (array engines).** `fill_array_int<w>` reads exactly `ceil(w/32) * n` words or throws; element `j` is the
number with the words `ceil(w/32) * j`, ... as digits, reduced modulo `2^w`. -/
theorem c25_fill_array (bits w n : Nat) (hw : w ≤ bits) (ws : List Nat) :
    fillArrayInt bits w n ws = if ws.length < (w + 31) / 32 * n then .throws
      else .ok ((List.range n).map fun j => number (2 ^ 32) (chunk ((w + 31) / 32) ws j) % 2 ^ w)
        (ws.drop ((w + 31) / 32 * n)) := fillArrayInt_spec bits w hw n ws

example : fillArrayInt 64 48 2 [1, 0x10002, 3, 4, 99] = .ok [0x000200000001, 0x000400000003] [99] ∧
    fillArrayInt 64 48 2 [1, 2, 3] = .throws := by decide

/-- C25: `seed_array_int<w>` computes the same from the words of a sequence, for which there is always room. -/
theorem c25_seed_array (bits w n : Nat) (hw : w ≤ bits) (gen : Nat → List Nat) (hg : ∀ n, (gen n).length = n) :
    seedArrayInt bits w n gen =
      some ((List.range n).map fun j => number (2 ^ 32) (chunk ((w + 31) / 32) (gen ((w + 31) / 32 * n)) j) % 2 ^ w) := by
  unfold seedArrayInt
  rw [fillArrayInt_spec bits w hw, if_neg (by rw [hg]; omega)]

example : seedArrayInt 32 31 3 (fun n => (List.range n).map (· + 2 ^ 31)) = some [0, 1, 2] := by decide

/-- C25: the floating-point engines: element `j` is that number modulo `2^w`, divided by `2^w`, hence in `[0, 1)`.
The type must have at least `w` digits (with fewer the function `pow2` is wrong, see below). -/
theorem c25_fill_array_real (digits w n : Nat) (hw : w ≤ digits) (ws : List Nat) (hws : ∀ x ∈ ws, x < 2 ^ 32) :
    fillArrayReal digits w n ws = if ws.length < (w + 31) / 32 * n then .throws
      else .ok ((List.range n).map fun j => ((number (2 ^ 32) (chunk ((w + 31) / 32) ws j) % 2 ^ w : Nat) : ℚ) / 2 ^ w)
        (ws.drop ((w + 31) / 32 * n)) := fillArrayReal_spec digits w hw n ws hws

example : fillArrayReal 53 48 1 [0, 0x8000, 5] = .ok [1 / 2] [5] := by
  rw [c25_fill_array_real 53 48 1 (by norm_num) _ (by decide)]
  norm_num [chunk, number, List.range_succ]

/-- C25: outside that guard: for 64 bits in a `double` (53 digits) the power of two is 1 instead of `2^64`. -/
theorem c25_pow2_false : pow2 53 64 = 1 := by
  norm_num [pow2, constPow]

/-- C25: seeding a linear congruential engine from a range: the exact number of words, the value, a valid state. -/
theorem c25_lcg (E : Lcg) (hT : AnyTy E.T) (hm : E.m ≤ E.T.maxv) (h1 : E.m ≠ 1) (hw : WideOK E.m) :
    ∃ k, 1 ≤ k ∧ 2 ^ (32 * (k - 1)) < modulus E.T E.m ∧ modulus E.T E.m ≤ 2 ^ (32 * k) ∧
      ∀ ws : List Nat, (∀ w ∈ ws, w ≤ E.T.maxv) →
        (ws.length < k → E.seedRange ws = .throws) ∧
        (k ≤ ws.length → ∃ x, E.seedRange ws = .ok x (ws.drop k) ∧ (E.min : Int) ≤ x ∧ x ≤ E.max ∧
          x = if E.c = 0 ∧ number (2 ^ 32) (ws.take k) % modulus E.T E.m = 0 then 1
            else ((number (2 ^ 32) (ws.take k) % modulus E.T E.m : Nat) : Int)) := by
  obtain ⟨k, k1, k2, k3, hk⟩ := c25_get_one_int E.T E.m hT hm h1 hw
  have hM : 1 < modulus E.T E.m := by
    have := Nat.one_le_two_pow (n := 32 * (k - 1)); omega
  refine ⟨k, k1, k2, k3, fun ws hws => ⟨fun h => ?_, fun h => ?_⟩⟩
  · unfold Lcg.seedRange
    rw [hk ws hws, if_pos h]
  · unfold Lcg.seedRange
    rw [hk ws hws, if_neg (by omega)]
    simp only
    set s := number (2 ^ 32) (ws.take k) % modulus E.T E.m with hs
    have hsl : s < modulus E.T E.m := Nat.mod_lt _ (by omega)
    obtain ⟨b1, b2, b3⟩ := c08_seed E hM (s : Int) (fun h0 => by
      have : modulus E.T E.m = E.T.maxv + 1 := by unfold modulus; rw [if_pos h0]
      omega)
    have hmod : (s : Int) % (modulus E.T E.m : Int) = s := Int.emod_eq_of_lt (by omega) (by omega)
    refine ⟨_, rfl, b1, b2, ?_⟩
    rw [b3, hmod]
    simp only [Nat.cast_eq_zero]

example : minstdRand0.seedRange [2147483647, 9] = .ok 1 [9] := by decide

/-- C25: seeding a Mersenne Twister from a range: exactly `ceil(w/32) * n` words or the exception, and a state which
never gets stuck. -/
theorem c25_mt (P : Mt.Params) (hv : MtValid P) (ws : List Nat) :
    (ws.length < (P.w + 31) / 32 * P.n → Mt.seedRange P ws = .throws) ∧
    ((P.w + 31) / 32 * P.n ≤ ws.length → ∃ st, Mt.seedRange P ws = .ok st (ws.drop ((P.w + 31) / 32 * P.n)) ∧
      Mt.seedWords P ((List.range P.n).map fun j => number (2 ^ 32) (chunk ((P.w + 31) / 32) ws j) % 2 ^ P.w) = some st ∧
      MtShape P st ∧ MtReachable P st ∧
      ∀ k, ∃ vs st', run (Mt.next P) (k + P.n) st = some (vs, st') ∧ ∃ v ∈ vs.drop k, v ≠ 0) := by
  unfold Mt.seedRange
  rw [fillArrayInt_spec P.bits P.w hv.w_le]
  refine ⟨fun h => by rw [if_pos h], fun h => ?_⟩
  rw [if_neg (by omega)]
  obtain ⟨st, e, h1, h2, _, h3⟩ := c21_seed_words_never_stuck hv
    ((List.range P.n).map fun j => number (2 ^ 32) (chunk ((P.w + 31) / 32) ws j) % 2 ^ P.w) (by simp) (by
      intro v hvm
      obtain ⟨j, _, rfl⟩ := List.mem_map.1 hvm
      exact Nat.mod_lt _ (Nat.two_pow_pos _))
  refine ⟨st, ?_, e, h1, h2, h3⟩
  simp only
  rw [e]

example : (match Mt.seedRange mtTiny ((List.range 12).map (· + 1)) with | .ok st rest => some (st.x, rest) | _ => none)
    = some ([4, 2, 3, 4, 5], [6, 7, 8, 9, 10, 11, 12]) := by decide

/-- C25: seeding a lagged Fibonacci engine from a range. -/
theorem c25_lagged (L : Lagged.Params) (hv : LaggedValid L) (ws : List Nat) :
    (ws.length < (L.w + 31) / 32 * L.p → LaggedInt.seedRange L ws = .throws) ∧
    ((L.w + 31) / 32 * L.p ≤ ws.length → ∃ st, LaggedInt.seedRange L ws = .ok st (ws.drop ((L.w + 31) / 32 * L.p)) ∧
      LaggedOK L st ∧ st.i = L.p ∧
      ∀ j < L.p, st.x[j]? = some (number (2 ^ 32) (chunk ((L.w + 31) / 32) ws j) % 2 ^ L.w)) := by
  unfold LaggedInt.seedRange
  rw [fillArrayInt_spec L.bits L.w hv.w_le]
  refine ⟨fun h => by rw [if_pos h], fun h => ?_⟩
  rw [if_neg (by omega)]
  refine ⟨_, rfl, ⟨by simp, ?_, le_refl _⟩, rfl, ?_⟩
  · intro v hvm
    obtain ⟨j, _, rfl⟩ := List.mem_map.1 hvm
    exact Nat.mod_lt _ (Nat.two_pow_pos _)
  · intro j hj
    simp [hj]

example : LaggedInt.seedRange ⟨32, 31, 5, 2⟩ [1, 2, 3, 4, 0x80000005, 6] = .ok ⟨[1, 2, 3, 4, 5], 5⟩ [6] := by decide

theorem minstd_words : ∀ (n s : Nat), s < 2147483647 →
    fromGenerator (fun x => (minstdRand0.next x).map fun y => (y, y)) n s =
      some ((List.range n).map fun k => 16807 ^ (k + 1) * s % 2147483647)
  | 0, s, _ => rfl
  | n + 1, s, hs => by
    have h1 := Lcg.calls_spec minstdRand0_valid 1 s hs
    have h2 : minstdRand0.next s = some (16807 * s % 2147483647) := by
      cases hn : minstdRand0.next s with
      | none => simp [calls, hn] at h1
      | some y =>
        simp only [calls, hn, Option.bind_some, Option.some.injEq, Function.iterate_one] at h1
        rw [h1]; rfl
    have hlt : 16807 * s % 2147483647 < 2147483647 := Nat.mod_lt _ (by norm_num)
    unfold fromGenerator
    rw [h2]
    simp only [Option.map_some, Option.bind_some]
    rw [minstd_words n _ hlt, Option.map_some, List.range_succ_eq_map, List.map_cons, List.map_map,
      Nat.mod_eq_of_lt (lt_trans hlt (by norm_num))]
    have e0 : 16807 ^ (0 + 1) * s = 16807 * s := by rw [Nat.zero_add, pow_one]
    have e1 : ∀ k, 16807 ^ (k + 1) * (16807 * s % 2147483647) % 2147483647 = 16807 ^ (k + 1 + 1) * s % 2147483647 := by
      intro k
      rw [Nat.mul_mod_mod, pow_succ 16807 (k + 1), Nat.mul_assoc]
    rw [e0]
    simp only [Function.comp_def, Nat.succ_eq_add_one, e1]

/-- C25: `seed(value)` of a lagged Fibonacci engine: the words are the powers of 16807 times the seed (1 if the seed is
a multiple of the modulus) modulo `2^31 - 1`. -/
theorem c25_lagged_value (L : Lagged.Params) (hv : LaggedValid L) (value : Nat) :
    ∃ st, LaggedInt.seedValue L value = some st ∧ LaggedOK L st ∧ st.i = L.p ∧
      let s := if value % 2 ^ 32 % 2147483647 = 0 then 1 else value % 2 ^ 32 % 2147483647
      let words := (List.range ((L.w + 31) / 32 * L.p)).map fun k => 16807 ^ (k + 1) * s % 2147483647
      ∀ j < L.p, st.x[j]? = some (number (2 ^ 32) (chunk ((L.w + 31) / 32) words j) % 2 ^ L.w) := by
  have hs := (c08_seed minstdRand0 (by decide) ((value % 2 ^ 32 : Nat) : Int) (by intro h; exact absurd h (by decide))).2.2
  have hs' : (minstdRand0.seed ((value % 2 ^ 32 : Nat) : Int)).toNat =
      if value % 2 ^ 32 % 2147483647 = 0 then 1 else value % 2 ^ 32 % 2147483647 := by
    rw [hs]
    have e1 : ((modulus minstdRand0.T minstdRand0.m : Nat) : Int) = 2147483647 := by decide
    have e2 : minstdRand0.c = 0 := rfl
    rw [e1, e2]
    generalize value % 2 ^ 32 = z
    by_cases hz : z % 2147483647 = 0
    · rw [if_pos hz, if_pos ⟨rfl, by omega⟩]; rfl
    · rw [if_neg hz, if_neg (by omega)]; omega
  unfold LaggedInt.seedValue
  rw [hs']
  have hlt : (if value % 2 ^ 32 % 2147483647 = 0 then 1 else value % 2 ^ 32 % 2147483647) < 2147483647 := by
    split
    · norm_num
    · exact Nat.mod_lt _ (by norm_num)
  rw [minstd_words _ _ hlt]
  simp only [Option.bind_some]
  unfold seedArrayInt
  rw [fillArrayInt_spec L.bits L.w hv.w_le, if_neg (by simp)]
  refine ⟨_, rfl, ⟨by simp, ?_, le_refl _⟩, rfl, ?_⟩
  · intro v hvm
    obtain ⟨j, _, rfl⟩ := List.mem_map.1 hvm
    exact Nat.mod_lt _ (Nat.two_pow_pos _)
  · intro j hj
    simp [hj]

example : LaggedInt.seedValue ⟨32, 31, 5, 2⟩ 1 =
    some ⟨[16807, 282475249, 1622650073, 984943658, 1144108930], 5⟩ := by decide +kernel

/-- C25: seeding a subtract-with-carry engine from a range. -/
theorem c25_swc (E : Swc) (hv : SwcValid E) (ws : List Nat) :
    (ws.length < (E.w + 31) / 32 * E.r → E.seedRange ws = .throws) ∧
    ((E.w + 31) / 32 * E.r ≤ ws.length → ∃ st, E.seedRange ws = .ok st (ws.drop ((E.w + 31) / 32 * E.r)) ∧
      SwcOK E st ∧ st.k = 0 ∧
      (∀ j < E.r, st.x[j]? = some (number (2 ^ 32) (chunk ((E.w + 31) / 32) ws j) % 2 ^ E.w)) ∧
      (st.carry = 1 ↔ number (2 ^ 32) (chunk ((E.w + 31) / 32) ws (E.r - 1)) % 2 ^ E.w = 0)) := by
  have hr : 0 < E.r := by have := hv.s_pos; have := hv.s_lt; omega
  unfold Swc.seedRange
  rw [fillArrayInt_spec E.bits E.w hv.w_lt.le]
  refine ⟨fun h => by rw [if_pos h], fun h => ?_⟩
  rw [if_neg (by omega)]
  simp only
  unfold Swc.ofTable
  have hlast : ((List.range E.r).map fun j => number (2 ^ 32) (chunk ((E.w + 31) / 32) ws j) % 2 ^ E.w)[E.r - 1]?
      = some (number (2 ^ 32) (chunk ((E.w + 31) / 32) ws (E.r - 1)) % 2 ^ E.w) := by
    rw [List.getElem?_map, List.getElem?_range (by omega)]; rfl
  rw [hlast]
  refine ⟨_, rfl, ⟨by simp, ?_, ?_, hr⟩, rfl, ?_, ?_⟩
  · intro v hvm
    obtain ⟨j, _, rfl⟩ := List.mem_map.1 hvm
    exact Nat.mod_lt _ (Nat.two_pow_pos _)
  · simp only; split <;> omega
  · intro j hj
    simp [hj]
  · simp only; split <;> simp_all

example : Swc.seedRange ⟨32, 24, 2, 3⟩ [1, 0xff000002, 0x1000000, 8] = .ok ⟨[1, 2, 0], 1, 0⟩ [8] := by decide

/-! ## C26 -/

/-- **C26.** For a non-empty range of a 32-bit type `generate` writes the values prescribed by the C++ standard. -/
theorem c26_generate_partial (v : List (BitVec 32)) (n : Nat) (hn : 0 < n) :
    SeedSeq.generate 32 (v.map BitVec.toNat) n = some ((SeedSeqStd.generated v n).map BitVec.toNat) :=
  SeedSeq.generate_spec v n hn

example : SeedSeq.generate 32 [1, 2, 3, 4, 5] 10 = some [4204997637, 4246533866, 1856049002, 1129615051, 690460811,
    1075771511, 46783058, 3904109078, 1534123438, 1495905678] := by decide

/-- **C26 (the property is false of an empty range).** `generate` on an empty range is not a no-op: it computes a
remainder modulo 0. -/
theorem c26_empty_false (D : Nat) (v : List Nat) : SeedSeq.generate D v 0 = none := rfl

/-- **C26 (the property is false of a wider destination type).** Into an array of a 64-bit type, which the documented
requirement allows, other values are written than into one of a 32-bit type. -/
theorem c26_wide_false : SeedSeq.generate 64 [4294967295] 3 ≠ SeedSeq.generate 32 [4294967295] 3 := by decide

/-- C26: a Mersenne Twister seeded from a `seed_seq`: word `j` is made of the words `ceil(w/32) * j`, ... of the
standard sequence of length `ceil(w/32) * n`; the state never gets stuck. -/
theorem c26_mt (P : Mt.Params) (hv : MtValid P) (hw : 1 ≤ P.w) (v : List (BitVec 32)) :
    ∃ st, Mt.seedFromSeq P (v.map BitVec.toNat) = some st ∧
      Mt.seedWords P ((List.range P.n).map fun j => number (2 ^ 32)
        (chunk ((P.w + 31) / 32) ((SeedSeqStd.generated v ((P.w + 31) / 32 * P.n)).map BitVec.toNat) j) % 2 ^ P.w) = some st ∧
      ∀ k, ∃ vs st', run (Mt.next P) (k + P.n) st = some (vs, st') ∧ ∃ v ∈ vs.drop k, v ≠ 0 := by
  have hn : 0 < P.n := by have := hv.m_lt; omega
  unfold Mt.seedFromSeq seedArrayInt
  rw [SeedSeq.generate_spec v _ (Nat.mul_pos (by omega) hn)]
  simp only [Option.bind_some]
  rw [fillArrayInt_spec P.bits P.w hv.w_le, if_neg (by simp [SeedSeqStd.generated])]
  simp only [Option.bind_some]
  obtain ⟨st, e, _, _, _, h3⟩ := c21_seed_words_never_stuck hv
    ((List.range P.n).map fun j => number (2 ^ 32)
        (chunk ((P.w + 31) / 32) ((SeedSeqStd.generated v ((P.w + 31) / 32 * P.n)).map BitVec.toNat) j) % 2 ^ P.w) (by simp) (by
      intro v hvm
      obtain ⟨j, _, rfl⟩ := List.mem_map.1 hvm
      exact Nat.mod_lt _ (Nat.two_pow_pos _))
  exact ⟨st, e, e, h3⟩

example : ∃ st, Mt.seedFromSeq mtTiny [1, 2] = some st := ⟨_, rfl⟩

/-! ## C27 -/

/-- **C27.** `generate` with an engine of `R` values: each value counted from `min()` is used if it is below a multiple
`L` of `2^b` (so that the low `b` bits used of it are equidistributed over the values used), where `L` is less than
`2^(log2 R - log2 (log2 R))` below `R`. For a range of `n >= 1` elements the function reads until it has `32 * n` bits, not
one value more, and writes the 32-bit words of the number whose base-`2^b` digits are the low bits of the values used. -/
theorem c27_generate_partial (E : EngInfo) (hE : EngOK E) (hT : AnyTy E.ty) :
    ∃ b L, let R := (E.max - E.min + 1).toNat
      1 ≤ b ∧ b ≤ Nat.log2 R ∧ Nat.log2 R - Nat.log2 (Nat.log2 R) ≤ b ∧ 2 ^ b ∣ L ∧ L ≤ R ∧
      R < L + 2 ^ (Nat.log2 R - Nat.log2 (Nat.log2 R)) ∧
      ∀ n, 1 ≤ n → ∀ xs, Outputs E xs →
        (b * (accepted E L xs).length < 32 * n → generateFromInt E n xs = .more) ∧
        (∀ pre x rest, xs = pre ++ x :: rest → (x - E.min).toNat < L →
          b * (accepted E L pre).length < 32 * n → 32 * n ≤ b * ((accepted E L pre).length + 1) →
          generateFromInt E n xs =
            .done (lowWords n (number (2 ^ b) ((accepted E L (pre ++ [x])).map (· % 2 ^ b)))) rest) := by
  have hb2 := UniformInt.EngInfo.b_ge hE
  have hble := EngInfo.b_le hE
  have hR : (E.max - E.min + 1).toNat = E.b - 1 + 1 := by
    have := hE.lt
    unfold EngInfo.b at *
    omega
  have hW : E.ty.bits < 2 ^ 31 := by have := hT.2; omega
  have hB := genBits_spec E.ty.bits (E.b - 1) hW hE.bits (by omega) (by omega)
  have hL := genLimit_eq E.ty.bits (E.b - 1) hW hE.bits (by omega) (by omega)
  have hM : genMask E.ty.bits (genBits E.ty.bits (E.b - 1)) = 2 ^ genBits E.ty.bits (E.b - 1) - 1 := by
    refine genMask_eq _ _ hB.pos (le_trans hB.le ?_)
    have : 2 ^ Nat.log2 (E.b - 1 + 1) ≤ 2 ^ E.ty.bits := le_trans (Nat.log2_self_le (by omega)) (by omega)
    exact (Nat.pow_le_pow_iff_right (by norm_num)).1 this
  rw [hM] at hL
  set b := genBits E.ty.bits (E.b - 1) with hb
  have hpos : 0 < (E.b - 1 + 1) / 2 ^ b * 2 ^ b := by
    refine Nat.mul_pos (Nat.div_pos ?_ (Nat.two_pow_pos _)) (Nat.two_pow_pos _)
    exact le_trans (Nat.pow_le_pow_right (by norm_num) hB.le) (Nat.log2_self_le (by omega))
  refine ⟨b, (E.b - 1 + 1) / 2 ^ b * 2 ^ b, ?_⟩
  rw [hR]
  simp only
  have hle := Nat.div_mul_le_self (E.b - 1 + 1) (2 ^ b)
  have hloss := hB.loss
  refine ⟨hB.pos, hB.le, hB.ge, Nat.dvd_mul_left _ _, hle, by omega, fun n hn xs hxs => ?_⟩
  have hgen : generateFromInt E n xs = intLoop E b (2 ^ b - 1) ((E.b - 1 + 1) / 2 ^ b * 2 ^ b - 1) (E.b - 1) xs ⟨[], n, 0, 0⟩ := by
    unfold generateFromInt
    rw [EngInfo.brange_eq hE]
    simp only
    rw [← hb, if_neg (by have := hB.pos; omega), hM, hL]
  rw [hgen]
  have hloop := intLoop_spec hE b n hB.pos ((E.b - 1 + 1) / 2 ^ b * 2 ^ b - 1) (E.b - 1) (by omega) xs [] _ hxs
    (packed_init b n hn) (by simp)
  rw [Nat.sub_add_cancel hpos] at hloop
  simp only [List.length_nil, Nat.zero_add, List.nil_append] at hloop
  refine ⟨hloop.1, fun pre x rest e hx h1 h2 => hloop.2 pre x rest e (by omega) h1 h2⟩

/-- An engine of 3 values delivers one bit each; the value 2 is not used. -/
example : generateFromInt ⟨⟨32, false⟩, 5, 7⟩ 1 ((List.replicate 31 6) ++ [7, 5, 6]) = .done [0x7fffffff] [6] := by decide

/-- All values of an engine of the narrow type `uint16_t` are used, with all 16 bits. -/
example : generateFromInt ⟨⟨16, false⟩, 0, 65535⟩ 1 [0x1234, 65535, 7] = .done [0xffff1234] [7] := by decide

/-- **C27 (the property is false of an empty range).** The first element is written before the ends are compared. -/
theorem c27_empty_false : generateFromInt ⟨⟨32, false⟩, 0, 4294967295⟩ 0 [1] = .ub := by decide

/-- C27: for an engine of a single value there is nothing to be had: the shift by `bits - 1` is undefined. -/
theorem c27_constant_engine_false (n : Nat) (xs : List Int) : generateFromInt ⟨⟨32, false⟩, 5, 5⟩ n xs = .ub := by
  unfold generateFromInt
  rw [show EngInfo.brange ⟨⟨32, false⟩, 5, 5⟩ = some 0 by decide]
  simp only
  rw [show genBits 32 0 = 0 by decide, if_pos rfl]

/-- **C27 (floating-point engines).** With an engine of values `u` in `[0, 1)` of which `b` bits are random, the words are
those of the number whose base-`2^b` digits are `floor(u * 2^b)`; exactly as many values are read as are needed. -/
theorem c27_generate_real (digits b n : Nat) (hb : 1 ≤ b) (hd : b ≤ digits) (hn : 1 ≤ n) (us : List ℚ)
    (hu : ∀ u ∈ us, 0 ≤ u ∧ u < 1) :
    (b * us.length < 32 * n → generateFromReal digits b n us = some none) ∧
    (∀ pre u rest, us = pre ++ u :: rest → b * pre.length < 32 * n → 32 * n ≤ b * (pre.length + 1) →
      generateFromReal digits b n us =
        some (some (lowWords n (number (2 ^ b) ((pre ++ [u]).map fun u => ⌊u * 2 ^ b⌋₊)), rest))) := by
  unfold generateFromReal
  rw [pow2_spec digits b hd]
  have := realLoop_spec b n hb us [] _ hu (packed_init b n hn) (by simp)
  simpa using this

example : generateFromReal 53 48 1 [1 / 2 + 1 / 2 ^ 20, 1 / 3] = some (some ([2 ^ 28], [1 / 3])) := by
  rw [(c27_generate_real 53 48 1 (by norm_num) (by norm_num) le_rfl [1 / 2 + 1 / 2 ^ 20, 1 / 3] (by
    intro u hu; simp only [List.mem_cons, List.not_mem_nil, or_false] at hu
    rcases hu with rfl | rfl <;> norm_num)).2 [] (1 / 2 + 1 / 2 ^ 20) [1 / 3] rfl (by norm_num) (by norm_num)]
  have : ⌊((1 / 2 + 1 / 2 ^ 20 : ℚ)) * 2 ^ 48⌋₊ = 2 ^ 47 + 2 ^ 28 := by
    rw [show ((1 / 2 + 1 / 2 ^ 20 : ℚ)) * 2 ^ 48 = ((2 ^ 47 + 2 ^ 28 : Nat) : ℚ) by norm_num, Nat.floor_natCast]
  simp only [List.nil_append, List.map_cons, List.map_nil, this]
  rw [show lowWords 1 (number (2 ^ 48) [2 ^ 47 + 2 ^ 28]) = [2 ^ 28] by decide]

end Boost.Random
