import Verif.Proofs.SeedAll
import Verif.Props.Lfsr
import Verif.Props.MixmaxSkip

/-!
# C137: every engine seeded from a seed sequence

A seed sequence is `gen`: `gen n` are the words it writes to a range of `n` elements. An engine with a single number as
its state asks for `k + 3` words, where `k` is the least number of 32-bit words that hold every number below the modulus
(`Nat.clog (2^32) modulus`), and leaves the first three; the others ask for what they need. The state is the one that
seeding from the range of these words gives, see C25 for its value.
-/

namespace Boost.Random
open Spec SeedImpl

/-- What is required of a seed sequence: it fills the range with 32-bit words. -/
def SeqOK (gen : Nat → List Nat) : Prop := ∀ n, (gen n).length = n ∧ ∀ w ∈ gen n, w < 2 ^ 32

/-- `boost::random::seed_seq` is such a sequence, whatever it holds. -/
theorem c137_seed_seq (v : List (BitVec 32)) : SeqOK (SeedSeq.words (v.map BitVec.toNat)) := by
  intro n
  rcases Nat.eq_zero_or_pos n with rfl | hn
  · exact ⟨rfl, fun w hw => absurd hw (by simp [SeedSeq.words, SeedSeq.generate])⟩
  unfold SeedSeq.words
  rw [SeedSeq.generate_spec v n hn]
  refine ⟨?_, fun w hw => ?_⟩
  · simp [SeedSeqStd.generated]
  · obtain ⟨b, _, rfl⟩ := List.mem_map.1 hw
    exact b.isLt

example : SeqOK (fun n => (List.range n).map (· % 2 ^ 32)) := by
  intro n
  refine ⟨by simp, fun w hw => ?_⟩
  obtain ⟨b, _, rfl⟩ := List.mem_map.1 hw
  exact Nat.mod_lt _ (by norm_num)

/-- C137 (linear congruential engines, also the one inside `rand48`). -/
theorem c137_lcg (E : Lcg) (hT : AnyTy E.T) (hu : E.T.signed = false) (hm : E.m ≤ E.T.maxv) (h1 : E.m ≠ 1) (hw : WideOK E.m)
    (gen : Nat → List Nat) (hg : SeqOK gen) :
    ∃ x, E.seedSeq gen = some x ∧
      E.seedRange ((gen (Nat.clog (2 ^ 32) (modulus E.T E.m) + 3)).drop 3) = .ok x [] ∧ (E.min : Int) ≤ x ∧ x ≤ E.max := by
  obtain ⟨s, hs, e1, e2⟩ := seedOneInt_range E.T E.m hT hu hm h1 hw gen (fun n => (hg n).1)
  have hM : 1 < modulus E.T E.m := by
    obtain ⟨k1, k2, _⟩ := wordCount_spec E.T E.m hT hm h1
    have := Nat.one_le_two_pow (n := 32 * (wordCount E.T E.m - 1)); omega
  obtain ⟨b1, b2, _⟩ := c08_seed E hM (s : Int) (fun h0 => by
    have : modulus E.T E.m = E.T.maxv + 1 := by unfold modulus; rw [if_pos h0]
    omega)
  refine ⟨E.seed s, by unfold Lcg.seedSeq; rw [e1]; rfl, ?_, b1, b2⟩
  unfold Lcg.seedRange
  rw [e2]

example : minstdRand0.seedSeq (fun n => List.range n) = some 3 ∧ rand48Lcg.seedSeq (fun n => List.range n) = some (4 * 2 ^ 32 + 3) := by
  decide

theorem icg_seed (E : Icg) (h : IcgValid E) (z : Nat) (hlt : z < E.p) :
    E.seed (z : Int) = ((if E.b = 0 ∧ z = 0 then 1 else z : Nat) : Int) ∧
      E.min ≤ (if E.b = 0 ∧ z = 0 then 1 else z) ∧ (if E.b = 0 ∧ z = 0 then 1 else z) ≤ E.max := by
  have hp := h.prime.two_le
  refine ⟨?_, ?_, ?_⟩
  · unfold Icg.seed
    have hp0 : E.p ≠ 0 := by omega
    have ht : Int.tmod (z : Int) E.p = (z : Int) := by
      rw [Int.tmod_eq_emod_of_nonneg (by omega), Int.emod_eq_of_lt (by omega) (by omega)]
    simp only [if_neg hp0, ht]
    rw [if_neg (show ¬ (z : Int) < 0 by omega)]
    by_cases hz : E.b = 0 ∧ z = 0
    · rw [if_pos hz, if_pos ⟨hz.1, by omega⟩]; rfl
    · rw [if_neg hz, if_neg (by omega)]
  · unfold Icg.min; split <;> split <;> omega
  · unfold Icg.max; split <;> omega

/-- C137 (inversive congruential engines): from a range the least number of words that hold the modulus, their number
modulo `p` (1 instead of 0 if `b = 0`), or the exception. -/
theorem c137_icg_range (E : Icg) (h : IcgValid E) (hT : AnyTy E.T) (ws : List Nat) (hws : ∀ w ∈ ws, w ≤ E.T.maxv) :
    (ws.length < Nat.clog (2 ^ 32) E.p → E.seedRange ws = .throws) ∧
    (Nat.clog (2 ^ 32) E.p ≤ ws.length → ∃ x : Nat, E.seedRange ws = .ok x (ws.drop (Nat.clog (2 ^ 32) E.p)) ∧
      E.min ≤ x ∧ x ≤ E.max ∧ x = if E.b = 0 ∧ number (2 ^ 32) (ws.take (Nat.clog (2 ^ 32) E.p)) % E.p = 0 then 1
        else number (2 ^ 32) (ws.take (Nat.clog (2 ^ 32) E.p)) % E.p) := by
  have hp := h.prime.two_le
  have hM : modulus E.T E.p = E.p := ConstMod.modulus_of_pos _ _ (by omega)
  have hk := getOneInt_clog E.T E.p hT h.p_fits (by omega) h.wide ws hws
  rw [hM] at hk
  unfold Icg.seedRange
  rw [hk]
  refine ⟨fun hl => by rw [if_pos hl], fun hl => ?_⟩
  rw [if_neg (by omega)]
  simp only
  generalize number (2 ^ 32) (ws.take (Nat.clog (2 ^ 32) E.p)) = N
  obtain ⟨hs, b1, b2⟩ := icg_seed E h (N % E.p) (Nat.mod_lt _ (by omega))
  exact ⟨_, by rw [hs], b1, b2, rfl⟩

example : hellekalek1995.seedRange [0, 7] = .ok 0 [7] ∧ hellekalek1995.seedRange [] = .throws := by decide

/-- C137 (inversive congruential engines), from a sequence. -/
theorem c137_icg (E : Icg) (h : IcgValid E) (hT : AnyTy E.T) (hu : E.T.signed = false) (gen : Nat → List Nat) (hg : SeqOK gen) :
    ∃ x : Nat, E.seedSeq gen = some (x : Int) ∧ E.seedRange ((gen (Nat.clog (2 ^ 32) E.p + 3)).drop 3) = .ok x [] ∧
      E.min ≤ x ∧ x ≤ E.max := by
  have hp := h.prime.two_le
  have hM : modulus E.T E.p = E.p := ConstMod.modulus_of_pos _ _ (by omega)
  obtain ⟨s, hs, e1, e2⟩ := seedOneInt_range E.T E.p hT hu h.p_fits (by omega) h.wide gen (fun n => (hg n).1)
  rw [hM] at hs e2
  obtain ⟨e3, b1, b2⟩ := icg_seed E h s hs
  refine ⟨_, ?_, ?_, b1, b2⟩
  · unfold Icg.seedSeq
    rw [e1, Option.map_some, e3]
  · unfold Icg.seedRange
    rw [e2]
    simp only [e3]

example : hellekalek1995.seedSeq (fun n => List.range n) = some 3 := by decide

/-- An engine on `uint16_t`: only the low 16 bits of the word count. -/
example : Icg.seedSeq ⟨⟨16, false⟩, 7, 3, 65521⟩ (fun n => (List.range n).map (· + 0x12340000)) = some 3 := by decide

/-- C137 (linear feedback shift engines): as many words as hold `w` bits, their number modulo `2^w`, and `c14_seed_partial`
for the result of `seed`. -/
theorem c137_lfsr_range (L : Lfsr) (hL : L.Valid) (h64 : L.bits ≤ 64) (hk : L.w - L.k ≤ 30) (ws : List Nat) (hws : ∀ x ∈ ws, x < 2 ^ L.bits) :
    (ws.length < (L.w + 31) / 32 → L.seedRange ws = .throws) ∧
    ((L.w + 31) / 32 ≤ ws.length → ∃ v, L.seedRange ws = .ok v (ws.drop ((L.w + 31) / 32)) ∧
      L.seed (number (2 ^ 32) (ws.take ((L.w + 31) / 32)) % 2 ^ L.w) = some v ∧ v < 2 ^ L.w ∧ Significant L.w L.k v) := by
  obtain ⟨T1, hm, h1, hw, hM, hc⟩ := lfsr_mod L hL h64
  have hk' := getOneInt_clog ⟨L.bits, false⟩ L.seedMod T1 hm h1 hw ws (fun x hx => by
    have := hws x hx
    simp only [IntTy.maxv, Bool.false_eq_true, if_false]; omega)
  rw [hM, hc] at hk'
  unfold Lfsr.seedRange
  rw [hk']
  refine ⟨fun hl => by rw [if_pos hl], fun hl => ?_⟩
  rw [if_neg (by omega)]
  simp only
  obtain ⟨v, e, b1, b2, -⟩ := c14_seed_partial L hL hk (number (2 ^ 32) (ws.take ((L.w + 31) / 32)) % 2 ^ L.w)
  exact ⟨v, by rw [e], e, b1, b2⟩

example : taus88C.seedRange [0, 5] = .ok 16 [5] ∧ taus88C.seedRange [] = .throws := by decide

/-- C137 (linear feedback shift engines), from a sequence. -/
theorem c137_lfsr (L : Lfsr) (hL : L.Valid) (h64 : L.bits ≤ 64) (hk : L.w - L.k ≤ 30) (gen : Nat → List Nat) (hg : SeqOK gen) :
    ∃ v, L.seedSeq gen = some v ∧ L.seedRange ((gen ((L.w + 31) / 32 + 3)).drop 3) = .ok v [] ∧ v < 2 ^ L.w ∧
      Significant L.w L.k v := by
  obtain ⟨T1, hm, h1, hw, hM, hc⟩ := lfsr_mod L hL h64
  obtain ⟨s, hs, e1, e2⟩ := seedOneInt_range ⟨L.bits, false⟩ L.seedMod T1 rfl hm h1 hw gen (fun n => (hg n).1)
  rw [hM, hc] at e2
  obtain ⟨v, e, b1, b2, -⟩ := c14_seed_partial L hL hk s
  refine ⟨v, ?_, ?_, b1, b2⟩
  · unfold Lfsr.seedSeq
    rw [e1, Option.bind_some, e]
  · unfold Lfsr.seedRange
    rw [e2]
    simp only [e]

example : taus88A.seedSeq (fun n => List.range n) = some 3 ∧ taus88C.seedSeq (fun n => List.range n) = some 19 := by decide

/-- C137 (`additive_combine_engine`): from a range, the second engine reads on where the first stopped; each has the
state it would have alone. -/
theorem c137_combine_range (A B : Lcg) (hA : LcgValid A) (hB : LcgValid B) (tA : AnyTy A.T) (tB : AnyTy B.T)
    (ws : List Nat) (hws : ∀ w ∈ ws, w ≤ A.T.maxv ∧ w ≤ B.T.maxv) :
    let ka := Nat.clog (2 ^ 32) (modulus A.T A.m)
    let kb := Nat.clog (2 ^ 32) (modulus B.T B.m)
    (ws.length < ka + kb → AdditiveCombine.seedRange A B ws = .throws) ∧
    (ka + kb ≤ ws.length → ∃ x y : Nat, AdditiveCombine.seedRange A B ws = .ok (x, y) (ws.drop (ka + kb)) ∧
      A.seedRange (ws.take ka) = .ok x [] ∧ B.seedRange ((ws.drop ka).take kb) = .ok y [] ∧
      A.min ≤ x ∧ x ≤ A.max ∧ B.min ≤ y ∧ y ≤ B.max) := by
  intro ka kb
  have one : ∀ (E : Lcg), LcgValid E → E.m ≠ 1 := by
    intro E hE h1
    have := hE.m_gt
    unfold modulus at this
    rw [if_neg (by omega)] at this
    omega
  have sd : ∀ (E : Lcg), LcgValid E → ∀ N, ∃ x : Nat, E.seed ((N % modulus E.T E.m : Nat) : Int) = (x : Int) ∧ E.min ≤ x ∧ x ≤ E.max := by
    intro E hE N
    have hlt : N % modulus E.T E.m < modulus E.T E.m := Nat.mod_lt _ (by have := hE.m_gt; omega)
    obtain ⟨b1, b2, -⟩ := c08_seed E hE.m_gt ((N % modulus E.T E.m : Nat) : Int) (fun h0 => by
      have : modulus E.T E.m = E.T.maxv + 1 := by unfold modulus; rw [if_pos h0]
      omega)
    exact ⟨(E.seed ((N % modulus E.T E.m : Nat) : Int)).toNat, by omega, by omega, by omega⟩
  have rg : ∀ (E : Lcg), LcgValid E → AnyTy E.T → ∀ us : List Nat, (∀ w ∈ us, w ≤ E.T.maxv) →
      E.seedRange us = if us.length < Nat.clog (2 ^ 32) (modulus E.T E.m) then .throws
        else .ok (E.seed ((number (2 ^ 32) (us.take (Nat.clog (2 ^ 32) (modulus E.T E.m))) % modulus E.T E.m : Nat) : Int))
          (us.drop (Nat.clog (2 ^ 32) (modulus E.T E.m))) := by
    intro E hE tE us hus
    unfold Lcg.seedRange
    rw [getOneInt_clog E.T E.m tE hE.m_fits (one E hE) hE.wide us hus]
    split
    · rename_i h; split at h <;> simp_all
    · rename_i h; split at h <;> simp_all
    · rename_i h; split at h <;> simp_all
  have wA := rg A hA tA ws (fun w hw => (hws w hw).1)
  have wB := rg B hB tB (ws.drop ka) (fun w hw => (hws w (List.mem_of_mem_drop hw)).2)
  rw [List.length_drop] at wB
  refine ⟨fun hl => ?_, fun hl => ?_⟩
  · unfold AdditiveCombine.seedRange
    rw [wA]
    by_cases h1 : ws.length < ka
    · rw [if_pos h1]
    · rw [if_neg h1]
      simp only
      rw [wB, if_pos (show ws.length - ka < kb by omega)]
  · obtain ⟨x, ex, x1, x2⟩ := sd A hA (number (2 ^ 32) (ws.take ka))
    obtain ⟨y, ey, y1, y2⟩ := sd B hB (number (2 ^ 32) ((ws.drop ka).take kb))
    refine ⟨x, y, ?_, ?_, ?_, x1, x2, y1, y2⟩
    · unfold AdditiveCombine.seedRange
      rw [wA, if_neg (show ¬ ws.length < ka by omega), ex]
      simp only
      rw [wB, if_neg (show ¬ ws.length - ka < kb by omega), ey, List.drop_drop]
      rfl
    · rw [rg A hA tA _ (fun w hw => (hws w (List.mem_of_mem_take hw)).1), List.take_take, min_self, ex,
        if_neg (show ¬ (ws.take ka).length < ka by rw [List.length_take]; omega),
        List.drop_of_length_le (l := List.take ka ws) (by rw [List.length_take]; omega)]
    · rw [rg B hB tB _ (fun w hw => (hws w (List.mem_of_mem_drop (List.mem_of_mem_take hw))).2), List.take_take, min_self, ey,
        if_neg (show ¬ ((ws.drop ka).take kb).length < kb by rw [List.length_take, List.length_drop]; omega),
        List.drop_of_length_le (l := List.take kb _) (by rw [List.length_take]; omega)]

example : AdditiveCombine.seedRange ecuyerA ecuyerB [5, 0, 7] = .ok (5, 1) [7] := by decide

/-- C137 (`additive_combine_engine`), from a sequence: both engines are seeded as each would be alone. -/
theorem c137_combine (A B : Lcg) (hA : LcgValid A) (hB : LcgValid B) (tA : AnyTy A.T) (tB : AnyTy B.T) (uA : A.T.signed = false) (uB : B.T.signed = false)
    (gen : Nat → List Nat) (hg : SeqOK gen) :
    ∃ x y : Nat, AdditiveCombine.seedSeq A B gen = some (x, y) ∧ A.seedSeq gen = some (x : Int) ∧ B.seedSeq gen = some (y : Int) ∧
      A.min ≤ x ∧ x ≤ A.max ∧ B.min ≤ y ∧ y ≤ B.max := by
  have one : ∀ (E : Lcg), LcgValid E → E.m ≠ 1 := by
    intro E hE h1
    have := hE.m_gt
    unfold modulus at this
    rw [if_neg (by omega)] at this
    omega
  obtain ⟨x, e1, -, x1, x2⟩ := c137_lcg A tA uA hA.m_fits (one A hA) hA.wide gen hg
  obtain ⟨y, e2, -, y1, y2⟩ := c137_lcg B tB uB hB.m_fits (one B hB) hB.wide gen hg
  refine ⟨x.toNat, y.toNat, ?_, by rw [e1]; congr 1; omega, by rw [e2]; congr 1; omega, by omega, by omega, by omega, by omega⟩
  unfold AdditiveCombine.seedSeq
  rw [e1, e2]
  rfl

example : AdditiveCombine.seedSeq ecuyerA ecuyerB (fun n => List.range n) = some (3, 3) := by decide

/-- C137 (Mersenne Twister): any sequence, all words used, a state that never gets stuck. -/
theorem c137_mt (P : Mt.Params) (hv : MtValid P) (gen : Nat → List Nat) (hg : SeqOK gen) :
    ∃ st, Mt.seedSeq P gen = some st ∧ Mt.seedRange P (gen ((P.w + 31) / 32 * P.n)) = .ok st [] ∧ MtShape P st ∧ MtReachable P st := by
  obtain ⟨xs, e1, e2⟩ := seedArrayInt_range P.bits P.w P.n hv.w_le gen (fun n => (hg n).1)
  obtain ⟨st, e3, e4, s1, s2, -⟩ := (c25_mt P hv (gen ((P.w + 31) / 32 * P.n))).2 (by rw [(hg _).1])
  rw [List.drop_of_length_le (by rw [(hg _).1])] at e3
  refine ⟨st, ?_, e3, s1, s2⟩
  unfold Mt.seedRange at e3
  rw [e2] at e3
  simp only at e3
  unfold Mt.seedSeq
  rw [e1, Option.bind_some]
  cases h : Mt.seedWords P xs with
  | none => rw [h] at e3; simp at e3
  | some s => rw [h] at e3; simp only [Got.ok.injEq] at e3; rw [e3.1]

example : (Mt.seedSeq mtTiny fun n => List.range n).map (·.x.length) = some 5 := by decide

/-- C137 (lagged Fibonacci). -/
theorem c137_lagged (L : Lagged.Params) (hv : LaggedValid L) (gen : Nat → List Nat) (hg : SeqOK gen) :
    ∃ st, LaggedInt.seedSeq L gen = some st ∧ LaggedInt.seedRange L (gen ((L.w + 31) / 32 * L.p)) = .ok st [] ∧ LaggedOK L st := by
  obtain ⟨xs, e1, e2⟩ := seedArrayInt_range L.bits L.w L.p hv.w_le gen (fun n => (hg n).1)
  obtain ⟨st, e3, s1, -⟩ := (c25_lagged L hv (gen ((L.w + 31) / 32 * L.p))).2 (by rw [(hg _).1])
  rw [List.drop_of_length_le (by rw [(hg _).1])] at e3
  refine ⟨st, ?_, e3, s1⟩
  unfold LaggedInt.seedRange at e3
  rw [e2] at e3
  simp only [Got.ok.injEq] at e3
  unfold LaggedInt.seedSeq
  rw [e1, Option.map_some, e3.1]

example : LaggedInt.seedSeq ⟨32, 31, 5, 2⟩ (fun n => List.range n) = some ⟨[0, 1, 2, 3, 4], 5⟩ := by decide

/-- C137 (subtract with carry). -/
theorem c137_swc (E : Swc) (hv : SwcValid E) (gen : Nat → List Nat) (hg : SeqOK gen) :
    ∃ st, E.seedSeq gen = some st ∧ E.seedRange (gen ((E.w + 31) / 32 * E.r)) = .ok st [] ∧ SwcOK E st := by
  obtain ⟨xs, e1, e2⟩ := seedArrayInt_range E.bits E.w E.r hv.w_lt.le gen (fun n => (hg n).1)
  obtain ⟨st, e3, s1, -⟩ := (c25_swc E hv (gen ((E.w + 31) / 32 * E.r))).2 (by rw [(hg _).1])
  rw [List.drop_of_length_le (by rw [(hg _).1])] at e3
  refine ⟨st, ?_, e3, s1⟩
  unfold Swc.seedRange at e3
  rw [e2] at e3
  simp only at e3
  unfold Swc.seedSeq
  rw [e1, Option.bind_some]
  cases h : E.ofTable xs with
  | none => rw [h] at e3; simp at e3
  | some s => rw [h] at e3; simp only [Got.ok.injEq] at e3; rw [e3.1]

example : Swc.seedSeq ⟨32, 24, 2, 3⟩ (fun n => List.range n) = some ⟨[0, 1, 2], 0, 0⟩ := by decide

/-- C137 (subtract with carry, from a value): the words are the powers of 40014 times the seed modulo `2147483563`; 0 stands
for the default seed 19780503, and a seed that is 0 modulo `2147483563` after the conversion to 32 bits for 1. -/
theorem c137_swc_value (E : Swc) (hv : SwcValid E) (value : Nat) :
    let v := (if value = 0 then 19780503 else value) % 2 ^ 32 % 2147483563
    let s := if v = 0 then 1 else v
    let words := (List.range ((E.w + 31) / 32 * E.r)).map fun k => 40014 ^ (k + 1) * s % 2147483563
    ∃ st, E.seedValue value = some st ∧ E.seedRange words = .ok st [] ∧ SwcOK E st := by
  intro v s words
  have hs := (c08_seed swcSeeder (by decide) (((if value = 0 then 19780503 else value) % 2 ^ 32 : Nat) : Int)
    (by intro h; exact absurd h (by decide))).2.2
  have hs' : (swcSeeder.seed (((if value = 0 then 19780503 else value) % 2 ^ 32 : Nat) : Int)).toNat = s := by
    rw [hs]
    have e1 : ((modulus swcSeeder.T swcSeeder.m : Nat) : Int) = 2147483563 := by decide
    have e2 : swcSeeder.c = 0 := rfl
    rw [e1, e2]
    show _ = if v = 0 then 1 else v
    have hz : v = (if value = 0 then 19780503 else value) % 2 ^ 32 % 2147483563 := rfl
    generalize (if value = 0 then 19780503 else value) % 2 ^ 32 = z at hz ⊢
    by_cases h0 : v = 0
    · rw [if_pos h0, if_pos ⟨rfl, by omega⟩]; rfl
    · rw [if_neg h0, if_neg (by omega)]; omega
  have hlt : s < 2147483563 := by
    show (if v = 0 then 1 else v) < _
    split
    · norm_num
    · exact Nat.mod_lt _ (by norm_num)
  have hw : words.length = (E.w + 31) / 32 * E.r := by simp [words]
  obtain ⟨st, e3, s1, -⟩ := (c25_swc E hv words).2 (by rw [hw])
  rw [List.drop_of_length_le (by rw [hw])] at e3
  refine ⟨st, ?_, e3, s1⟩
  unfold Swc.seedValue
  rw [hs', swc_words _ _ hlt, Option.bind_some]
  unfold Swc.seedSeq seedArrayInt
  unfold Swc.seedRange at e3
  cases h : fillArrayInt E.bits E.w E.r words with
  | ok xs rest =>
    rw [h] at e3
    simp only at e3
    simp only [Option.bind_some]
    cases h' : E.ofTable xs with
    | none => rw [h'] at e3; simp at e3
    | some s => rw [h'] at e3; simp only [Got.ok.injEq] at e3; rw [e3.1]
  | throws => rw [h] at e3; simp at e3
  | ub => rw [h] at e3; simp at e3

example : Swc.seedValue ⟨32, 24, 2, 3⟩ 1 = some ⟨[40014, 7284676, 4210485], 0, 0⟩ := by decide +kernel

/-- C137 (`mixmax`): four words, in the order cluster, machine, run, stream; C62 for the state. From a range of at least
four words the same, and the exception if there are less. -/
theorem c137_mixmax (gen : Nat → List Nat) (hg : SeqOK gen) :
    ∃ a b c d S, gen 4 = [a, b, c, d] ∧ Mixmax.seedSeq 36 Mixmax.skipMat17 17 gen = some S ∧
      Mixmax.seedUniquestream 36 Mixmax.skipMat17 17 a b c d = some S ∧ MixOK 17 S := by
  obtain ⟨a, b, c, d, e⟩ : ∃ a b c d, gen 4 = [a, b, c, d] := by
    have := (hg 4).1
    match h : gen 4, this with
    | [a, b, c, d], _ => exact ⟨a, b, c, d, rfl⟩
  have hl := (hg 4).2
  simp only [e, List.mem_cons, List.not_mem_nil, or_false, forall_eq_or_imp, forall_eq] at hl
  obtain ⟨ha, hb, hc, hd⟩ := hl
  obtain ⟨S, e1, ok, -⟩ := c62_uniquestream a b c d ha hb hc hd
  refine ⟨a, b, c, d, S, e, ?_, e1, ok⟩
  have h4 : seedArrayInt 32 32 4 gen = some [a, b, c, d] := by
    rw [c25_seed_array 32 32 4 le_rfl gen (fun n => (hg n).1), show (32 + 31) / 32 * 4 = 4 by norm_num, e,
      show (32 + 31) / 32 = 1 by norm_num]
    have n1 : ∀ B x, number B [x] = x := fun B x => by simp [number]
    simp only [chunk, List.range, List.range.loop, List.map]
    simp [n1]
    omega
  unfold Mixmax.seedSeq
  rw [h4]
  exact e1

/-- C137 (`mixmax`), from a range of words. -/
theorem c137_mixmax_range (ws : List Nat) (hws : ∀ w ∈ ws, w < 2 ^ 32) :
    (ws.length < 4 → Mixmax.seedRange 36 Mixmax.skipMat17 17 ws = .throws) ∧
    ∀ a b c d rest, ws = a :: b :: c :: d :: rest →
      ∃ S, Mixmax.seedRange 36 Mixmax.skipMat17 17 ws = .ok S rest ∧
        Mixmax.seedUniquestream 36 Mixmax.skipMat17 17 a b c d = some S ∧ MixOK 17 S := by
  have hf := c25_fill_array 32 32 4 le_rfl ws
  rw [show (32 + 31) / 32 * 4 = 4 by norm_num, show (32 + 31) / 32 = 1 by norm_num] at hf
  refine ⟨fun hl => ?_, fun a b c d rest e => ?_⟩
  · unfold Mixmax.seedRange
    rw [hf, if_pos hl]
  · subst e
    simp only [List.mem_cons, forall_eq_or_imp] at hws
    obtain ⟨ha, hb, hc, hd, -⟩ := hws
    obtain ⟨S, e1, ok, -⟩ := c62_uniquestream a b c d ha hb hc hd
    have h4 : fillArrayInt 32 32 4 (a :: b :: c :: d :: rest) = .ok [a, b, c, d] rest := by
      rw [hf, if_neg (by simp)]
      have n1 : ∀ B x, number B [x] = x := fun B x => by simp [number]
      simp only [chunk, List.range, List.range.loop, List.map]
      simp [n1]
      omega
    refine ⟨S, ?_, e1, ok⟩
    unfold Mixmax.seedRange
    rw [h4]
    simp only [e1]

example : SeqOK (fun n => List.replicate n 0xFFFFFFFF) ∧ Mixmax.seedRange 36 Mixmax.skipMat17 17 [1, 2, 3] = .throws :=
  ⟨fun n => ⟨by simp, fun w hw => by have := List.eq_of_mem_replicate hw; omega⟩,
    (c137_mixmax_range [1, 2, 3] (by decide)).1 (by decide)⟩

end Boost.Random
