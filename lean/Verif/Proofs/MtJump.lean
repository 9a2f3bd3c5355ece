import Verif.Proofs.MtChar
import Verif.Proofs.Gf2Pow

/-!
# Jumping ahead
-/

namespace Boost.Random
namespace Mt
open Spec Polynomial Gf2

variable {P : Params}

/-! ### A sequence with given low bits -/

section
variable (P) (b : ℕ → ZMod 2)

/-- The bits of the words from the sequence of the low bits. -/
noncomputable def wordBit (i t : Nat) : ZMod 2 :=
  if i < P.r then (if t = 0 then 0 else aeval shiftSeq (mtPoly P i) b (t - 1)) else aeval shiftSeq (mtPoly P i) b t

/-- The words. -/
noncomputable def wordOf (t : Nat) : Nat := Nat.ofBits fun i : Fin P.w => decide (wordBit P b i t = 1)

variable {P b}

theorem wordOf_lt (t : Nat) : wordOf P b t < 2 ^ P.w := Nat.ofBits_lt_two_pow _

theorem wordOf_bit {i : Nat} (hi : i < P.w) (t : Nat) : gf ((wordOf P b t).testBit i) = wordBit P b i t := by
  rw [wordOf, Nat.testBit_ofBits_lt _ _ hi, gf_decide]

theorem wordOf_join (hv : MtValid P) (hb : aeval shiftSeq (mtChar P) b = 0) {i : Nat} (hi : i ≤ P.w) (t : Nat) :
    gf ((mtJoin P.r (wordOf P b t) (wordOf P b (t + 1))).testBit i) = aeval shiftSeq (mtPoly P i) b t := by
  have hr := hv.r_lt
  rw [testBit_join]
  rcases Nat.eq_or_lt_of_le hi with rfl | hi
  · rw [if_neg (by omega), Nat.testBit_lt_two_pow (wordOf_lt t)]
    have := congrFun hb t
    rw [mtChar] at this
    rw [this]; rfl
  · by_cases h : i < P.r
    · rw [if_pos h, wordOf_bit hi, wordBit, if_pos h, if_neg (by omega), Nat.add_sub_cancel]
    · rw [if_neg h, wordOf_bit hi, wordBit, if_neg h]

theorem wordBit_sum (hv : MtValid P) (i t : Nat) :
    wordBit P b i (t + P.n) + wordBit P b i (t + P.m) = aeval shiftSeq (mtFactor P i) (aeval shiftSeq (mtPoly P i) b) t := by
  have h1 := hv.m_lt; have h2 := hv.m_two
  unfold mtFactor wordBit
  split
  · rw [map_add, LinearMap.add_apply, Pi.add_apply, aeval_X_pow', aeval_X_pow', if_neg (by omega), if_neg (by omega),
      show t + P.n - 1 = t + (P.n - 1) by omega, show t + P.m - 1 = t + (P.m - 1) by omega]
  · rw [map_add, LinearMap.add_apply, Pi.add_apply, aeval_X_pow', aeval_X_pow']

theorem aeval_bit (a : Bool) (t : Nat) : aeval shiftSeq (if a then 1 else 0 : (ZMod 2)[X]) b t = b t * gf a := by
  cases a
  · simp [gf]
  · simp [gf]

/-- Every sequence that the characteristic polynomial annihilates is the sequence of low bits of words that follow the recurrence. -/
theorem exists_of_bits (hv : MtValid P) (hb : aeval shiftSeq (mtChar P) b = 0) :
    ∃ W, IsMt P W ∧ (∀ k, W k < 2 ^ P.w) ∧ ∀ t, gf ((W (t + 1)).testBit 0) = b t := by
  have h1 := hv.m_lt; have h2 := hv.m_two; have hr := hv.r_lt; have hr' := hv.r_pos
  refine ⟨wordOf P b, fun t => ?_, wordOf_lt, fun t => ?_⟩
  · have hjl : mtJoin P.r (wordOf P b t) (wordOf P b (t + 1)) < 2 ^ P.w := join_lt hv (wordOf_lt t)
    refine Nat.eq_of_testBit_eq fun i => ?_
    by_cases hi : i < P.w
    · apply gf_inj
      rw [Nat.testBit_xor, testBit_mtA, gf_xor, gf_xor, gf_and, wordOf_bit hi, wordOf_bit hi, wordOf_join hv hb (by omega), wordOf_join hv hb (by omega),
        show mtPoly P (i + 1) = mtFactor P i * mtPoly P i + (if P.a.testBit i then 1 else 0) from rfl, show mtPoly P 0 = 1 from rfl, map_add, map_mul, LinearMap.add_apply, Pi.add_apply, Module.End.mul_apply, ← wordBit_sum hv, aeval_bit, map_one, Module.End.one_apply]
      linear_combination -CharTwo.add_self_eq_zero (wordBit P b i (t + P.m)) - CharTwo.add_self_eq_zero (b t * gf (P.a.testBit i))
    · have hp := Nat.pow_le_pow_right (n := 2) (by omega) (show P.w ≤ i by omega)
      rw [Nat.testBit_lt_two_pow (lt_of_lt_of_le (wordOf_lt _) hp),
        Nat.testBit_lt_two_pow (lt_of_lt_of_le (Nat.xor_lt_two_pow (wordOf_lt _) (mtA_lt hv hjl)) hp)]
  · have := wordOf_join hv hb (Nat.zero_le _) t
    rw [testBit_join, if_pos (by omega), mtPoly, map_one, Module.End.one_apply] at this
    exact this
end

/-! ### The sequence used for the characteristic polynomial -/

theorem aeval_char (hv : MtValid P) (b : ℕ → ZMod 2) (t : Nat) :
    aeval shiftSeq (mtChar P) b t = (∑ i ∈ Finset.range (mtBits P), (mtChar P).coeff i * b (t + i)) + b (t + mtBits P) := by
  obtain ⟨hm, hd, -⟩ := char_spec hv
  rw [aeval_sum _ (n := mtBits P + 1) (by omega), Finset.sum_range_succ]
  have : (mtChar P).coeff (mtBits P) = 1 := by rw [← hd]; exact hm
  rw [this, one_mul]

/-- There are words that follow the recurrence and whose low bits begin with zeros, then a one. -/
theorem exists_impulse (hv : MtValid P) : ∃ W, IsMt P W ∧ (∀ k, W k < 2 ^ P.w) ∧
    ∀ t < mtBits P, (W (t + 1)).testBit 0 = decide (t = mtBits P - 1) := by
  have hk := n_le_mtBits hv
  have h1 := hv.m_lt; have h2 := hv.m_two
  let G : (ℕ → ZMod 2) → ZMod 2 := fun f => ∑ i ∈ Finset.range (mtBits P), (mtChar P).coeff i * f i
  let x : List (ZMod 2) := List.replicate (mtBits P - 1) 0 ++ [1]
  have hadd := blockSeq_add (0 : ZMod 2) (mtBits P) (by omega) G (fun f g h => by
    refine Finset.sum_congr rfl fun i hi => ?_
    rw [h i (Finset.mem_range.1 hi)]) x
  obtain ⟨W, w1, w2, w3⟩ := exists_of_bits (P := P) (b := blockSeq 0 (mtBits P) G x) hv (by
    funext t
    rw [aeval_char hv, hadd]
    exact CharTwo.add_self_eq_zero _)
  refine ⟨W, w1, w2, fun t ht => gf_inj ?_⟩
  rw [w3, blockSeq_lt _ _ _ _ ht, List.getD_eq_getElem?_getD, List.getElem?_append]
  rw [List.length_replicate]
  by_cases h : t < mtBits P - 1
  · rw [if_pos h, List.getElem?_replicate, if_pos h, decide_eq_false (by omega)]; rfl
  · rw [if_neg h, decide_eq_true (by omega), show t - (mtBits P - 1) = 0 by omega]; rfl

/-! ### Reading low bits -/

theorem rawNext_spec (hv : MtValid P) {X : Nat → Nat} (hX : IsMt P X) (hb : ∀ k, X k < 2 ^ P.w) (t : Nat) (st : BlockEng Nat)
    (h : BlockAt X P.n t st) : ∃ st', rawNext P st = some (X t, st') ∧ BlockAt X P.n (t + 1) st' := by
  obtain ⟨y, e, hy, hb'⟩ := block_next (by have := hv.m_lt; omega) (twist_spec hv hX hb) h
  refine ⟨⟨y.x, y.i + 1⟩, ?_, hb'⟩
  rw [rawNext, e, Option.bind_some, hy]
  rfl

theorem and_one_bit (x : Nat) : decide (x &&& 1 ≠ 0) = x.testBit 0 := by
  rw [Nat.and_one_is_mod, Nat.testBit_zero]
  rcases Nat.mod_two_eq_zero_or_one x with h | h <;> simp [h]

variable {B : Nat}

theorem lowBits_spec (hv : MtValid P) (hB : 0 < B) {X : Nat → Nat} (hX : IsMt P X) (hb : ∀ k, X k < 2 ^ P.w) (pos : Nat → Nat) :
    ∀ (cnt j t : Nat) (st : BlockEng Nat) (p : Poly) (Q : (ZMod 2)[X]), BlockAt X P.n t st → Represents B p.storage p.size Q →
      (∀ s < cnt, ∀ s' < cnt, pos (j + s) = pos (j + s') → s = s') →
      ∃ st' p' Q', lowBits P B pos cnt j st p = some (st', p') ∧ BlockAt X P.n (t + cnt) st' ∧ Represents B p'.storage p'.size Q' ∧
        (∀ s < cnt, Q'.coeff (pos (j + s)) = gf ((X (t + s)).testBit 0)) ∧
        (∀ i, (∀ s < cnt, i ≠ pos (j + s)) → Q'.coeff i = Q.coeff i) ∧ (p.size ≠ 0 ∨ cnt ≠ 0 → p'.size ≠ 0)
  | 0, j, t, st, p, Q, h, hp, _ => ⟨st, p, Q, rfl, h, hp, fun s hs => by omega, fun _ _ => rfl, fun h => h.resolve_right (by simp)⟩
  | c + 1, j, t, st, p, Q, h, hp, hinj => by
    obtain ⟨st1, e1, h1⟩ := rawNext_spec hv hX hb t st h
    obtain ⟨p1, e2, s2, h2⟩ := assign_spec (Q := Q + C (Q.coeff (pos j) + gf ((X t).testBit 0)) * Polynomial.X ^ pos j) hB hp (pos j) ((X t).testBit 0) (fun i => by
      rw [coeff_add, coeff_C_mul, coeff_X_pow]
      by_cases hi : i = pos j
      · rw [if_pos hi, if_pos hi, hi]
        show _ = gf _
        linear_combination CharTwo.add_self_eq_zero (Q.coeff (pos j))
      · rw [if_neg hi, if_neg hi, mul_zero, add_zero])
    obtain ⟨st', p', Q', e3, h3, r3, c3, d3, z3⟩ := lowBits_spec hv hB hX hb pos c (j + 1) (t + 1) st1 p1 _ h1 h2 (fun s hs s' hs' hss => by
      have := hinj (s + 1) (by omega) (s' + 1) (by omega) (by rwa [show j + (s + 1) = j + 1 + s by omega, show j + (s' + 1) = j + 1 + s' by omega])
      omega)
    refine ⟨st', p', Q', ?_, by rw [show t + (c + 1) = t + 1 + c by omega]; exact h3, r3, fun s hs => ?_, fun i hi => ?_, fun _ => z3 (Or.inl (by omega))⟩
    · rw [lowBits, e1, Option.bind_some]
      dsimp only
      rw [and_one_bit, e2, Option.bind_some, e3]
    · cases s with
      | zero =>
        rw [Nat.add_zero, Nat.add_zero, d3 _ (fun s hs hc => by
          have := hinj 0 (by omega) (s + 1) (by omega) (by rw [Nat.add_zero, show j + (s + 1) = j + 1 + s by omega]; exact hc)
          omega), coeff_add, coeff_C_mul, coeff_X_pow, if_pos rfl]
        linear_combination CharTwo.add_self_eq_zero (Q.coeff (pos j))
      | succ s =>
        have := c3 s (by omega)
        rw [show j + (s + 1) = j + 1 + s by omega, show t + (s + 1) = t + 1 + s by omega, this]
    · rw [d3 i (fun s hs => by rw [show j + 1 + s = j + (s + 1) by omega]; exact hi (s + 1) (by omega)), coeff_add, coeff_C_mul, coeff_X_pow,
        if_neg (by have := hi 0 (by omega); rwa [Nat.add_zero] at this), mul_zero, add_zero]

theorem skipLoop_spec (hv : MtValid P) {X : Nat → Nat} (hX : IsMt P X) (hb : ∀ k, X k < 2 ^ P.w)
    (hbit : ∀ t < mtBits P, (X t).testBit 0 = decide (t = mtBits P - 1)) : ∀ (cnt j : Nat) (st : BlockEng Nat), j + cnt ≤ mtBits P → BlockAt X P.n j st →
      ∃ st', skipLoop P cnt j st = some st' ∧ BlockAt X P.n (j + cnt) st'
  | 0, j, st, _, h => ⟨st, rfl, h⟩
  | c + 1, j, st, hc, h => by
    obtain ⟨st1, e1, h1⟩ := rawNext_spec hv hX hb j st h
    obtain ⟨st2, e2, h2⟩ := skipLoop_spec hv hX hb hbit c (j + 1) st1 (by omega) h1
    refine ⟨st2, ?_, by rw [show j + (c + 1) = j + 1 + c by omega]; exact h2⟩
    rw [skipLoop, e1, Option.bind_some, if_pos, e2]
    have := hbit j (by omega)
    rw [Nat.testBit_zero] at this
    dsimp only
    rw [Nat.and_one_is_mod, show numBits P = mtBits P from rfl]
    by_cases hj : j = mtBits P - 1
    · rw [if_pos hj]; simpa [hj] using this
    · rw [if_neg hj]; simpa [hj] using this

/-! ### Solving for the coefficients -/

theorem represents_empty : Represents B Poly.empty.storage Poly.empty.size 0 :=
  ⟨fun d hd => by simp [Poly.empty] at hd, by simp [Poly.empty], fun _ _ => coeff_zero _, rfl⟩

theorem phiInner_spec (hB : 0 < B) {N : (ZMod 2)[X]} (j : Nat) : ∀ (cnt l0 : Nat) (phi next : Poly) (Q : (ZMod 2)[X]), j < l0 → l0 + cnt ≤ mtBits P →
    Represents B phi.storage phi.size Q → Represents B next.storage next.size N →
    ∃ phi' next' Q', phiInner P B j cnt l0 phi next = some (phi', next') ∧ Represents B phi'.storage phi'.size Q' ∧ Represents B next'.storage next'.size N ∧
      (∀ l < mtBits P, Q'.coeff (mtBits P - 1 - l) = Q.coeff (mtBits P - 1 - l) + if l0 ≤ l ∧ l < l0 + cnt then N.coeff (l - j - 1) else 0) ∧
      ∀ i, mtBits P ≤ i → Q'.coeff i = Q.coeff i
  | 0, l0, phi, next, Q, _, _, hp, hn => ⟨phi, next, Q, rfl, hp, hn, fun l _ => by rw [if_neg (by omega), add_zero], fun _ _ => rfl⟩
  | c + 1, l0, phi, next, Q, hj, hl, hp, hn => by
    obtain ⟨n1, e1, -, r1⟩ := getMut_spec hB hn (l0 - j - 1)
    obtain ⟨p1, e2, -, r2⟩ := flip_spec hB hp (mtBits P - l0 - 1) (decide (N.coeff (l0 - j - 1) = 1))
    obtain ⟨phi', next', Q', e3, r3, r4, c3, d3⟩ := phiInner_spec hB j c (l0 + 1) p1 n1 _ (by omega) (by omega) r2 r1
    have hX : ∀ i, (if decide (N.coeff (l0 - j - 1) = 1) = true then (X : (ZMod 2)[X]) ^ (mtBits P - l0 - 1) else 0).coeff i =
        if i = mtBits P - l0 - 1 then N.coeff (l0 - j - 1) else 0 := by
      intro i
      rcases coeff_zmod2 N (l0 - j - 1) with h | h
      · simp [h]
      · simp [h, coeff_X_pow]
    refine ⟨phi', next', Q', ?_, r3, r4, fun l hl' => ?_, fun i hi => ?_⟩
    · rw [phiInner, e1, Option.bind_some]
      dsimp only
      rw [show numBits P = mtBits P from rfl, e2, Option.bind_some, e3]
    · rw [c3 l hl', coeff_add, hX]
      by_cases h1 : l = l0
      · subst h1
        rw [if_pos (by omega), if_neg (by omega), if_pos (by omega), add_zero]
      · rw [if_neg (by omega), add_zero]
        congr 2
        apply propext; omega
    · rw [d3 i hi, coeff_add, hX, if_neg (by omega), add_zero]

/-- The state of the outer loop: coefficients found, and partial sums for the others. -/
structure PhiAt (P : Params) (N Q : (ZMod 2)[X]) (j : Nat) : Prop where
  found : ∀ l < j, Q.coeff (mtBits P - 1 - l) = (mtChar P).coeff (mtBits P - 1 - l)
  sums : ∀ l, j ≤ l → l < mtBits P → Q.coeff (mtBits P - 1 - l) = ∑ e ∈ Finset.range j, (mtChar P).coeff (mtBits P - 1 - e) * N.coeff (l - e - 1)
  lead : Q.coeff (mtBits P) = 1
  high : ∀ i, mtBits P < i → Q.coeff i = 0

theorem phiLoop_spec (hv : MtValid P) (hB : 0 < B) {N : (ZMod 2)[X]}
    (hN : ∀ j < mtBits P, (mtChar P).coeff (mtBits P - 1 - j) = N.coeff j + ∑ e ∈ Finset.range j, (mtChar P).coeff (mtBits P - 1 - e) * N.coeff (j - e - 1)) :
    ∀ (cnt j : Nat) (phi next : Poly) (Q : (ZMod 2)[X]), j + cnt = mtBits P → Represents B phi.storage phi.size Q → Represents B next.storage next.size N →
      PhiAt P N Q j → ∃ phi', phiLoop P B cnt j phi next = some phi' ∧ Represents B phi'.storage phi'.size (mtChar P)
  | 0, j, phi, next, Q, hj, hp, _, h => by
    refine ⟨phi, rfl, ?_⟩
    obtain ⟨hm, hd, -⟩ := char_spec hv
    have : Q = mtChar P := by
      ext i
      rcases Nat.lt_trichotomy i (mtBits P) with hi | hi | hi
      · have := h.found (mtBits P - 1 - i) (by omega)
        rwa [show mtBits P - 1 - (mtBits P - 1 - i) = i by omega] at this
      · rw [hi, h.lead, ← hd]; exact hm.symm
      · rw [h.high i hi, coeff_eq_zero_of_natDegree_lt (by omega)]
    rwa [this] at hp
  | c + 1, j, phi, next, Q, hj, hp, hn, h => by
    obtain ⟨n1, e1, -, r1⟩ := getMut_spec hB hn j
    obtain ⟨p1, e2, -, r2⟩ := getMut_spec hB hp (mtBits P - j - 1)
    obtain ⟨v, hvdef⟩ : ∃ v, v = (mtChar P).coeff (mtBits P - 1 - j) := ⟨_, rfl⟩
    have hval : (decide (N.coeff j = 1) ^^ decide (Q.coeff (mtBits P - j - 1) = 1)) = decide (v = 1) := by
      apply gf_inj
      rw [gf_xor, gf_decide, gf_decide, gf_decide, hvdef, hN j (by omega), show mtBits P - j - 1 = mtBits P - 1 - j by omega, h.sums j le_rfl (by omega)]
    obtain ⟨p2, e3, -, r3⟩ := assign_spec (Q := Q + C (Q.coeff (mtBits P - j - 1) + v) * X ^ (mtBits P - j - 1)) hB r2 (mtBits P - j - 1) (decide (v = 1)) (fun i => by
      rw [coeff_add, coeff_C_mul, coeff_X_pow]
      by_cases hi : i = mtBits P - j - 1
      · rw [if_pos hi, if_pos hi, hi]
        show _ = gf _
        rw [gf_decide]
        linear_combination CharTwo.add_self_eq_zero (Q.coeff (mtBits P - j - 1))
      · rw [if_neg hi, if_neg hi, mul_zero, add_zero])
    obtain ⟨Q1, hQ1⟩ : ∃ Q1, Q1 = Q + C (Q.coeff (mtBits P - j - 1) + v) * X ^ (mtBits P - j - 1) := ⟨_, rfl⟩
    have hQc : ∀ i, Q1.coeff i = if i = mtBits P - j - 1 then v else Q.coeff i := by
      intro i
      rw [hQ1, coeff_add, coeff_C_mul, coeff_X_pow]
      by_cases hi : i = mtBits P - j - 1
      · rw [if_pos hi, if_pos hi, hi]
        linear_combination CharTwo.add_self_eq_zero (Q.coeff (mtBits P - j - 1))
      · rw [if_neg hi, if_neg hi, mul_zero, add_zero]
    rw [← hQ1] at r3
    obtain ⟨p4, n4, Q4, e4, r4, r5, c4, d4⟩ : ∃ p4 n4 Q4, (if decide (v = 1) then phiInner P B j (numBits P - (j + 1)) (j + 1) p2 n1 else some (p2, n1)) = some (p4, n4) ∧
        Represents B p4.storage p4.size Q4 ∧ Represents B n4.storage n4.size N ∧
        (∀ l < mtBits P, Q4.coeff (mtBits P - 1 - l) = Q1.coeff (mtBits P - 1 - l) + if j + 1 ≤ l then v * N.coeff (l - j - 1) else 0) ∧
        ∀ i, mtBits P ≤ i → Q4.coeff i = Q1.coeff i := by
      have hv01 : v = 0 ∨ v = 1 := hvdef ▸ coeff_zmod2 _ _
      rcases hv01 with h0 | h0
      · refine ⟨p2, n1, Q1, by rw [h0]; rfl, r3, r1, fun l _ => by rw [h0]; simp, fun _ _ => rfl⟩
      · obtain ⟨p4, n4, Q4, e4, r4, r5, c4, d4⟩ := phiInner_spec (P := P) hB j (mtBits P - (j + 1)) (j + 1) p2 n1 Q1 (by omega) (by omega) r3 r1
        refine ⟨p4, n4, Q4, by rw [h0]; exact e4, r4, r5, fun l hl => ?_, d4⟩
        rw [c4 l hl, h0, one_mul]
        congr 2
        apply propext; omega
    have hPA : PhiAt P N Q4 (j + 1) := by
      refine ⟨fun l hl => ?_, fun l h1 h2 => ?_, ?_, fun i hi => ?_⟩
      · rw [c4 l (by omega), if_neg (by omega), add_zero, hQc]
        by_cases hlj : l = j
        · rw [if_pos (by omega), hvdef, hlj]
        · rw [if_neg (by omega), h.found l (by omega)]
      · rw [c4 l h2, if_pos h1, hQc, if_neg (by omega), h.sums l (by omega) h2, Finset.sum_range_succ, hvdef]
      · rw [d4 _ le_rfl, hQc, if_neg (by omega), h.lead]
      · rw [d4 _ hi.le, hQc, if_neg (by omega), h.high i hi]
    obtain ⟨phi', e5, r6⟩ := phiLoop_spec hv hB hN c (j + 1) p4 n4 Q4 (by omega) r4 r5 hPA
    refine ⟨phi', ?_, r6⟩
    rw [phiLoop, e1, Option.bind_some]
    dsimp only
    rw [show mtBits P = numBits P from rfl] at e2 e3 hval
    rw [e2, Option.bind_some]
    dsimp only
    rw [hval, e3, Option.bind_some, e4, Option.bind_some]
    exact e5

theorem seed_length (hv : MtValid P) (value : Nat) : ∃ st, seed P value = some st ∧ st.x.length = P.n := by
  have hm := hv.m_lt
  obtain ⟨l, b⟩ := seedLoop_spec (P := P) (P.n - 1) 1 (value &&& maxv P)
  obtain ⟨x', e, l', -⟩ := normalize_spec hv ((value &&& maxv P) :: seedLoop P (P.n - 1) 1 (value &&& maxv P)) (by rw [List.length_cons, l]; omega) (by
    intro v hv
    rcases List.mem_cons.1 hv with rfl | h
    · rw [maxv_and]; exact Nat.mod_lt _ (Nat.two_pow_pos _)
    · exact b v h)
  exact ⟨⟨x', P.n⟩, by rw [seed, e]; rfl, l'⟩

/-- `get_characteristic_polynomial()` returns the characteristic polynomial; no assertion fails. -/
theorem characteristicPolynomial_spec (hv : MtValid P) (hb : P.bits = P.w) (hw : Even P.w) (hB : 0 < B) :
    ∃ p, characteristicPolynomial P B = some p ∧ Represents B p.storage p.size (mtChar P) := by
  have hk := n_le_mtBits hv
  have h1 := hv.m_lt; have h2 := hv.m_two
  have hke : numBits P = mtBits P := rfl
  obtain ⟨hm, hd, hnext⟩ := char_spec hv
  obtain ⟨W, hW, hlt, hbit⟩ := exists_impulse hv
  obtain ⟨b, hbdef⟩ : ∃ b : ℕ → ZMod 2, b = fun t => gf ((W (t + 1)).testBit 0) := ⟨_, rfl⟩
  have hb0 : ∀ t < mtBits P, b t = if t = mtBits P - 1 then 1 else 0 := by
    intro t ht
    rw [hbdef]
    show gf _ = _
    rw [hbit t ht, gf]
    by_cases h : t = mtBits P - 1
    · simp [h]
    · simp [h]
  have hann : ∀ t, (∑ i ∈ Finset.range (mtBits P), (mtChar P).coeff i * b (t + i)) + b (t + mtBits P) = 0 := by
    intro t
    rw [← aeval_char hv, hbdef, char_annihilates hv hW hlt]; rfl
  -- the coefficients from the bits
  have hN : ∀ j < mtBits P, (mtChar P).coeff (mtBits P - 1 - j) =
      b (mtBits P + j) + ∑ e ∈ Finset.range j, (mtChar P).coeff (mtBits P - 1 - e) * b (mtBits P + (j - e - 1)) := by
    intro j hj
    have := hann j
    rw [← Finset.sum_range_reflect] at this
    rw [← Finset.sum_range_add_sum_Ico _ (show j ≤ mtBits P by omega), Finset.sum_eq_sum_Ico_succ_bot (by omega)] at this
    rw [Finset.sum_eq_zero (s := Finset.Ico (j + 1) (mtBits P)) (fun e he => by
      rw [Finset.mem_Ico] at he
      rw [hb0 _ (by omega), if_neg (by omega), mul_zero])] at this
    rw [hb0 (j + (mtBits P - 1 - j)) (by omega), if_pos (by omega), mul_one, add_zero] at this
    rw [Finset.sum_congr rfl (fun e he => by
      rw [Finset.mem_range] at he
      rw [show j + (mtBits P - 1 - e) = mtBits P + (j - e - 1) by omega] : ∀ e ∈ Finset.range j, (mtChar P).coeff (mtBits P - 1 - e) * b (j + (mtBits P - 1 - e)) = (mtChar P).coeff (mtBits P - 1 - e) * b (mtBits P + (j - e - 1)))] at this
    rw [show j + mtBits P = mtBits P + j by omega] at this
    generalize (∑ e ∈ Finset.range j, (mtChar P).coeff (mtBits P - 1 - e) * b (mtBits P + (j - e - 1))) = s at this ⊢
    generalize (mtChar P).coeff (mtBits P - 1 - j) = a at this ⊢
    generalize b (mtBits P + j) = c at this ⊢
    linear_combination this - CharTwo.add_self_eq_zero s - CharTwo.add_self_eq_zero c
  have hbk : b (mtBits P) = 0 := by
    have := hN 0 (by omega)
    rw [Finset.sum_range_zero, Nat.sub_zero, hnext hw] at this
    rw [add_zero, Nat.add_zero] at this
    exact this.symm
  obtain ⟨helper, e1, -, r1⟩ := assign_spec (B := B) (Q := X ^ (mtBits P - 1)) hB represents_empty (mtBits P - 1) true (fun j => by
    rw [coeff_X_pow, coeff_zero]; rfl)
  obtain ⟨tmp, e2, l2⟩ := seed_length hv (5489 % 2 ^ P.bits)
  obtain ⟨x', e3, l3, g3⟩ := reconstruct_spec (p := helper.get B) hv hb hW hlt (fun j hj => by
    rw [get_spec hB r1, coeff_X_pow]
    congr 1
    apply gf_inj
    rw [gf_decide]
    have : gf ((W (j + 1)).testBit 0) = b j := by rw [hbdef]
    rw [this]
    rcases Nat.eq_or_lt_of_le hj with rfl | hj
    · rw [hbk, if_neg (by omega)]
    · rw [hb0 j hj]) tmp.x l2
  have hX : IsMt P fun k => W (k + 1) := IsMt.shift hW 1
  have hXb : ∀ k, (fun k => W (k + 1)) k < 2 ^ P.w := fun k => hlt _
  have a3 : BlockAt (fun k => W (k + 1)) P.n 0 ⟨x', 0⟩ := BlockAt.init (st := ⟨x', 0⟩) l3 (by simp) g3
  obtain ⟨st4, e4, a4⟩ := skipLoop_spec hv hX hXb hbit (mtBits P) 0 _ (by omega) a3
  rw [Nat.zero_add] at a4
  obtain ⟨phi, e5, -, r5⟩ := assign_spec (B := B) (Q := X ^ mtBits P) hB represents_empty (mtBits P) true (fun j => by
    rw [coeff_X_pow, coeff_zero]; rfl)
  obtain ⟨st6, next, N, e6, -, r6, c6, -, -⟩ := lowBits_spec (B := B) hv hB hX hXb id (mtBits P) 0 (mtBits P) st4 Poly.empty 0 a4 represents_empty (fun s _ s' _ h => by
    simpa using h)
  have hNb : ∀ s < mtBits P, N.coeff s = b (mtBits P + s) := by
    intro s hs
    have := c6 s hs
    rw [Nat.zero_add, id] at this
    rw [this, hbdef]
  obtain ⟨phi', e7, r7⟩ := phiLoop_spec (N := N) hv hB (fun j hj => by
    rw [hN j hj, hNb j hj]
    congr 1
    refine Finset.sum_congr rfl fun e he => ?_
    rw [Finset.mem_range] at he
    rw [hNb _ (by omega)]) (mtBits P) 0 phi next (X ^ mtBits P) (by omega) r5 r6 ⟨fun l hl => by omega, fun l _ hl => by
      rw [Finset.sum_range_zero, coeff_X_pow, if_neg (by omega)], by rw [coeff_X_pow, if_pos rfl], fun i hi => by rw [coeff_X_pow, if_neg (by omega)]⟩
  refine ⟨phi', ?_, r7⟩
  rw [characteristicPolynomial, hke]
  rw [e1, Option.bind_some, e2, Option.bind_some, e3, Option.bind_some, e4, Option.bind_some, e5, Option.bind_some, asPolynomial, e6, Option.bind_some]
  exact e7

theorem resultLoop_spec (hB : 0 < B) {G : (ZMod 2)[X]} : ∀ (cnt j : Nat) (result gh : Poly) (Q : (ZMod 2)[X]), Represents B result.storage result.size Q →
    Represents B gh.storage gh.size G →
    ∃ r' Q', resultLoop P B cnt j result gh = some r' ∧ Represents B r'.storage r'.size Q' ∧ (∀ s, j ≤ s → s < j + cnt → Q'.coeff s = G.coeff (2 * mtBits P - s - 1)) ∧
      ∀ s < j, Q'.coeff s = Q.coeff s
  | 0, j, result, gh, Q, hr, _ => ⟨result, Q, rfl, hr, fun s h1 h2 => by omega, fun _ _ => rfl⟩
  | c + 1, j, result, gh, Q, hr, hg => by
    obtain ⟨g1, e1, -, r1⟩ := getMut_spec hB hg (2 * mtBits P - j - 1)
    obtain ⟨p1, e2, -, r2⟩ := assign_spec (Q := Q + C (Q.coeff j + G.coeff (2 * mtBits P - j - 1)) * X ^ j) hB hr j (decide (G.coeff (2 * mtBits P - j - 1) = 1)) (fun i => by
      rw [coeff_add, coeff_C_mul, coeff_X_pow]
      by_cases hi : i = j
      · rw [if_pos hi, if_pos hi, hi]
        show _ = gf _
        rw [gf_decide]
        linear_combination CharTwo.add_self_eq_zero (Q.coeff j)
      · rw [if_neg hi, if_neg hi, mul_zero, add_zero])
    obtain ⟨r', Q', e3, r3, c3, d3⟩ := resultLoop_spec hB c (j + 1) p1 g1 _ r2 r1
    refine ⟨r', Q', ?_, r3, fun s h1 h2 => ?_, fun s hs => ?_⟩
    · rw [resultLoop, show numBits P = mtBits P from rfl, e1, Option.bind_some]
      dsimp only
      rw [e2, Option.bind_some, e3]
    · rcases Nat.eq_or_lt_of_le h1 with rfl | h1
      · rw [d3 j (by omega), coeff_add, coeff_C_mul, coeff_X_pow, if_pos rfl]
        linear_combination CharTwo.add_self_eq_zero (Q.coeff j)
      · exact c3 s (by omega) (by omega)
    · rw [d3 s (by omega), coeff_add, coeff_C_mul, coeff_X_pow, if_neg (by omega), mul_zero, add_zero]

/-- `discard_many(z)`: the array is that of `z` elements later. -/
theorem discardMany_spec (hv : MtValid P) (hb : P.bits = P.w) (hw : Even P.w) (hB : SqrOK B) {g : Nat} (hg : IsGap (mtChar P) (mtBits P) g) (hF : Fits B (mtBits P) g)
    {X W : Nat → Nat} (hX : IsMt P X) (hXb : ∀ k, X k < 2 ^ P.w) (hW : IsMt P W) (hWb : ∀ k, W k < 2 ^ P.w) {t : Nat} {st : BlockEng Nat}
    (hst : BlockAt X P.n t st) (hXW : ∀ j, X (t + j) = W (j + 1)) (z : Nat) :
    ∃ x', discardMany P B z st = some ⟨x', 0⟩ ∧ x'.length = P.n ∧ ∀ s < P.n, x'[s]? = some (W (z + s + 1)) := by
  have hk := n_le_mtBits hv
  have h1 := hv.m_lt; have h2 := hv.m_two
  have hB0 : 0 < B := hB.2.1
  have hke : numBits P = mtBits P := rfl
  obtain ⟨hm, hd, -⟩ := char_spec hv
  obtain ⟨phi, e1, r1⟩ := characteristicPolynomial_spec (B := B) hv hb hw hB0
  obtain ⟨gp, e2, s2, r2⟩ := modPow_spec (e := z) (g := g) hB r1 (by omega) (by omega) (by rw [hd]; exact hg) (by rw [hd]; exact hF)
  obtain ⟨st3, h, H, e3, a3, r3, c3, d3, z3⟩ := lowBits_spec (B := B) hv hB0 hX hXb (fun j => 2 * mtBits P - j - 1) (mtBits P * 2) 0 t st Poly.empty 0 hst represents_empty
    (fun s hs s' hs' hss => by simp only [Nat.zero_add] at hss; omega)
  obtain ⟨gh, e4, -, r4⟩ := mul_poly_spec hB0 r2 r3 (by omega) (z3 (Or.inr (by omega)))
  obtain ⟨res, R, e5, r5, c5, -⟩ := resultLoop_spec (P := P) (B := B) hB0 (mtBits P + 1) 0 Poly.empty gh 0 represents_empty r4
  have hdeg : ∀ i, mtBits P ≤ i → (Polynomial.X ^ z %ₘ mtChar P : (ZMod 2)[X]).coeff i = 0 := by
    intro i hi
    have := natDegree_modByMonic_lt (Polynomial.X ^ z : (ZMod 2)[X]) hm (by intro h; rw [h, natDegree_one] at hd; omega)
    exact coeff_eq_zero_of_natDegree_lt (by omega)
  have hR : ∀ j ≤ mtBits P, R.coeff j = gf ((W (z + j + 1)).testBit 0) := by
    intro j hj
    rw [c5 j (by omega) (by omega), coeff_mul, Finset.Nat.sum_antidiagonal_eq_sum_range_succ (fun a c => (Polynomial.X ^ z %ₘ mtChar P : (ZMod 2)[X]).coeff a * H.coeff c),
      show (2 * mtBits P - j - 1).succ = 2 * mtBits P - j by omega, show z + j + 1 = j + z + 1 by omega, low_bits_ahead hv hW hWb,
      ← Finset.sum_range_add_sum_Ico _ (show mtBits P ≤ 2 * mtBits P - j by omega), Finset.sum_eq_zero (s := Finset.Ico (mtBits P) (2 * mtBits P - j)) (fun i hi => by
        rw [Finset.mem_Ico] at hi
        rw [hdeg i hi.1, zero_mul]), add_zero]
    refine Finset.sum_congr rfl fun i hi => ?_
    rw [Finset.mem_range] at hi
    have := c3 (j + i) (by omega)
    rw [Nat.zero_add] at this
    rw [show 2 * mtBits P - j - 1 - i = 2 * mtBits P - (j + i) - 1 by omega, this, hXW]
  obtain ⟨-, B', -, w3⟩ := a3
  obtain ⟨x', e6, l6, g6⟩ := reconstruct_spec (p := res.get B) (W := fun k => W (k + z)) hv hb (IsMt.shift hW z) (fun k => hWb _) (fun j hj => by
    rw [get_spec hB0 r5, hR j hj, decide_gf, show z + j + 1 = j + 1 + z by omega]) st3.x w3.len
  refine ⟨x', ?_, l6, fun s hs => by rw [g6 s hs, show s + 1 + z = z + s + 1 by omega]⟩
  rw [discardMany, hke]
  rw [e1, Option.bind_some, e2, Option.bind_some, e3, Option.bind_some, e4, Option.bind_some, e5, Option.bind_some]
  exact e6

end Mt
end Boost.Random
