import Verif.Proofs.MtGap
import Verif.Props.MersenneTwister

/-!
# Mersenne Twister: `discard` (C24)
-/

namespace Boost.Random
open Spec Polynomial Gf2

variable {P : Mt.Params}

/-- The widths of `digit_t` (`unsigned long`) covered. -/
theorem mt_sqrOK {B : Nat} (hB : B = 32 ∨ B = 64) : SqrOK B := by
  rcases hB with rfl | rfl
  · exact sqrOK_32
  · exact sqrOK_64

/-! ## The characteristic polynomial -/

/-- **C24.** `get_characteristic_polynomial()` returns a monic polynomial of degree `w*n - r` that annihilates the low bits of every sequence of
the recurrence; its assertions hold. (The full statement would not need `UIntType` to have exactly `w` bits.) -/
theorem c24_characteristic_partial (hv : MtValid P) (hb : P.bits = P.w) (hw : Even P.w) {B : Nat} (hB : 0 < B) :
    ∃ p q, Mt.characteristicPolynomial P B = some p ∧ Represents B p.storage p.size q ∧ q.Monic ∧ q.natDegree = P.w * P.n - P.r ∧
      ∀ X, IsMt P X → (∀ k, X k < 2 ^ P.w) → ∀ t, (∑ i ∈ Finset.range (q.natDegree + 1), q.coeff i * ((X (t + i + 1) : Nat) : ZMod 2)) = 0 := by
  obtain ⟨p, e, r⟩ := Mt.characteristicPolynomial_spec hv hb hw hB
  obtain ⟨hm, hd, -⟩ := Mt.char_spec hv
  refine ⟨p, mtChar P, e, r, hm, hd, fun X hX hXb t => ?_⟩
  have := congrFun (Mt.char_annihilates hv hX hXb) t
  rw [Mt.aeval_sum _ (Nat.lt_succ_self _)] at this
  rw [← show _ = (0 : ZMod 2) from this]
  refine Finset.sum_congr rfl fun i _ => ?_
  congr 1
  rw [Mt.gf, Nat.testBit_zero]
  rcases Nat.mod_two_eq_zero_or_one (X (t + i + 1)) with h | h
  · rw [h, (ZMod.natCast_eq_zero_iff _ _).2 (Nat.dvd_of_mod_eq_zero h)]; rfl
  · rw [h, (ZMod.natCast_eq_natCast_iff (X (t + i + 1)) 1 2).2 (show X (t + i + 1) % 2 = 1 % 2 from h)]; rfl

example : (Mt.characteristicPolynomial mtTiny 32).map (·.storage) = some [2317889089, 34] := by decide +kernel

/-! ## The loop -/

theorem stateAfter_succ {σ α : Type} (next : σ → Option (α × σ)) (n : Nat) (s : σ) :
    stateAfter next (n + 1) s = ((next s).map Prod.snd).bind (stateAfter next n) := by
  unfold stateAfter
  cases h : next s with
  | none => simp [run, h]
  | some p =>
    rw [run_succ_of (show next s = some (p.1, p.2) from h)]
    simp only [Option.map_map, Option.map_some, Option.bind_some]
    rfl

theorem foldlM_stateAfter {σ α : Type} (next : σ → Option (α × σ)) : ∀ (l : List Nat) (s : σ),
    l.foldlM (fun st _ => (next st).map (·.2)) s = stateAfter next l.length s
  | [], s => rfl
  | _ :: l, s => by
    rw [List.foldlM_cons, List.length_cons, stateAfter_succ]
    cases next s with
    | none => rfl
    | some p => exact foldlM_stateAfter next l p.2

/-- **C24.** Up to the threshold `discard(z)` is `z` calls, for all template arguments and all states, also if the calls go wrong. -/
theorem c24_calls (P : Mt.Params) (B threshold z : Nat) (hz : z ≤ threshold) (st : BlockEng Nat) :
    Mt.discard P B threshold z st = stateAfter (Mt.next P) z st := by
  rw [Mt.discard, if_neg (by omega), foldlM_stateAfter, List.length_range]

example : (Mt.discard mtTiny 64 100 7 ⟨[1, 2, 3, 4, 250], 5⟩).map (fun s => (s.x, s.i)) = some ([79, 94, 250, 121, 42], 2) := by decide

/-! ## Jumping ahead -/

/-- The states an engine is in after at least one call. -/
theorem mt_reachable_after (hv : MtValid P) : ∀ (z : Nat) (st b : BlockEng Nat), MtLive P st → stateAfter (Mt.next P) (z + 1) st = some b →
    MtShape P b ∧ MtReachable P b
  | 0, st, b, h, e => by
    obtain ⟨v, st', e', h1, h2⟩ := c22_live hv st h
    rw [stateAfter_succ, e'] at e
    obtain rfl : st' = b := by simpa [stateAfter, run] using e
    exact ⟨h1.1, h2⟩
  | z + 1, st, b, h, e => by
    obtain ⟨v, st', e', h1, -⟩ := c22_live hv st h
    rw [stateAfter_succ, e', Option.map_some, Option.bind_some] at e
    exact mt_reachable_after hv z st' b h1 e

/-- What is claimed of `discard(z)`: it is defined, leaves the engine in a proper state, and all later values are those after `z` calls. -/
def DiscardOK (P : Mt.Params) (B threshold z : Nat) (st : BlockEng Nat) : Prop :=
  ∃ a b, Mt.discard P B threshold z st = some a ∧ stateAfter (Mt.next P) z st = some b ∧ MtLive P a ∧ SameFuture (Mt.next P) a b ∧
    (z ≠ 0 → Mt.eq P a b = some true)

theorem mt_discardOK (hv : MtValid P) {B threshold z : Nat} {st : BlockEng Nat} (h : MtLive P st)
    (hj : threshold < z → ∃ a b, Mt.discardMany P B z st = some a ∧ stateAfter (Mt.next P) z st = some b ∧ MtShape P a ∧ MtReachable P a ∧ SameFuture (Mt.next P) a b) :
    DiscardOK P B threshold z st := by
  have key : ∀ a b, stateAfter (Mt.next P) z st = some b → MtShape P a → MtReachable P a → SameFuture (Mt.next P) a b → z ≠ 0 → Mt.eq P a b = some true := by
    intro a b e2 s r f hz
    obtain ⟨z', rfl⟩ : ∃ z', z = z' + 1 := ⟨z - 1, by omega⟩
    obtain ⟨sb, rb⟩ := mt_reachable_after hv z' st b h e2
    obtain ⟨res, er, hr⟩ := c22_eq hv a b s sb r rb
    rw [er, hr.2 f]
  by_cases hz : threshold < z
  · obtain ⟨a, b, e1, e2, s, r, f⟩ := hj hz
    exact ⟨a, b, by rw [Mt.discard, if_pos hz]; exact e1, e2, ⟨s, Or.inr r⟩, f, key a b e2 s r f⟩
  · have e1 := c24_calls P B threshold z (by omega) st
    cases z with
    | zero => exact ⟨st, st, by rw [e1]; rfl, rfl, h, fun _ => rfl, fun hc => absurd rfl hc⟩
    | succ z =>
      obtain ⟨X, hX, hb, hx⟩ := Mt.exists_seq hv st.x h.1.len h.1.lt
      obtain ⟨b, e, -⟩ := Mt.run_spec hv hX hb st.i st (BlockAt.init h.1.len h.1.i hx) (z + 1)
      have e2 : stateAfter (Mt.next P) (z + 1) st = some b := by rw [stateAfter, e]; rfl
      obtain ⟨sb, rb⟩ := mt_reachable_after hv z st b h e2
      exact ⟨b, b, by rw [e1, e2], e2, ⟨sb, Or.inr rb⟩, fun _ => rfl, key b b e2 sb rb (fun _ => rfl)⟩

theorem mt_discardMany (hv : MtValid P) (hb : P.bits = P.w) (hw : Even P.w) {B : Nat} (hB : B = 32 ∨ B = 64) {g : Nat} (hg : IsGap (mtChar P) (mtBits P) g)
    (hF : Fits B (mtBits P) g) (st : BlockEng Nat) (h : MtLive P st) (z : Nat) :
    ∃ a b, Mt.discardMany P B z st = some a ∧ stateAfter (Mt.next P) z st = some b ∧ MtShape P a ∧ MtReachable P a ∧ SameFuture (Mt.next P) a b := by
  have h1 := hv.m_lt; have h2 := hv.m_two
  obtain ⟨X, W, t, hX, hXb, hW, hWb, hst, hXW⟩ : ∃ (X W : Nat → Nat) (t : Nat), IsMt P X ∧ (∀ k, X k < 2 ^ P.w) ∧ IsMt P W ∧ (∀ k, W k < 2 ^ P.w) ∧ BlockAt X P.n t st ∧
      ∀ j, X (t + j) = W (j + 1) := by
    obtain ⟨hs, hi | ⟨W, hW, hWb, hx⟩⟩ := h
    · obtain ⟨X, hX, hXb, hx⟩ := Mt.exists_seq hv st.x hs.len hs.lt
      refine ⟨X, fun k => X (k + (P.n - 1)), st.i, hX, hXb, Mt.IsMt.shift hX _, fun k => hXb _, BlockAt.init hs.len hs.i hx, fun j => ?_⟩
      show X _ = X _
      congr 1; omega
    · refine ⟨fun k => W (k + 1), fun k => W (k + st.i), st.i, Mt.IsMt.shift hW 1, fun k => hWb _, Mt.IsMt.shift hW _, fun k => hWb _, BlockAt.init hs.len hs.i hx, fun j => ?_⟩
      show W _ = W _
      congr 1; omega
  obtain ⟨x', e1, l1, g1⟩ := Mt.discardMany_spec hv hb hw (mt_sqrOK hB) hg hF hX hXb hW hWb hst hXW z
  obtain ⟨b, e2, a2⟩ := Mt.run_spec hv hX hXb t st hst z
  have a1 : BlockAt (fun s => W (s + (z + 1))) P.n 0 ⟨x', 0⟩ := BlockAt.init (st := ⟨x', 0⟩) l1 (Nat.zero_le _) (fun j hj => by
    rw [g1 j hj]; congr 2; omega)
  refine ⟨⟨x', 0⟩, b, e1, by rw [stateAfter, e2]; rfl, ⟨l1, fun v hv => ?_, Nat.zero_le _⟩, ⟨fun s => W (s + z), Mt.IsMt.shift hW z, fun k => hWb _, fun j hj => ?_⟩, fun k => ?_⟩
  · obtain ⟨j, hj, rfl⟩ := List.mem_iff_getElem.1 hv
    have := g1 j (by rw [← l1]; exact hj)
    rw [List.getElem?_eq_getElem hj, Option.some.injEq] at this
    rw [this]; exact hWb _
  · rw [g1 j hj]
    show _ = some (W (j + 1 + z))
    congr 2; omega
  · obtain ⟨s1, f1, -⟩ := Mt.run_spec hv (Mt.IsMt.shift hW (z + 1)) (fun k => hWb _) 0 _ a1 k
    obtain ⟨s2, f2, -⟩ := Mt.run_spec hv hX hXb (t + z) b a2 k
    rw [f1, f2]
    simp only [Option.map_some]
    congr 1
    refine List.map_congr_left fun j _ => ?_
    rw [show t + z + j = t + (z + j) by omega, hXW]
    congr 2; omega

/-- **C24.** `discard(z)` and `z` calls leave the engine with the same future, for every `z`, every state and every threshold, if `UIntType` has
exactly `w` bits, an even number, and the reduction by blocks stays within its array (`Fits`, which depends on the template arguments and on the
width of `unsigned long` only). Missing: other template arguments, for which the claim is false, see below. -/
theorem c24_discard_partial (hv : MtValid P) (hb : P.bits = P.w) (hw : Even P.w) {B : Nat} (hB : B = 32 ∨ B = 64) {g : Nat}
    (hg : IsGap (mtChar P) (mtBits P) g) (hF : Fits B (mtBits P) g) (st : BlockEng Nat) (h : MtLive P st) (threshold z : Nat) : DiscardOK P B threshold z st :=
  mt_discardOK hv h fun _ => mt_discardMany hv hb hw hB hg hF st h z

/-- C24: the same with conditions that can be read off the template arguments: `w` a power of two, `a` odd, the degree in the lower half of a digit. -/
theorem c24_discard_half_partial (hv : MtValid P) (hb : P.bits = P.w) {e : Nat} (he : 1 ≤ e) (hw : P.w = 2 ^ e) (ha : P.a % 2 = 1) (hn : P.n - 1 < P.w * (P.n - P.m)) {B : Nat}
    (hB : B = 32 ∨ B = 64) (hd : 2 * ((P.w * P.n - P.r) % B) < B) (st : BlockEng Nat) (h : MtLive P st) (threshold z : Nat) : DiscardOK P B threshold z st := by
  have hm := hv.m_lt; have h2 := hv.m_two
  refine c24_discard_partial hv hb (by rw [hw]; exact (Nat.even_pow.2 ⟨even_two, by omega⟩)) hB (Mt.char_gap hv hw (by rw [Nat.testBit_zero, ha]; rfl) hn)
    (fits_of_low (by rcases hB with rfl | rfl <;> omega) (by omega) hd) st h threshold z

/-- The conditions hold of an engine small enough to compute with. -/
example (st : BlockEng Nat) (h : MtLive mtTiny st) (threshold z : Nat) : DiscardOK mtTiny 32 threshold z st :=
  c24_discard_half_partial mtTiny_valid rfl (e := 3) (by omega) rfl rfl (by decide) (Or.inl rfl) (by decide) st h threshold z
example : MtLive mtTiny ⟨[1, 2, 3, 4, 250], 5⟩ := ⟨⟨rfl, by decide, by decide⟩, Or.inl rfl⟩
example : (Mt.discard mtTiny 32 100 1000000007 ⟨[1, 2, 3, 4, 250], 5⟩).map (fun s => (s.x, s.i)) = some ([144, 10, 209, 158, 197], 0) := by decide +kernel

/-- **C24.** The engines of the library: `discard(z)` and `z` calls leave the engine with the same future, and comparing equal, for every `z`,
every state and every threshold. -/
theorem c24_typedefs (hP : P = mt11213b ∨ P = mt19937 ∨ P = mt19937_64) {B : Nat} (hB : B = 32 ∨ B = 64) (st : BlockEng Nat) (h : MtLive P st) (threshold z : Nat) :
    DiscardOK P B threshold z st := by
  rcases hP with rfl | rfl | rfl
  · refine c24_discard_half_partial mt11213b_valid rfl (e := 5) (by omega) rfl rfl (by decide) hB ?_ st h threshold z
    rcases hB with rfl | rfl <;> decide
  · rcases hB with rfl | rfl
    · exact c24_discard_half_partial mt19937_valid rfl (e := 5) (by omega) rfl rfl (by decide) (Or.inl rfl) (by decide) st h threshold z
    · exact c24_discard_partial mt19937_valid rfl (by decide) (Or.inr rfl) (Mt.char_gap mt19937_valid (e := 5) rfl (by decide) (by decide))
        (fits_of_first (by omega) (by decide) (by decide)) st h threshold z
  · rcases hB with rfl | rfl
    · exact c24_discard_half_partial mt19937_64_valid rfl (e := 6) (by omega) rfl rfl (by decide) (Or.inl rfl) (by decide) st h threshold z
    · exact c24_discard_partial mt19937_64_valid rfl (by decide) (Or.inr rfl) (Mt.char_gap mt19937_64_valid (e := 6) rfl (by decide) (by decide))
        (fits_of_first (by omega) (by decide) (by decide)) st h threshold z

/-- The hypothesis holds of every seeded engine. -/
example (value : Nat) : ∃ st, Mt.seed mt19937 value = some st ∧ MtLive mt19937 st := by
  obtain ⟨st, e, hs, hr, -⟩ := c21_seed_value_never_stuck mt19937_valid value
  exact ⟨st, e, hs, Or.inr hr⟩

/-- C24: when `UIntType` has more than `w` bits (`mersenne_twister_engine<uint_fast32_t, 32, ...>` where that type has 64 bits), `reconstruct_state` leaves
garbage in the upper bits: after a jump the engine returns other values than after `z` calls, and values above `max()`. -/
theorem c24_wide_false : ∃ (P : Mt.Params) (st : BlockEng Nat) (z : Nat) (v u : Nat) (a b a' b' : BlockEng Nat), P = { mtTiny with bits := 32 } ∧ MtValid P ∧ MtLive P st ∧
    Mt.discard P 32 0 z st = some a ∧ stateAfter (Mt.next P) z st = some b ∧ Mt.next P a = some (v, a') ∧ Mt.next P b = some (u, b') ∧ v ≠ u ∧ Mt.maxv P < v := by
  refine ⟨_, ⟨[1, 2, 3, 4, 250], 5⟩, 9, 643745, 151, ⟨[630314, 318302, 261127, 290453, 14906], 0⟩, ⟨[79, 94, 250, 121, 42], 4⟩,
    ⟨[630314, 318302, 261127, 290453, 14906], 1⟩, ⟨[79, 94, 250, 121, 42], 5⟩, rfl, by constructor <;> decide, ⟨⟨rfl, by decide, by decide⟩, Or.inl rfl⟩, ?_, ?_, by rfl, by rfl, by decide, by decide⟩
  · have : (Mt.discard { mtTiny with bits := 32 } 32 0 9 ⟨[1, 2, 3, 4, 250], 5⟩).map (fun s => (s.x, s.i)) = some ([630314, 318302, 261127, 290453, 14906], 0) := by decide +kernel
    cases h : Mt.discard { mtTiny with bits := 32 } 32 0 9 ⟨[1, 2, 3, 4, 250], 5⟩ with
    | none => rw [h] at this; simp at this
    | some a =>
      rw [h] at this
      simp only [Option.map_some, Option.some.injEq, Prod.mk.injEq] at this
      obtain ⟨x, i⟩ := a
      rw [← this.1, ← this.2]
  · rfl

/-- C24: where the block reduction does not fit, a jump writes outside the array of the remainder. -/
theorem c24_overrun_false : ∃ (st : BlockEng Nat) (z : Nat), MtLive mtTiny st ∧ Mt.discard mtTiny 64 0 z st = none :=
  ⟨⟨[1, 2, 3, 4, 250], 5⟩, 1000000007, ⟨⟨rfl, by decide, by decide⟩, Or.inl rfl⟩, by decide +kernel⟩

end Boost.Random
