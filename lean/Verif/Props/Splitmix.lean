import Verif.Proofs.Splitmix

namespace Boost.Random
open Spec Splitmix

/-! ## C34 -/

/-- C34: from every state, the values produced in `2^64` calls are all 64-bit numbers, each exactly
once; the states likewise; and then everything repeats. -/
theorem c34_period (s : Nat) (hs : s < 2 ^ 64) :
    ∃ V S : Nat → Nat, (∀ n, run Splitmix.next n s = some ((List.range n).map V, S n)) ∧
      (∀ v, v < 2 ^ 64 → ∃! n, n < 2 ^ 64 ∧ V n = v) ∧ (∀ v, v < 2 ^ 64 → ∃! n, n < 2 ^ 64 ∧ S n = v) ∧
      ∀ n, V (n + 2 ^ 64) = V n ∧ S (n + 2 ^ 64) = S n := by
  have hst : ∀ n, st s n = (s + n * 0x9E3779B97F4A7C15) % 2 ^ 64 := by
    intro n
    unfold st
    split
    · rename_i h; rw [h, Nat.zero_mul, Nat.add_zero, Nat.mod_eq_of_lt hs]
    · rfl
  have hstinj : ∀ n m, n < 2 ^ 64 → m < 2 ^ 64 → st s n = st s m → n = m := by
    intro n m hn hm h
    rw [hst, hst] at h
    exact mul_odd_inj (by decide) hn hm (Nat.ModEq.add_left_cancel' s h)
  have hstlt : ∀ n, st s n < 2 ^ 64 := fun n => by rw [hst]; exact Nat.mod_lt _ (by decide)
  have hadd : ∀ n, st s (n + 2 ^ 64) = st s n := by
    intro n
    rw [hst, hst, Nat.add_mul, ← Nat.add_assoc, Nat.add_mul_mod_self_left]
  refine ⟨fun k => mix (st s (k + 1)), st s, run_eq s, ?_, ?_, ?_⟩
  · intro v hv
    refine existsUnique_of_injOn (2 ^ 64) (Finset.range (2 ^ 64)) (fun k => mix (st s (k + 1))) ?_ ?_
      (Finset.card_range _) v (Finset.mem_range.2 hv)
    · intro n _; exact Finset.mem_range.2 (mix_lt _)
    · intro n hn m hm h
      have h1 := mix_inj (hstlt _) (hstlt _) h
      rw [← st_succ, ← st_succ] at h1
      have h2 : st s n = st s m := by
        have h3 : st s n % 2 ^ 64 = st s m % 2 ^ 64 := Nat.ModEq.add_right_cancel' _ h1
        rwa [Nat.mod_eq_of_lt (hstlt n), Nat.mod_eq_of_lt (hstlt m)] at h3
      exact hstinj n m hn hm h2
  · intro v hv
    refine existsUnique_of_injOn (2 ^ 64) (Finset.range (2 ^ 64)) (st s) ?_ ?_
      (Finset.card_range _) v (Finset.mem_range.2 hv)
    · intro n _; exact Finset.mem_range.2 (hstlt _)
    · intro n hn m hm h; exact hstinj n m hn hm h
  · intro n
    refine ⟨?_, hadd n⟩
    show mix (st s (n + 2 ^ 64 + 1)) = _
    rw [show n + 2 ^ 64 + 1 = n + 1 + 2 ^ 64 by omega, hadd]

/-- The reference values for seed 1234567 (published with the algorithm). -/
example : (run Splitmix.next 3 1234567).map Prod.fst =
    some [6457827717110365317, 3203168211198807973, 9817491932198370423] := by decide +kernel

/-- C34: the range is exactly `[min(), max()]`, both bounds being produced from every state. -/
theorem c34_range (s : Nat) (hs : s < 2 ^ 64) :
    (∀ n, ∃ vs s', run Splitmix.next n s = some (vs, s') ∧ ∀ v ∈ vs, Splitmix.minv ≤ v ∧ v ≤ Splitmix.maxv) ∧
    ∃ n vs s', run Splitmix.next n s = some (vs, s') ∧ Splitmix.minv ∈ vs ∧ Splitmix.maxv ∈ vs := by
  constructor
  · intro n
    refine ⟨_, _, run_eq s n, ?_⟩
    intro v hv
    obtain ⟨k, _, rfl⟩ := List.mem_map.1 hv
    exact ⟨Nat.zero_le _, by have := mix_lt (st s (k + 1)); unfold Splitmix.maxv; omega⟩
  · obtain ⟨V, S, hr, hV, _⟩ := c34_period s hs
    obtain ⟨a, ⟨ha, ha2⟩, _⟩ := hV Splitmix.minv (by decide)
    obtain ⟨b, ⟨hb, hb2⟩, _⟩ := hV Splitmix.maxv (by decide)
    refine ⟨2 ^ 64, _, _, hr _, ?_, ?_⟩
    · rw [← ha2]; exact List.mem_map_of_mem (List.mem_range.2 ha)
    · rw [← hb2]; exact List.mem_map_of_mem (List.mem_range.2 hb)

/-- C34: `discard(z)` is `z` calls and `generate` over `n` elements is `n` calls. -/
theorem c34_discard (z s : Nat) : Splitmix.discard z s = stateAfter Splitmix.next z s ∧
    Splitmix.generate z s = run Splitmix.next z s := ⟨discard_eq z s, generate_eq z s⟩

example : Splitmix.discard 2 1234567 = some ((1234567 + 2 * 0x9E3779B97F4A7C15) % 2 ^ 64) := by decide

/-- C34: seeding gives a state of 64 bits; distinct non-zero seeds, and distinct pairs of words of a
seed sequence, give distinct states. -/
theorem c34_seed :
    (∀ v, v < 2 ^ 64 → Splitmix.seed v < 2 ^ 64 ∧ (v ≠ 0 → Splitmix.seed v = v)) ∧
    ∀ a b, a < 2 ^ 32 → b < 2 ^ 32 → Splitmix.seedSeq a b = a * 2 ^ 32 + b := by
  refine ⟨fun v hv => ⟨?_, fun h => by simp [Splitmix.seed, h]⟩, fun a b ha hb => ?_⟩
  · unfold Splitmix.seed; split <;> [decide; exact hv]
  · unfold Splitmix.seedSeq Splitmix.concatenate
    rw [Nat.shiftLeft_eq, Nat.mod_eq_of_lt (by omega), Nat.mul_comm, ← Nat.two_pow_add_eq_or_of_lt hb]

example : Splitmix.seedSeq 1 2 = 4294967298 ∧ Splitmix.seed 0 ≠ 0 := by decide

/-! ## C35 -/

/-- C35 (partial): if no digit follows in the stream, reading restores the state, for all states. Missing:
other data may not contain digits (`c35_following_digits_false`), and the stream is never left good
(`c35_stream_good_false`). -/
theorem c35_round_trip_partial (s : Nat) (hs : s < 2 ^ 64) (rest : List Char)
    (hr : ∀ c ∈ rest, Splitmix.isDigit c = false) :
    (Splitmix.read ⟨Splitmix.write s ++ rest, true⟩).2 = s ∧ Splitmix.eq (Splitmix.read ⟨Splitmix.write s ++ rest, true⟩).2 s := by
  have : (Splitmix.read ⟨Splitmix.write s ++ rest, true⟩).2 = s := by
    unfold Splitmix.read Splitmix.write
    simp only [if_true]
    rw [readLoop_append, readLoop_digits _ (decimal_digits s), readLoop_nodigits _ hr, List.append_nil]
    unfold strtoull
    rw [decimal_value]
    exact Nat.min_eq_right (by omega)
  exact ⟨this, by rw [this]; simp [Splitmix.eq]⟩

example : (Splitmix.read ⟨Splitmix.write 1234567 ++ [' ', 'x', '\n'], true⟩).2 = 1234567 := by decide +kernel

/-- C35 is false for every state: reading always consumes the whole stream and leaves it failed. -/
theorem c35_stream_good_false (chars : List Char) :
    (Splitmix.read ⟨chars, true⟩).1 = ⟨[], false⟩ := rfl

/-- C35 is false: whatever precedes it, an engine followed by another one is read as a larger number,
unless its state was zero or the result overflows. -/
theorem c35_following_engine_false (a b : Nat) (ha : 0 < a) (ha' : a < 2 ^ 64 - 1) :
    (Splitmix.read ⟨Splitmix.write a ++ [' '] ++ Splitmix.write b, true⟩).2 ≠ a := by
  have hf : ∀ (l : List Char) (n : Nat), n ≤ l.foldl (fun n c => 10 * n + (c.toNat - 48)) n := by
    intro l
    induction l with
    | nil => exact fun n => le_refl n
    | cons c l ih => exact fun n => le_trans (show n ≤ 10 * n + (c.toNat - 48) by omega) (ih _)
  have hne : Splitmix.write b ≠ [] := by
    unfold Splitmix.write decimal
    split
    · simp
    · rename_i h; simpa [Nat.digits_ne_nil_iff_ne_zero, Nat.digits_eq_nil_iff_eq_zero] using h
  unfold Splitmix.read
  simp only [if_true]
  rw [readLoop_append, readLoop_append, readLoop_digits (Splitmix.write a) (decimal_digits a),
    readLoop_digits (Splitmix.write b) (decimal_digits b), readLoop_nodigits [' '] (by decide), List.append_nil]
  unfold strtoull
  rw [List.foldl_append, show Splitmix.write a = decimal a from rfl, decimal_value]
  obtain ⟨c, l, hl⟩ := List.exists_cons_of_ne_nil hne
  rw [hl, List.foldl_cons]
  have := hf l (10 * a + (c.toNat - 48))
  generalize l.foldl _ _ = X at this
  show min _ _ ≠ _
  omega

example : (Splitmix.read ⟨Splitmix.write 1 ++ [' '] ++ Splitmix.write 2, true⟩).2 = 12 := by decide +kernel

/-- C35: reading from a stream that has already failed does not leave the engine alone: it sets the
state to zero. -/
theorem c35_failed_stream_false (chars : List Char) : (Splitmix.read ⟨chars, false⟩).2 = 0 := by
  show strtoull [] = 0
  decide

end Boost.Random
