import Verif.Proofs.MixmaxSkip
import Verif.Proofs.PackedPoly

/-!
# Packed polynomials in the MIXMAX matrix

Connects the packed arithmetic with `polyAct`, the action of a list of coefficients.
-/

namespace Boost.Random.Mixmax
open Spec Packed

variable {N : Nat} {A : Matrix (Fin N) (Fin N) (ZMod mixP)}

theorem two61 : (2 : Matrix (Fin N) (Fin N) (ZMod mixP)) ^ 61 = 1 := by
  have h := map_natCast (Matrix.scalar (α := ZMod mixP) (Fin N)) (2 ^ 61)
  rw [p61, map_one] at h
  rw [h, Nat.cast_pow, Nat.cast_ofNat]

/-- A list of coefficients in one number. -/
def pack : List Nat → Nat
  | [] => 0
  | c :: cs => c + 2 ^ 128 * pack cs

/-- The `k` coefficients of a number, reduced. -/
def canonL : Nat → Nat → List Nat
  | 0, _ => []
  | k + 1, n => n % 2 ^ 128 % mixP :: canonL k (n / 2 ^ 128)

theorem rep_pack (A : Matrix (Fin N) (Fin N) (ZMod mixP)) (b : Nat) (cs : List Nat) (h : ∀ c ∈ cs, c ≤ b) :
    ∃ M, Rep A b cs.length (pack cs) M ∧ ∀ x, polyAct A cs x = M.mulVec x := by
  induction cs with
  | nil => exact ⟨0, .nil, fun x => by simp [polyAct]⟩
  | cons c cs ih =>
    obtain ⟨M, h1, h2⟩ := ih fun z hz => h z (by simp [hz])
    refine ⟨_, .cons c _ _ _ (h c (by simp)) h1, fun x => ?_⟩
    rw [polyAct, polyAct_mulVec, h2, Matrix.add_mulVec, Matrix.natCast_mulVec, Matrix.mulVec_mulVec]

theorem rep_canon {b k n : Nat} {M : Matrix (Fin N) (Fin N) (ZMod mixP)} (h : Rep A b k n M) (hb : b < 2 ^ 128)
    (x : Fin N → ZMod mixP) : polyAct A (canonL k n) x = M.mulVec x := by
  induction h with
  | nil => simp [canonL, polyAct]
  | cons l k n M hl _ ih =>
    have e1 : (l + 2 ^ 128 * n) % 2 ^ 128 = l := by
      rw [Nat.add_mul_mod_self_left, Nat.mod_eq_of_lt (by omega)]
    have e2 : (l + 2 ^ 128 * n) / 2 ^ 128 = n := by
      rw [Nat.add_mul_div_left _ _ (by decide), Nat.div_eq_of_lt (by omega), Nat.zero_add]
    rw [canonL, e1, e2, polyAct, polyAct_mulVec, ih, ZMod.natCast_mod, Matrix.add_mulVec, Matrix.natCast_mulVec,
      Matrix.mulVec_mulVec]

/-! ### the table of powers used by the reduction -/

/-- From `X^e` to `X^(e+1)`, with `t0` for `X^17`. -/
def nextT (t0 t : Nat) : Nat :=
  fold ml17 mh17 (fold ml17 mh17 ((0 + 2 ^ 128 * t) % (2 ^ 128) ^ 17 + (0 + 2 ^ 128 * t) / (2 ^ 128) ^ 17 * t0))

/-- `n` powers from `t` on. -/
def mkT (t0 : Nat) : Nat → Nat → List Nat
  | 0, _ => []
  | n + 1, t => t :: mkT t0 n (nextT t0 t)

theorem rep_nextT {t0 t e : Nat} (h0 : Rep A bd 17 t0 (A ^ 17)) (h : Rep A bd 17 t (A ^ e)) :
    Rep A bd 17 (nextT t0 t) (A ^ (e + 1)) := by
  have h1 := Rep.cons 0 _ _ _ (Nat.zero_le _) h
  obtain ⟨Ml, Mh, h2, h3, h4⟩ := Rep.split (k := 1) (by decide) 17 h1
  rw [Nat.cast_zero, zero_add, ← pow_succ'] at h4
  rw [h4]
  unfold nextT
  generalize (0 + 2 ^ 128 * t) % (2 ^ 128) ^ 17 = lo at *
  generalize (0 + 2 ^ 128 * t) / (2 ^ 128) ^ 17 = hi at *
  cases h3 with
  | cons l _ n M hl hn =>
    cases hn
    rw [mul_zero, mul_zero, add_zero, add_zero, ← (Nat.cast_commute l (A ^ 17)).eq]
    have h5 := h2.add ((h0.smul l).mono (Nat.mul_le_mul_right bd hl))
    have h7 := h5.fold two61 (by decide) (show ml17 = _ by decide +kernel) (show mh17 = _ by decide +kernel)
    exact (h7.fold two61 (by decide) (show ml17 = _ by decide +kernel) (show mh17 = _ by decide +kernel)).mono (by decide)

theorem tableOK_mkT {t0 : Nat} (h0 : Rep A bd 17 t0 (A ^ 17)) (n : Nat) : ∀ {t e : Nat}, Rep A bd 17 t (A ^ e) →
    TableOK A bd 17 e (mkT t0 n t) := by
  induction n with
  | zero => intro t e _; trivial
  | succ n ih => intro t e h; exact ⟨h, ih (rep_nextT h0 h)⟩

/-- The number for `X`. -/
theorem rep_X : Rep A bd 17 (2 ^ 128) (A ^ 1) := by
  have := Rep.cons 0 _ _ _ (Nat.zero_le bd) (Rep.cons 1 _ _ _ (show 1 ≤ bd by decide) (Rep.zero (A := A) bd 15))
  simpa using this

/-! ### the rows of a skip table -/

/-- Each row is the square of the one before, with reduced coefficients; `r` is the number for the row before. -/
def chkRows (ts : List Nat) : Nat → List (List Nat) → Bool
  | _, [] => true
  | r, row :: rows =>
    bif Nat.beq r 0 then false else
      (canonL 17 (mulK ts r r) == row) && chkRows ts (mulK ts r r) rows

theorem canonL_le (k : Nat) : ∀ n, ∀ c ∈ canonL k n, c ≤ 2 ^ 61 - 1 := by
  induction k with
  | zero => intro n c hc; simp [canonL] at hc
  | succ k ih =>
    intro n c hc
    rw [canonL] at hc
    rcases List.mem_cons.1 hc with rfl | hc
    · have := Nat.mod_lt (n % 2 ^ 128) (show 0 < mixP by decide)
      unfold mixP at this ⊢
      omega
    · exact ih _ c hc

theorem chkRows_ok {ts : List Nat} (hl : ts.length = 17) (ht : TableOK A bd 17 17 ts) (x0 : Fin N → ZMod mixP)
    (rows : List (List Nat)) : ∀ {r e : Nat}, Rep A bd 17 r (A ^ (2 ^ e)) → chkRows ts r rows = true →
    RowsOK A x0 (e + 1) rows := by
  induction rows with
  | nil => intro _ _ _ _; trivial
  | cons row rows ih =>
    intro r e h hc
    rw [chkRows] at hc
    cases hz : Nat.beq r 0 with
    | true => rw [hz] at hc; simp at hc
    | false =>
      rw [hz] at hc
      simp only [cond_false, Bool.and_eq_true, beq_iff_eq] at hc
      have h2 := Rep.mulK two61 hl ht h h
      rw [← pow_add, ← two_mul, ← pow_succ'] at h2
      refine ⟨?_, ?_, ih h2 hc.2⟩
      · rw [← hc.1]; exact canonL_le _ _
      · rw [← hc.1, rep_canon h2 (by decide)]

end Boost.Random.Mixmax
