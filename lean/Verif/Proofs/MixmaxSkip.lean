import Verif.Proofs.Mixmax
import Verif.Model.MixmaxTable
import Mathlib.LinearAlgebra.Matrix.Notation

namespace Boost.Random.Mixmax
open Spec

/-! ### `fmodmulM61` -/

theorem fmodmul_spec (cum s a : Nat) (hc : cum ≤ 2 ^ 61 + 1) (hs : s ≤ 2 ^ 61 - 1) (ha : a ≤ 2 ^ 61 + 1) :
    fmodmulM61 cum s a ≤ 2 ^ 61 + 1 ∧ (fmodmulM61 cum s a : ZMod mixP) = cum + s * a := by
  have hT : s * a ≤ 2 ^ 122 - 1 := by
    calc s * a ≤ (2 ^ 61 - 1) * (2 ^ 61 + 1) := Nat.mul_le_mul hs ha
      _ = 2 ^ 122 - 1 := by decide
  have hmask : ∀ x, x &&& M61 = x % 2 ^ 61 := by
    intro x
    unfold M61
    rw [show (2305843009213693951 : Nat) = 2 ^ 61 - 1 by decide, Nat.and_two_pow_sub_one_eq_mod]
  have hmask32 : ∀ x, x &&& 0xFFFFFFFF = x % 2 ^ 32 := by
    intro x
    rw [show (0xFFFFFFFF : Nat) = 2 ^ 32 - 1 by decide, Nat.and_two_pow_sub_one_eq_mod]
  have hsplit : s * a = (s / 2 ^ 32) * (a / 2 ^ 32) * 2 ^ 64 +
      ((a / 2 ^ 32) * (s % 2 ^ 32) + (a % 2 ^ 32) * (s / 2 ^ 32)) * 2 ^ 32 + (a % 2 ^ 32) * (s % 2 ^ 32) := by
    conv_lhs => rw [← Nat.div_add_mod s (2 ^ 32), ← Nat.div_add_mod a (2 ^ 32)]
    ring
  have b1 : (s / 2 ^ 32) * (a / 2 ^ 32) ≤ 2 ^ 29 * 2 ^ 29 := Nat.mul_le_mul (by omega) (by omega)
  have b2 : (a / 2 ^ 32) * (s % 2 ^ 32) ≤ 2 ^ 29 * 2 ^ 32 := Nat.mul_le_mul (by omega) (by omega)
  have b3 : (a % 2 ^ 32) * (s / 2 ^ 32) ≤ 2 ^ 32 * 2 ^ 29 := Nat.mul_le_mul (by omega) (by omega)
  have b4 : (a % 2 ^ 32) * (s % 2 ^ 32) ≤ (2 ^ 32 - 1) * (2 ^ 32 - 1) := Nat.mul_le_mul (by omega) (by omega)
  have key : fmodmulM61 cum s a = modMersenne (s * a % 2 ^ 61 + s * a / 2 ^ 61 + cum) := by
    unfold fmodmulM61
    dsimp only
    rw [hmask, hmask, hmask32, hmask32, Nat.shiftRight_eq_div_pow, Nat.shiftRight_eq_div_pow, Nat.shiftRight_eq_div_pow,
      Nat.shiftRight_eq_div_pow, Nat.shiftRight_eq_div_pow, Nat.shiftLeft_eq]
    generalize (s / 2 ^ 32) * (a / 2 ^ 32) = X at *
    generalize (a / 2 ^ 32) * (s % 2 ^ 32) = Y at *
    generalize (a % 2 ^ 32) * (s / 2 ^ 32) = Z at *
    generalize (a % 2 ^ 32) * (s % 2 ^ 32) = W at *
    generalize s * a = T at *
    have e1 : T % 2 ^ 64 % 2 ^ 61 = T % 2 ^ 61 := Nat.mod_mod_of_dvd _ (by decide)
    rw [e1, Nat.mod_eq_of_lt (show X < 2 ^ 64 by omega), Nat.mod_eq_of_lt (show Y < 2 ^ 64 by omega),
      Nat.mod_eq_of_lt (show Z < 2 ^ 64 by omega), Nat.mod_eq_of_lt (show W < 2 ^ 64 by omega)]
    have e2 : (Y + Z + W / 2 ^ 32) % 2 ^ 64 = Y + Z + W / 2 ^ 32 := Nat.mod_eq_of_lt (by omega)
    have e3 : X * 2 ^ 3 % 2 ^ 64 = X * 2 ^ 3 := Nat.mod_eq_of_lt (by omega)
    rw [e2, e3]
    have e4 : T / 2 ^ 61 = X * 2 ^ 3 + (Y + Z + W / 2 ^ 32) / 2 ^ 29 := by omega
    rw [e4]
    have e5 : (T % 2 ^ 61 + X * 2 ^ 3 + (Y + Z + W / 2 ^ 32) / 2 ^ 29) % 2 ^ 64 =
        T % 2 ^ 61 + X * 2 ^ 3 + (Y + Z + W / 2 ^ 32) / 2 ^ 29 := Nat.mod_eq_of_lt (by omega)
    have e6 : (T % 2 ^ 61 + X * 2 ^ 3 + (Y + Z + W / 2 ^ 32) / 2 ^ 29 + cum) % 2 ^ 64 =
        T % 2 ^ 61 + X * 2 ^ 3 + (Y + Z + W / 2 ^ 32) / 2 ^ 29 + cum := Nat.mod_eq_of_lt (by omega)
    rw [e5, e6, mod_eq _ (by omega)]
    rw [show T % 2 ^ 61 + (X * 2 ^ 3 + (Y + Z + W / 2 ^ 32) / 2 ^ 29) + cum =
      T % 2 ^ 61 + X * 2 ^ 3 + (Y + Z + W / 2 ^ 32) / 2 ^ 29 + cum by omega]
    generalize T % 2 ^ 61 + X * 2 ^ 3 + (Y + Z + W / 2 ^ 32) / 2 ^ 29 + cum = O at *
    omega
  have hlt : s * a % 2 ^ 61 + s * a / 2 ^ 61 + cum < 2 ^ 64 := by omega
  rw [key]
  constructor
  · rw [mod_eq _ hlt]; omega
  · rw [mod_castZ _ hlt]
    have : ((s * a % 2 ^ 61 + s * a / 2 ^ 61 : Nat) : ZMod mixP) = ((s * a : Nat) : ZMod mixP) := by
      conv_rhs => rw [← Nat.div_add_mod (s * a) (2 ^ 61)]
      rw [Nat.cast_add, Nat.cast_add, Nat.cast_mul, p61]
      ring
    rw [Nat.cast_add, this, Nat.cast_mul, add_comm]

/-! ### polynomials in the matrix -/

variable {N : Nat} (A : Matrix (Fin N) (Fin N) (ZMod mixP))

/-- `(Σ c_j A^j) x` for a list of coefficients. -/
def polyAct : List Nat → (Fin N → ZMod mixP) → (Fin N → ZMod mixP)
  | [], _ => 0
  | c :: cs, x => (c : ZMod mixP) • x + polyAct cs (A.mulVec x)

theorem polyAct_mulVec (cs : List Nat) (x : Fin N → ZMod mixP) : polyAct A cs (A.mulVec x) = A.mulVec (polyAct A cs x) := by
  induction cs generalizing x with
  | nil => simp [polyAct]
  | cons c cs ih => rw [polyAct, polyAct, ih, Matrix.mulVec_add, Matrix.mulVec_smul]

theorem polyAct_pow (cs : List Nat) (k : Nat) (x : Fin N → ZMod mixP) :
    polyAct A cs ((A ^ k).mulVec x) = (A ^ k).mulVec (polyAct A cs x) := by
  induction k with
  | zero => simp
  | succ k ih => rw [pow_succ', ← Matrix.mulVec_mulVec, polyAct_mulVec, ih, Matrix.mulVec_mulVec]

theorem mixVec_zipWith (g : Nat → Nat → Nat) (U V : List Nat) (hU : U.length = N) (hV : V.length = N) (i : Fin N) :
    mixVec N (List.zipWith g U V) i = ((g (U.getD i 0) (V.getD i 0) : Nat) : ZMod mixP) := by
  obtain ⟨i, hi⟩ := i
  have h1 : i < U.length := by omega
  have h2 : i < V.length := by omega
  simp [mixVec, h1, h2]

theorem getD_le {V : List Nat} {b : Nat} (h : ∀ v ∈ V, v ≤ b) (i : Nat) : V.getD i 0 ≤ b := by
  rw [List.getD_eq_getElem?_getD]
  by_cases hi : i < V.length
  · rw [List.getElem?_eq_getElem hi]; exact h _ (List.getElem_mem hi)
  · rw [List.getElem?_eq_none (by omega)]; exact Nat.zero_le _

theorem mem_zipWith {g : Nat → Nat → Nat} {U V : List Nat} {x : Nat} (h : x ∈ List.zipWith g U V) :
    ∃ u ∈ U, ∃ v ∈ V, x = g u v := by
  induction U generalizing V with
  | nil => simp at h
  | cons u U ih =>
    cases V with
    | nil => simp at h
    | cons v V =>
      rw [List.zipWith_cons_cons] at h
      rcases List.mem_cons.1 h with rfl | h
      · exact ⟨u, by simp, v, by simp, rfl⟩
      · obtain ⟨a, ha, b, hb, e⟩ := ih h
        exact ⟨a, by simp [ha], b, by simp [hb], e⟩

theorem skipRow_spec (mul : Nat) (hm : 1 ≤ mul) (hm' : mul ≤ 60) (hN : 1 ≤ N) (hN' : N < 2 ^ 31) (row : List Nat)
    (hrow : ∀ c ∈ row, c ≤ 2 ^ 61 - 1) :
    ∀ (cum Y : List Nat) (s : Nat), cum.length = N → Y.length = N → (∀ v ∈ cum, v ≤ 2 ^ 61 + 1) →
      (∀ v ∈ Y, v ≤ 2 ^ 61 + 1) → s ≤ 2 ^ 61 → (s : ZMod mixP) = ((Y.sum : Nat) : ZMod mixP) →
      (skipRow mul row cum Y s).length = N ∧ (∀ v ∈ skipRow mul row cum Y s, v ≤ 2 ^ 61 + 1) ∧
      mixVec N (skipRow mul row cum Y s) = mixVec N cum + polyAct (mixMatrix N (2 ^ mul + 1)) row (mixVec N Y) := by
  induction row with
  | nil => intro cum Y s h1 h2 h3 h4 h5 h6; exact ⟨h1, h3, by simp [skipRow, polyAct]⟩
  | cons c row ih =>
    intro cum Y s h1 h2 h3 h4 h5 h6
    obtain ⟨i1, i2, i3, i4, i5, i6⟩ := iterate_spec mul hm hm' N hN hN' Y s h2 h4 h5 h6
    have hc : c ≤ 2 ^ 61 - 1 := hrow c (by simp)
    obtain ⟨j1, j2, j3⟩ := ih (fun z hz => hrow z (by simp [hz])) (List.zipWith (fun u y => fmodmulM61 u c y) cum Y)
      (iterateRawVec mul Y s).1 (iterateRawVec mul Y s).2 (by simp [h1, h2]) i1 (by
        intro v hv
        obtain ⟨u, hu, y, hy, rfl⟩ := mem_zipWith hv
        exact (fmodmul_spec u c y (h3 u hu) hc (h4 y hy)).1) i2 (by omega) i4
    refine ⟨j1, j2, ?_⟩
    rw [skipRow]
    rw [j3, i6, polyAct, ← add_assoc]
    congr 1
    funext i
    rw [mixVec_zipWith _ _ _ h1 h2, (fmodmul_spec _ c _ (getD_le h3 i) hc (getD_le h4 i)).2]
    rfl

theorem sumVec_spec (V : List Nat) (hV : ∀ v ∈ V, v ≤ 2 ^ 61 + 1) (acc : Nat) (ha : acc ≤ 2 ^ 61) :
    V.foldl modadd acc ≤ 2 ^ 61 ∧ ((V.foldl modadd acc : Nat) : ZMod mixP) = acc + ((V.sum : Nat) : ZMod mixP) := by
  induction V generalizing acc with
  | nil => exact ⟨ha, by simp⟩
  | cons v V ih =>
    have hv := hV v (by simp)
    have e := modadd_eq acc v (by omega)
    have c := modadd_cast acc v (by omega)
    obtain ⟨h1, h2⟩ := ih (fun z hz => hV z (by simp [hz])) (modadd acc v) (by omega)
    rw [List.foldl_cons]
    exact ⟨h1, by rw [h2, c, List.sum_cons, Nat.cast_add, add_assoc]⟩

/-- The rows of the table stand for `A^(2^(e))`, `A^(2^(e+1))`, ... on the orbit of `x0`. -/
def RowsOK (x0 : Fin N → ZMod mixP) : Nat → List (List Nat) → Prop
  | _, [] => True
  | e, row :: rows => (∀ c ∈ row, c ≤ 2 ^ 61 - 1) ∧ polyAct A row x0 = (A ^ (2 ^ e)).mulVec x0 ∧ RowsOK x0 (e + 1) rows

theorem skipId_spec (mul : Nat) (hm : 1 ≤ mul) (hm' : mul ≤ 60) (hN : 1 ≤ N) (hN' : N < 2 ^ 31) (x0 : Fin N → ZMod mixP)
    (rows : List (List Nat)) : ∀ (e id : Nat) (Y : List Nat) (s k : Nat), RowsOK (mixMatrix N (2 ^ mul + 1)) x0 e rows →
      id < 2 ^ rows.length → Y.length = N → (∀ v ∈ Y, v ≤ 2 ^ 61 + 1) → s ≤ 2 ^ 61 →
      (s : ZMod mixP) = ((Y.sum : Nat) : ZMod mixP) → mixVec N Y = ((mixMatrix N (2 ^ mul + 1)) ^ k).mulVec x0 →
      ∃ Y' s', skipId mul id rows Y s = some (Y', s') ∧ Y'.length = N ∧ (∀ v ∈ Y', v ≤ 2 ^ 61 + 1) ∧ s' ≤ 2 ^ 61 ∧
        (s' : ZMod mixP) = ((Y'.sum : Nat) : ZMod mixP) ∧
        mixVec N Y' = ((mixMatrix N (2 ^ mul + 1)) ^ (k + id * 2 ^ e)).mulVec x0 := by
  induction rows with
  | nil =>
    intro e id Y s k _ hid h1 h2 h3 h4 h5
    have : id = 0 := by simpa using hid
    subst this
    exact ⟨Y, s, by simp [skipId], h1, h2, h3, h4, by simpa using h5⟩
  | cons row rows ih =>
    intro e id Y s k hr hid h1 h2 h3 h4 h5
    obtain ⟨r1, r2, r3⟩ := hr
    rw [List.length_cons, Nat.pow_succ] at hid
    rw [skipId]
    by_cases h0 : id = 0
    · subst h0
      exact ⟨Y, s, by simp, h1, h2, h3, h4, by simpa using h5⟩
    · rw [if_neg h0]
      have hdiv : id / 2 < 2 ^ rows.length := by omega
      by_cases hodd : id % 2 = 1
      · rw [if_pos hodd]
        obtain ⟨j1, j2, j3⟩ := skipRow_spec mul hm hm' hN hN' row r1 (Y.map fun _ => 0) Y s (by simp [h1]) h1
          (by simp) h2 h3 h4
        have hz : mixVec N (Y.map fun _ => 0) = 0 := by
          funext i
          simp only [mixVec, List.getD_eq_getElem?_getD, List.getElem?_map]
          cases Y[(i : Nat)]? <;> simp
        rw [hz, zero_add, h5, polyAct_pow, r2, Matrix.mulVec_mulVec, ← pow_add] at j3
        obtain ⟨q1, q2⟩ := sumVec_spec _ j2 0 (by decide)
        obtain ⟨Y', s', e1, e2, e3, e4, e5, e6⟩ := ih (e + 1) (id / 2) _ _ (k + 2 ^ e) r3 hdiv j1 j2 q1
          (by rw [q2]; simp) j3
        refine ⟨Y', s', e1, e2, e3, e4, e5, ?_⟩
        rw [e6]
        congr 2
        have : id = 2 * (id / 2) + 1 := by omega
        conv_rhs => rw [this]
        rw [Nat.pow_succ]
        ring
      · rw [if_neg hodd]
        obtain ⟨Y', s', e1, e2, e3, e4, e5, e6⟩ := ih (e + 1) (id / 2) Y s k r3 hdiv h1 h2 h3 h4 h5
        refine ⟨Y', s', e1, e2, e3, e4, e5, ?_⟩
        rw [e6]
        congr 2
        have : id = 2 * (id / 2) := by omega
        conv_rhs => rw [this]
        rw [Nat.pow_succ]
        ring

theorem RowsOK.drop {x0 : Fin N → ZMod mixP} {rows : List (List Nat)} : ∀ {e : Nat} (n : Nat), RowsOK A x0 e rows →
    n ≤ rows.length → RowsOK A x0 (e + n) (rows.drop n) := by
  induction rows with
  | nil => intro e n h hn; simp at hn; subst hn; exact h
  | cons r rows ih =>
    intro e n h hn
    cases n with
    | zero => exact h
    | succ n =>
      have := ih n h.2.2 (by simpa using hn)
      rw [show e + (n + 1) = e + 1 + n by omega]
      exact this

theorem polyAct_append (xs ys : List Nat) (v : Fin N → ZMod mixP) :
    polyAct A (xs ++ ys) v = polyAct A xs v + (A ^ xs.length).mulVec (polyAct A ys v) := by
  induction xs generalizing v with
  | nil => simp [polyAct]
  | cons x xs ih =>
    rw [List.cons_append, polyAct, polyAct, ih, polyAct_mulVec A ys, List.length_cons, Matrix.mulVec_mulVec, pow_succ, add_assoc]

end Boost.Random.Mixmax
