import Verif.Proofs.MersenneTwister

/-!
# The Mersenne Twister backwards

Predecessors, equality, text, seeding and tempering.
-/

namespace Boost.Random
open Spec

namespace Mt
variable {P : Params}

/-- The redundant bits of element 0 are those the recurrence would have produced. -/
def Norm (P : Params) (X : Nat → Nat) : Prop := X 0 % 2 ^ P.r = untwist P (X (P.m - 1) ^^^ X (P.n - 1)) % 2 ^ P.r

theorem join_back (hv : MtValid P) {X : Nat → Nat} (hX : IsMt P X) (hb : ∀ k, X k < 2 ^ P.w) (k : Nat) :
    mtJoin P.r (X k) (X (k + 1)) = untwist P (X (k + P.m) ^^^ X (k + P.n)) := by
  have h := hX k
  have hj := join_lt hv (y := X (k + 1)) (hb k)
  rw [h, ← Nat.xor_assoc, Nat.xor_self, Nat.zero_xor, untwist_mtA hv hj]

theorem norm_of_pred (hv : MtValid P) {W : Nat → Nat} (hW : IsMt P W) (hb : ∀ k, W k < 2 ^ P.w) :
    Norm P fun k => W (k + 1) := by
  have h2 := hv.m_two
  have hm := hv.m_lt
  have := join_back hv hW hb 0
  show W (0 + 1) % _ = untwist P (W (P.m - 1 + 1) ^^^ W (P.n - 1 + 1)) % _
  rw [show P.m - 1 + 1 = 0 + P.m by omega, show P.n - 1 + 1 = 0 + P.n by omega, ← this, join_mod]

theorem IsMt.shift {X : Nat → Nat} (h : IsMt P X) (s : Nat) : IsMt P fun k => X (k + s) := by
  intro k
  have := h (k + s)
  show X (k + P.n + s) = X (k + P.m + s) ^^^ mtA P.a (mtJoin P.r (X (k + s)) (X (k + 1 + s)))
  rw [show k + P.n + s = k + s + P.n by omega, show k + P.m + s = k + s + P.m by omega, show k + 1 + s = k + s + 1 by omega]
  exact this

theorem IsMt.ext (hv : MtValid P) {X Y : Nat → Nat} (hX : IsMt P X) (hY : IsMt P Y) (h : ∀ j < P.n, X j = Y j) :
    ∀ k, X k = Y k := by
  intro k
  have h2 := hv.m_two
  have hm := hv.m_lt
  induction k using Nat.strong_induction_on with
  | _ k ih =>
    by_cases hk : k < P.n
    · exact h k hk
    · have e := hX (k - P.n)
      have e' := hY (k - P.n)
      rw [show k - P.n + P.n = k by omega] at e e'
      rw [e, e', ih _ (by omega), ih (k - P.n) (by omega), ih (k - P.n + 1) (by omega)]

/-- The word before, from the two halves. -/
theorem word_before (hv : MtValid P) {X : Nat → Nat} (hX : IsMt P X) (hb : ∀ k, X k < 2 ^ P.w) (hn : Norm P X) (t : Nat) :
    X t = mtJoin P.r (untwist P (X (t + P.m) ^^^ X (t + P.n))) (untwist P (X (t + (P.m - 1)) ^^^ X (t + (P.n - 1)))) := by
  have h2 := hv.m_two
  have hm := hv.m_lt
  rw [← join_back hv hX hb t]
  have : X t % 2 ^ P.r = untwist P (X (t + (P.m - 1)) ^^^ X (t + (P.n - 1))) % 2 ^ P.r := by
    cases t with
    | zero => rw [Nat.zero_add, Nat.zero_add]; exact hn
    | succ t =>
      rw [show t + 1 + (P.m - 1) = t + P.m by omega, show t + 1 + (P.n - 1) = t + P.n by omega, ← join_back hv hX hb t,
        join_mod]
  rw [← join_congr (join_div P.r (X t) (X (t + 1))).symm this, join_self]

theorem IsMt.back (hv : MtValid P) {X Y : Nat → Nat} (hX : IsMt P X) (hY : IsMt P Y) (bX : ∀ k, X k < 2 ^ P.w)
    (bY : ∀ k, Y k < 2 ^ P.w) (nX : Norm P X) (nY : Norm P Y) (i : Nat) (h : ∀ k, X (i + k) = Y (i + k)) : ∀ k, X k = Y k := by
  have h2 := hv.m_two
  have hm := hv.m_lt
  induction i with
  | zero => intro k; simpa using h k
  | succ i ih =>
    apply ih
    intro k
    cases k with
    | succ k => rw [show i + (k + 1) = i + 1 + k by omega]; exact h k
    | zero =>
      rw [Nat.add_zero, word_before hv hX bX nX i, word_before hv hY bY nY i]
      rw [show i + P.m = i + 1 + (P.m - 1) by omega, show i + P.n = i + 1 + (P.n - 1) by omega,
        show i + (P.m - 1) = i + 1 + (P.m - 2) by omega, show i + (P.n - 1) = i + 1 + (P.n - 2) by omega, h, h, h, h]

/-- A normalized sequence has a predecessor, again normalized. -/
theorem exists_pred (hv : MtValid P) {X : Nat → Nat} (hX : IsMt P X) (hb : ∀ k, X k < 2 ^ P.w) (hn : Norm P X) (v : Nat)
    (hvv : v = mtJoin P.r (untwist P (X (P.m - 1) ^^^ X (P.n - 1))) (untwist P (X (P.m - 2) ^^^ X (P.n - 2)))) :
    ∃ W, W 0 = v ∧ (∀ k, W (k + 1) = X k) ∧ IsMt P W ∧ (∀ k, W k < 2 ^ P.w) ∧ Norm P W := by
  have h2 := hv.m_two
  have hm := hv.m_lt
  refine ⟨fun k => match k with | 0 => v | k + 1 => X k, rfl, fun _ => rfl, ?_, ?_, ?_⟩
  · intro k
    cases k with
    | succ k =>
      have := hX k
      rw [show k + 1 + P.n = k + P.n + 1 by omega, show k + 1 + P.m = k + P.m + 1 by omega]
      exact this
    | zero =>
      rw [show 0 + P.n = P.n - 1 + 1 by omega, show 0 + P.m = P.m - 1 + 1 by omega]
      show X (P.n - 1) = X (P.m - 1) ^^^ mtA P.a (mtJoin P.r v (X 0))
      rw [hvv, join_congr (join_div _ _ _) hn, join_self, mtA_untwist hv (Nat.xor_lt_two_pow (hb _) (hb _)),
        ← Nat.xor_assoc, Nat.xor_self, Nat.zero_xor]
  · intro k
    cases k with
    | succ k => exact hb k
    | zero => show v < _; rw [hvv]; exact join_lt hv (untwist_lt hv (Nat.xor_lt_two_pow (hb _) (hb _)))
  · show v % _ = _
    rw [show P.m - 1 = P.m - 2 + 1 by omega, show P.n - 1 = P.n - 2 + 1 by omega]
    show v % _ = untwist P (X (P.m - 2) ^^^ X (P.n - 2)) % _
    rw [hvv, join_mod]

/-! ### `rewind` -/

theorem rewindFind_eq (x back : List Nat) (hb : back.length < P.n) {j : Nat} (h1 : 1 ≤ j) (h2 : j < P.n) :
    rewindFind P x back j = (back ++ x)[j - 1]? := by
  unfold rewindFind
  dsimp only
  by_cases h : j - 1 < back.length
  · have e : (j + P.n - back.length + P.n - 1) % P.n = j - 1 + P.n - back.length := by
      rw [show j + P.n - back.length + P.n - 1 = (j - 1 + P.n - back.length) + P.n by omega, Nat.add_mod_right]
      exact Nat.mod_eq_of_lt (by omega)
    rw [e, if_neg (by omega), if_pos (by omega), List.getElem?_append_left h]
    congr 1
    omega
  · have e : (j + P.n - back.length + P.n - 1) % P.n = j - 1 - back.length := by
      rw [show j + P.n - back.length + P.n - 1 = (j - 1 - back.length) + P.n * 2 by omega, Nat.add_mul_mod_self_left]
      exact Nat.mod_eq_of_lt (by omega)
    rw [e, if_pos (by omega), List.getElem?_append_right (by omega)]

theorem rewindLoop_spec (hv : MtValid P) (x : List Nat) (hl : x.length = P.n) (z : Nat) :
    ∀ (back : List Nat) (W : Nat → Nat) (y0 : Nat), IsMt P W → (∀ k, W k < 2 ^ P.w) → Norm P W →
      (∀ j < back.length + P.n, (back ++ x)[j]? = some (W j)) → back.length + z ≤ P.n →
      y0 = untwist P (W (P.m - 1) ^^^ W (P.n - 1)) →
      ∃ back' W', rewindLoop P x z y0 back = some back' ∧ back'.length = back.length + z ∧ IsMt P W' ∧
        (∀ k, W' k < 2 ^ P.w) ∧ Norm P W' ∧ (∀ j < back'.length + P.n, (back' ++ x)[j]? = some (W' j)) ∧
        ∀ j, W' (z + j) = W j := by
  have h2 := hv.m_two
  have hm := hv.m_lt
  induction z with
  | zero => intro back W y0 hW hb hn hg _ _; exact ⟨back, W, rfl, rfl, hW, hb, hn, hg, fun j => by rw [Nat.zero_add]⟩
  | succ z ih =>
    intro back W y0 hW hb hn hg hz hy
    rw [rewindLoop, rewindFind_eq x back (by omega) (by omega) (by omega),
      rewindFind_eq x back (by omega) (by omega) (by omega), hg _ (by omega), hg _ (by omega)]
    simp only [Option.bind_some]
    obtain ⟨W1, w0, w1, hW1, hb1, hn1⟩ := exists_pred hv hW hb hn _ rfl
    have hy1 : untwist P (W (P.m - 1 - 1) ^^^ W (P.n - 1 - 1)) = untwist P (W1 (P.m - 1) ^^^ W1 (P.n - 1)) := by
      rw [← w1, ← w1, show P.m - 1 - 1 + 1 = P.m - 1 by omega, show P.n - 1 - 1 + 1 = P.n - 1 by omega]
    have hlt := pow_le hv
    have hmix : mix P y0 (untwist P (W (P.m - 1 - 1) ^^^ W (P.n - 1 - 1))) = W1 0 := by
      have k1 := untwist_lt hv (Nat.xor_lt_two_pow (hb (P.m - 1)) (hb (P.n - 1)))
      have k2 := untwist_lt hv (Nat.xor_lt_two_pow (hb (P.m - 1 - 1)) (hb (P.n - 1 - 1)))
      rw [mix, hy, mix_eq hv (by omega) (by omega), w0]
      rfl
    obtain ⟨back', W', e, l', hW', hb', hn', hg', hs⟩ := ih (W1 0 :: back) W1 _ hW1 hb1 hn1 (by
      intro j hj
      cases j with
      | zero => rfl
      | succ j =>
        rw [List.cons_append, List.getElem?_cons_succ, hg j (by simp at hj; omega), w1]) (by simp; omega) hy1
    refine ⟨back', W', by rw [hmix]; exact e, by rw [l', List.length_cons]; omega, hW', hb', hn', hg', fun j => ?_⟩
    rw [show z + 1 + j = z + (j + 1) by omega, hs, w1]

theorem rewind_spec (hv : MtValid P) {x : List Nat} {X : Nat → Nat} (hl : x.length = P.n) (hX : IsMt P X)
    (hb : ∀ k, X k < 2 ^ P.w) (hn : Norm P X) (hx : ∀ j < P.n, x[j]? = some (X j)) {z : Nat} (hz : z ≤ P.n) :
    ∃ back W, rewind P x z = some back ∧ back.length = z ∧ IsMt P W ∧ (∀ k, W k < 2 ^ P.w) ∧ Norm P W ∧
      (∀ j < z + P.n, (back ++ x)[j]? = some (W j)) ∧ ∀ j, W (z + j) = X j := by
  have h2 := hv.m_two
  have hm := hv.m_lt
  rw [rewind, hx _ (by omega), hx _ (by omega)]
  simp only [Option.bind_some]
  obtain ⟨back', W', e, l', hW', hb', hn', hg', hs⟩ := rewindLoop_spec hv x hl z [] X _ hX hb hn
    (by intro j hj; rw [List.nil_append]; exact hx j (by simpa using hj)) (by simpa using hz) rfl
  rw [List.length_nil, Nat.zero_add] at l'
  exact ⟨back', W', e, l', hW', hb', hn', by rw [← l']; exact hg', hs⟩

/-- With nothing to rewind, normalization is not needed. -/
theorem rewind_zero (hv : MtValid P) {x : List Nat} (hl : x.length = P.n) : rewind P x 0 = some [] := by
  have h2 := hv.m_two
  have hm := hv.m_lt
  rw [rewind, List.getElem?_eq_getElem (by omega), List.getElem?_eq_getElem (by omega)]
  rfl

/-- `equal_imp` compares the array of `b` with the sequence of `a` extended backwards. -/
theorem equalImp_spec {a b : BlockEng Nat} {W Y : Nat → Nat} {back : List Nat} (hla : a.x.length = P.n)
    (hlb : b.x.length = P.n) (ho : b.i - a.i ≤ P.n) (hr : rewind P a.x (b.i - a.i) = some back)
    (hl : back.length = b.i - a.i) (hW : ∀ j < b.i - a.i + P.n, (back ++ a.x)[j]? = some (W j))
    (hY : ∀ j < P.n, b.x[j]? = some (Y j)) :
    ∃ res, equalImp P a b = some res ∧ (res = true ↔ ∀ j < P.n, W j = Y j) := by
  rw [equalImp, hr]
  refine ⟨_, rfl, ?_⟩
  generalize hof : b.i - a.i = of at *
  simp only [Bool.and_eq_true, List.all_eq_true, List.mem_range, beq_iff_eq]
  have k1 : ∀ j < P.n - of, (a.x[j]? = b.x[j + of]? ↔ W (j + of) = Y (j + of)) := by
    intro j hj
    have := hW (j + of) (by omega)
    rw [List.getElem?_append_right (by omega), hl, Nat.add_sub_cancel] at this
    rw [this, hY _ (by omega), Option.some.injEq]
  have k2 : ∀ j < of, (back[j]? = b.x[j]? ↔ W j = Y j) := by
    intro j hj
    have := hW j (by omega)
    rw [List.getElem?_append_left (by omega)] at this
    rw [this, hY _ (by omega), Option.some.injEq]
  constructor
  · rintro ⟨h1, h2⟩ j hj
    by_cases hjo : j < of
    · exact (k2 j hjo).1 (h2 j hjo)
    · have := (k1 (j - of) (by omega)).1 (h1 _ (by omega))
      rwa [show j - of + of = j by omega] at this
  · intro h
    exact ⟨fun j hj => (k1 j hj).2 (h _ (by omega)), fun j hj => (k2 j hj).2 (h _ (by omega))⟩

/-! ### Tempering -/

theorem inj_right {u : Nat} (hu : 1 ≤ u) (D : Nat → Bool) {x y : Nat}
    (h : ∀ i, (x.testBit i ^^ (x.testBit (i + u) && D i)) = (y.testBit i ^^ (y.testBit (i + u) && D i))) : x = y := by
  obtain ⟨N, hx, hy⟩ : ∃ N, x < 2 ^ N ∧ y < 2 ^ N :=
    ⟨x + y, lt_of_lt_of_le Nat.lt_two_pow_self (Nat.pow_le_pow_right (by omega) (by omega)),
      lt_of_lt_of_le Nat.lt_two_pow_self (Nat.pow_le_pow_right (by omega) (by omega))⟩
  have key : ∀ k i, N ≤ i + k → x.testBit i = y.testBit i := by
    intro k
    induction k with
    | zero =>
      intro i hi
      rw [Nat.testBit_lt_two_pow (lt_of_lt_of_le hx (Nat.pow_le_pow_right (by omega) (by omega))),
        Nat.testBit_lt_two_pow (lt_of_lt_of_le hy (Nat.pow_le_pow_right (by omega) (by omega)))]
    | succ k ih =>
      intro i hi
      have := h i
      rw [ih (i + u) (by omega)] at this
      exact Bool.xor_left_inj.1 this
  exact Nat.eq_of_testBit_eq fun i => key N i (by omega)

theorem inj_left {s : Nat} (hs : 1 ≤ s) (D : Nat → Bool) {x y : Nat}
    (h : ∀ i, (x.testBit i ^^ ((decide (s ≤ i) && x.testBit (i - s)) && D i)) =
      (y.testBit i ^^ ((decide (s ≤ i) && y.testBit (i - s)) && D i))) : x = y := by
  apply Nat.eq_of_testBit_eq
  intro i
  induction i using Nat.strong_induction_on with
  | _ i ih =>
    have hi := h i
    by_cases hsi : s ≤ i
    · rw [ih (i - s) (by omega)] at hi
      exact Bool.xor_left_inj.1 hi
    · simpa [hsi] using hi

def t1 (P : Params) (z : Nat) : Nat := z ^^^ ((z >>> P.u) &&& P.d)
def t2 (P : Params) (z : Nat) : Nat := z ^^^ (((z <<< P.s) % 2 ^ P.bits) &&& P.b)
def t3 (P : Params) (z : Nat) : Nat := z ^^^ (((z <<< P.t) % 2 ^ P.bits) &&& P.c)
def t4 (P : Params) (z : Nat) : Nat := z ^^^ (z >>> P.l)

theorem temper_def (z : Nat) : temper P z = t4 P (t3 P (t2 P (t1 P z))) := rfl

theorem t1_inj (hu : 1 ≤ P.u) {x y : Nat} (h : t1 P x = t1 P y) : x = y := by
  apply inj_right hu (fun i => P.d.testBit i)
  intro i
  have := congrArg (fun z => Nat.testBit z i) h
  simpa [t1, Nat.testBit_xor, Nat.testBit_and, Nat.testBit_shiftRight, Nat.add_comm] using this

theorem t4_inj (hu : 1 ≤ P.l) {x y : Nat} (h : t4 P x = t4 P y) : x = y := by
  apply inj_right hu (fun _ => true)
  intro i
  have := congrArg (fun z => Nat.testBit z i) h
  simpa [t4, Nat.testBit_xor, Nat.testBit_shiftRight, Nat.add_comm] using this

theorem t2_inj (hu : 1 ≤ P.s) {x y : Nat} (h : t2 P x = t2 P y) : x = y := by
  apply inj_left hu (fun i => decide (i < P.bits) && P.b.testBit i)
  intro i
  have := congrArg (fun z => Nat.testBit z i) h
  simp only [t2, Nat.testBit_xor, Nat.testBit_and, Nat.testBit_mod_two_pow, Nat.testBit_shiftLeft] at this
  rw [Bool.and_comm (decide (i < P.bits)), Bool.and_assoc, Bool.and_comm (decide (i < P.bits)), Bool.and_assoc] at this
  simpa [Bool.and_assoc, Bool.and_comm, Bool.and_left_comm] using this

theorem t3_inj (hu : 1 ≤ P.t) {x y : Nat} (h : t3 P x = t3 P y) : x = y := by
  apply inj_left hu (fun i => decide (i < P.bits) && P.c.testBit i)
  intro i
  have := congrArg (fun z => Nat.testBit z i) h
  simp only [t3, Nat.testBit_xor, Nat.testBit_and, Nat.testBit_mod_two_pow, Nat.testBit_shiftLeft] at this
  simpa [Bool.and_assoc, Bool.and_comm, Bool.and_left_comm] using this

theorem temper_inj (hv : MtValid P) {x y : Nat} (h : temper P x = temper P y) : x = y := by
  obtain ⟨h1, h2, h3, h4, _⟩ := hv.shifts
  exact t1_inj h1 (t2_inj h2 (t3_inj h3 (t4_inj h4 h)))

theorem t1_lt {z : Nat} (hz : z < 2 ^ P.w) : t1 P z < 2 ^ P.w :=
  Nat.xor_lt_two_pow hz (lt_of_le_of_lt Nat.and_le_left (lt_of_le_of_lt (Nat.shiftRight_le _ _) hz))
theorem t2_lt (hv : MtValid P) {z : Nat} (hz : z < 2 ^ P.w) : t2 P z < 2 ^ P.w :=
  Nat.xor_lt_two_pow hz (lt_of_le_of_lt Nat.and_le_right hv.b_lt)
theorem t3_lt (hv : MtValid P) {z : Nat} (hz : z < 2 ^ P.w) : t3 P z < 2 ^ P.w :=
  Nat.xor_lt_two_pow hz (lt_of_le_of_lt Nat.and_le_right hv.c_lt)
theorem t4_lt {z : Nat} (hz : z < 2 ^ P.w) : t4 P z < 2 ^ P.w :=
  Nat.xor_lt_two_pow hz (lt_of_le_of_lt (Nat.shiftRight_le _ _) hz)

theorem temper_lt (hv : MtValid P) {z : Nat} (hz : z < 2 ^ P.w) : temper P z < 2 ^ P.w :=
  t4_lt (t3_lt hv (t2_lt hv (t1_lt hz)))

theorem and_low {w x d : Nat} (hx : x < 2 ^ w) : x &&& (d % 2 ^ w) = x &&& d := by
  apply Nat.eq_of_testBit_eq
  intro i
  rw [Nat.testBit_and, Nat.testBit_and, Nat.testBit_mod_two_pow]
  by_cases h : i < w
  · simp [h]
  · rw [Nat.testBit_lt_two_pow (lt_of_lt_of_le hx (Nat.pow_le_pow_right (by omega) (by omega)))]
    simp

theorem temper_eq (hv : MtValid P) {z : Nat} (hz : z < 2 ^ P.w) : temper P z = mtTemper P z := by
  have hp := hv.w_le
  have sh : ∀ (y s b : Nat), b < 2 ^ P.w → ((y <<< s) % 2 ^ P.bits) &&& b = ((y <<< s) % 2 ^ P.w) &&& (b % 2 ^ P.w) := by
    intro y s b hb
    rw [Nat.mod_eq_of_lt hb]
    apply Nat.eq_of_testBit_eq
    intro i
    rw [Nat.testBit_and, Nat.testBit_and, Nat.testBit_mod_two_pow, Nat.testBit_mod_two_pow]
    by_cases h : i < P.w
    · simp [h, show i < P.bits by omega]
    · rw [Nat.testBit_lt_two_pow (lt_of_lt_of_le hb (Nat.pow_le_pow_right (by omega) (by omega)))]
      simp
  rw [temper_def]
  unfold mtTemper
  simp only [BitVec.toNat_xor, BitVec.toNat_and, BitVec.toNat_ushiftRight, BitVec.toNat_shiftLeft, BitVec.toNat_ofNat]
  rw [Nat.mod_eq_of_lt hz]
  have e1 : z ^^^ (z >>> P.u &&& P.d % 2 ^ P.w) = t1 P z := by
    rw [t1, and_low (lt_of_le_of_lt (Nat.shiftRight_le _ _) hz)]
  rw [e1]
  have e2 : ∀ z, z ^^^ (z <<< P.s % 2 ^ P.w &&& P.b % 2 ^ P.w) = t2 P z := fun z => by rw [t2, sh _ _ _ hv.b_lt]
  have e3 : ∀ z, z ^^^ (z <<< P.t % 2 ^ P.w &&& P.c % 2 ^ P.w) = t3 P z := fun z => by rw [t3, sh _ _ _ hv.c_lt]
  rw [e2, e3]
  rfl

theorem temper_surj (hv : MtValid P) {v : Nat} (h : v < 2 ^ P.w) : ∃ z < 2 ^ P.w, temper P z = v := by
  let F : Fin (2 ^ P.w) → Fin (2 ^ P.w) := fun z => ⟨temper P z, temper_lt hv z.2⟩
  have hi : Function.Injective F := fun x y hxy => Fin.ext (temper_inj hv (congrArg Fin.val hxy))
  obtain ⟨z, hz⟩ := (Finite.injective_iff_surjective.1 hi) ⟨v, h⟩
  exact ⟨z, z.2, congrArg Fin.val hz⟩

theorem temper_zero : temper P 0 = 0 := by simp [temper]

/-! ### Seeding -/

theorem normalize_spec (hv : MtValid P) (x : List Nat) (hl : x.length = P.n) (hx : ∀ v ∈ x, v < 2 ^ P.w) :
    ∃ x', normalize P x = some x' ∧ x'.length = P.n ∧ (∀ v ∈ x', v < 2 ^ P.w) ∧ (∃ v ∈ x', v ≠ 0) ∧
      (∀ X : Nat → Nat, (∀ j < P.n, x'[j]? = some (X j)) → Norm P X) ∧
      (∀ j, 1 ≤ j → x'[j]? = x[j]?) ∧ ((∃ v ∈ x.drop 1, v ≠ 0) → ∃ v0 v1, x[0]? = some v0 ∧ x'[0]? = some v1 ∧
        v1 / 2 ^ P.r = v0 / 2 ^ P.r) := by
  have h2 := hv.m_two
  have hm := hv.m_lt
  have hr := hv.r_lt
  have hw := hv.w_le
  have hp := pow_le hv
  have g : ∀ j (hj : j < P.n), x[j]? = some (x[j]'(by omega)) := fun j hj => List.getElem?_eq_getElem (by omega)
  have gb : ∀ j (hj : j < P.n), x[j]'(by omega) < 2 ^ P.w := fun j hj => hx _ (List.getElem_mem _)
  have e1 : (1 <<< (P.w - 1)) % 2 ^ P.bits = 2 ^ (P.w - 1) := by
    rw [Nat.one_shiftLeft]
    exact Nat.mod_eq_of_lt (Nat.pow_lt_pow_right (by omega) (by omega))
  rw [normalize, g _ (show P.m - 1 < P.n by omega), g _ (show P.n - 1 < P.n by omega), g 0 (by omega)]
  simp only [Option.bind_some, Option.map_some, e1]
  set y := untwist P (x[P.m - 1]'(by omega) ^^^ x[P.n - 1]'(by omega)) with hy
  have hyl : y < 2 ^ P.w := untwist_lt hv (Nat.xor_lt_two_pow (gb _ (by omega)) (gb _ (by omega)))
  have hmix : mix P (x[0]'(by omega)) y = mtJoin P.r (x[0]'(by omega)) y := by
    have := gb 0 (by omega)
    rw [mix, mix_eq hv (by omega) (by omega)]
  rw [hmix]
  have hset : ∀ (v : Nat), v < 2 ^ P.w → ∀ u ∈ x.set 0 v, u < 2 ^ P.w := by
    intro v hv u hu
    rcases List.mem_or_eq_of_mem_set hu with h | rfl
    · exact hx u h
    · exact hv
  have hj : ∀ (v : Nat) j, 1 ≤ j → (x.set 0 v)[j]? = x[j]? := by
    intro v j hj
    rw [List.getElem?_set_ne (by omega)]
  have h0 : ∀ v : Nat, (x.set 0 v)[0]? = some v := by
    intro v
    rw [List.getElem?_set_self (by omega)]
  by_cases hz : (x.set 0 (mtJoin P.r (x[0]'(by omega)) y)).any (· ≠ 0)
  · rw [if_pos hz]
    refine ⟨_, rfl, by simp [hl], hset _ (join_lt hv (gb 0 (by omega))), ?_, ?_, hj _, ?_⟩
    · simpa using hz
    · intro X hX
      have a0 := hX 0 (by omega)
      rw [h0, Option.some.injEq] at a0
      have a1 := hX (P.m - 1) (by omega)
      rw [hj _ _ (by omega), g _ (by omega), Option.some.injEq] at a1
      have a2 := hX (P.n - 1) (by omega)
      rw [hj _ _ (by omega), g _ (by omega), Option.some.injEq] at a2
      rw [Norm, ← a0, ← a1, ← a2, join_mod]
    · intro _
      exact ⟨_, _, rfl, h0 _, join_div _ _ _⟩
  · rw [if_neg hz, List.set_set]
    have hall : ∀ j, 1 ≤ j → j < P.n → x[j]? = some 0 := by
      intro j h1 h3
      rw [← hj (mtJoin P.r (x[0]'(by omega)) y) j h1]
      simp only [List.any_eq_true, not_exists, not_and, decide_eq_true_eq, not_not] at hz
      have hlt : j < (x.set 0 (mtJoin P.r (x[0]'(by omega)) y)).length := by simp [hl]; omega
      rw [List.getElem?_eq_getElem hlt, hz _ (List.getElem_mem _)]
    have htop : (2 : Nat) ^ (P.w - 1) % 2 ^ P.r = 0 :=
      Nat.mod_eq_zero_of_dvd (Nat.pow_dvd_pow 2 (by omega))
    refine ⟨_, rfl, by simp [hl], hset _ (Nat.pow_lt_pow_right (by omega) (by omega)), ?_, ?_, hj _, ?_⟩
    · refine ⟨2 ^ (P.w - 1), ?_, (Nat.two_pow_pos _).ne'⟩
      exact List.mem_of_getElem? (h0 _)
    · intro X hX
      have a0 := hX 0 (by omega)
      rw [h0, Option.some.injEq] at a0
      have a1 := hX (P.m - 1) (by omega)
      rw [hj _ _ (by omega), hall _ (by omega) (by omega), Option.some.injEq] at a1
      have a2 := hX (P.n - 1) (by omega)
      rw [hj _ _ (by omega), hall _ (by omega) (by omega), Option.some.injEq] at a2
      rw [Norm, ← a0, ← a1, ← a2, Nat.xor_self, untwist_eq hv (Nat.two_pow_pos _), if_neg (by
        have := Nat.two_pow_pos (P.w - 1); omega), htop, Nat.mul_zero, Nat.zero_mod]
    · rintro ⟨v, hvm, hv0⟩
      exfalso
      obtain ⟨j, hjl, rfl⟩ := List.mem_iff_getElem.1 hvm
      rw [List.length_drop, hl] at hjl
      rw [List.getElem_drop] at hv0
      have := hall (1 + j) (by omega) (by omega)
      rw [List.getElem?_eq_getElem (by omega), Option.some.injEq] at this
      exact hv0 this

theorem maxv_and (x : Nat) : x &&& maxv P = x % 2 ^ P.w := Nat.and_two_pow_sub_one_eq_mod _ _

theorem seedLoop_spec (k : Nat) : ∀ i prev, (seedLoop P k i prev).length = k ∧ ∀ v ∈ seedLoop P k i prev, v < 2 ^ P.w := by
  induction k with
  | zero => intro i prev; exact ⟨rfl, fun v hv => by simp [seedLoop] at hv⟩
  | succ k ih =>
    intro i prev
    rw [seedLoop]
    refine ⟨by rw [List.length_cons, (ih _ _).1], fun v hv => ?_⟩
    rcases List.mem_cons.1 hv with rfl | h
    · rw [maxv_and]; exact Nat.mod_lt _ (Nat.two_pow_pos _)
    · exact (ih _ _).2 v h

/-- No `n` consecutive words vanish. -/
theorem never_zero (hv : MtValid P) {X : Nat → Nat} (hX : IsMt P X) (hb : ∀ k, X k < 2 ^ P.w) (hn : Norm P X)
    (h0 : ∃ j < P.n, X j ≠ 0) (t : Nat) : ∃ j < P.n, X (t + j) ≠ 0 := by
  have h2 := hv.m_two
  have hm := hv.m_lt
  by_contra hc
  push Not at hc
  have key : ∀ t, (∀ j < P.n, X (t + j) = 0) → ∀ j < P.n, X j = 0 := by
    intro t
    induction t with
    | zero => intro h j hj; simpa using h j hj
    | succ t ih =>
      intro h
      apply ih
      intro j hj
      cases j with
      | succ j => rw [show t + (j + 1) = t + 1 + j by omega]; exact h j (by omega)
      | zero =>
        rw [Nat.add_zero, word_before hv hX hb hn t]
        rw [show t + P.m = t + 1 + (P.m - 1) by omega, show t + P.n = t + 1 + (P.n - 1) by omega,
          show t + (P.m - 1) = t + 1 + (P.m - 2) by omega, show t + (P.n - 1) = t + 1 + (P.n - 2) by omega,
          h _ (by omega), h _ (by omega), h _ (by omega), h _ (by omega), Nat.xor_self, untwist_eq hv (Nat.two_pow_pos _),
          if_neg (by have := Nat.two_pow_pos (P.w - 1); omega), Nat.mul_zero, join_self]
  obtain ⟨j, hj, hne⟩ := h0
  exact hne (key t hc j hj)

end Mt
end Boost.Random
