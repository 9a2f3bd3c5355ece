import Verif.Spec.UniformInt
import Verif.Proofs.SignedUnsigned
import Mathlib.Tactic.Linarith
import Mathlib.Tactic.Ring

/-! Lemmas about the uniform integer distributions. -/

namespace Boost.Random
open Spec

def Draw.map {α β : Type} (f : α → β) : Draw α → Draw β
  | .done v rest => .done (f v) rest
  | .more => .more
  | .ub => .ub

theorem subtractT_spec {T : IntTy} {x y : Int} (hb : 1 ≤ T.bits) (hx : InTy T x) (hy : InTy T y) (h : y ≤ x) :
    subtractT T x y = some (x - y).toNat := by
  unfold subtractT InTy at *
  cases hs : T.signed
  · simp only [hs, Bool.false_eq_true, if_false] at *
    unfold subtractUnsigned
    have h1 : x.toNat < 2 ^ T.bits := by
      have : ((2 ^ T.bits : ℕ) : ℤ) = 2 ^ T.bits := by push_cast; rfl
      omega
    rw [show x.toNat + 2 ^ T.bits - y.toNat = (x.toNat - y.toNat) + 2 ^ T.bits by omega, Nat.add_mod_right,
      Nat.mod_eq_of_lt (by omega)]
    congr 1; omega
  · simp only [hs, if_true] at *
    exact subtractSigned_spec T.bits hb x y hx hy h

theorem pow_cast (w : Nat) : ((2 ^ w : ℕ) : ℤ) = 2 ^ w := by push_cast; rfl

theorem addT_spec {w1 : Nat} {T : IntTy} {x : Nat} {y : Int} (hb : 1 ≤ T.bits) (hx : x < 2 ^ w1) (hy : InTy T y)
    (hs : InTy T (y + x)) : addT w1 T x y = some (y + x) := by
  unfold addT InTy at *
  cases hsg : T.signed
  · simp only [hsg, Bool.false_eq_true, if_false] at *
    unfold addUnsigned
    have := pow_cast T.bits
    rw [Nat.mod_eq_of_lt (a := x) (by omega), Nat.mod_eq_of_lt (by omega)]
    congr 1; omega
  · simp only [hsg, if_true] at *
    split
    · rw [add_comm y]; rw [add_comm y] at hs
      exact addSigned_spec w1 T.bits hb (by assumption) x y hx hy hs
    · next hc =>
      rw [add_comm y]; rw [add_comm y] at hs
      unfold addWide
      have h1 : (2 : Int) ^ w1 ≤ 2 ^ (T.bits - 1) := by
        exact pow_le_pow_right₀ (by norm_num) (by omega)
      have := pow_cast w1
      rw [toSigned_small T.bits x hb (by omega)]
      exact signedArith_wrap hb hs

/-- distance of an engine value from `min()` -/
def dig (E : EngInfo) (x : Int) : Nat := (x - E.min).toNat

/-- number of engine values -/
def EngInfo.b (E : EngInfo) : Nat := (E.max - E.min).toNat + 1

theorem inTy_of_between {T : IntTy} {a b x : Int} (ha : InTy T a) (hb : InTy T b) (h1 : a ≤ x) (h2 : x ≤ b) :
    InTy T x := by
  unfold InTy InSigned at *
  split at ha <;> simp_all <;> omega

theorem inTy_diff {T : IntTy} {a b : Int} (hT : 1 ≤ T.bits) (ha : InTy T a) (hb : InTy T b) :
    b - a < 2 ^ T.bits := by
  unfold InTy InSigned at *
  obtain ⟨k, hk⟩ : ∃ k, T.bits = k + 1 := ⟨T.bits - 1, by omega⟩
  rw [hk, Nat.add_sub_cancel, pow_succ] at ha hb
  rw [hk, pow_succ]
  split at ha <;> simp_all <;> omega

theorem EngInfo.brange_eq {E : EngInfo} (h : EngOK E) : E.brange = some (E.b - 1) := by
  unfold EngInfo.brange EngInfo.b
  rw [subtractT_spec h.bits h.max_ty h.min_ty h.lt.le]; simp

theorem EngInfo.b_le {E : EngInfo} (h : EngOK E) : E.b ≤ 2 ^ E.ty.bits := by
  have := inTy_diff h.bits h.min_ty h.max_ty
  have := pow_cast E.ty.bits
  have := h.lt
  unfold EngInfo.b; omega

theorem EngInfo.diff_eq {E : EngInfo} (h : EngOK E) {x : Int} (hx : E.min ≤ x ∧ x ≤ E.max) :
    E.diff x = some (dig E x) := by
  unfold EngInfo.diff dig
  exact subtractT_spec h.bits (inTy_of_between h.min_ty h.max_ty hx.1 hx.2) h.min_ty hx.1

theorem dig_lt {E : EngInfo} {x : Int} (hx : E.min ≤ x ∧ x ≤ E.max) : dig E x < E.b := by
  unfold dig EngInfo.b; omega

namespace UniformInt

/-! ## The mathematical content of the algorithm -/

/-- digit loop without machine arithmetic -/
def cInner (b : Nat) (e : Int → Nat) (N : Nat) : List Int → Nat → Nat → Inner
  | [], r, m => if m * b ≤ N then Inner.more else Inner.exit r m []
  | x :: xs, r, m =>
    if m * b ≤ N then
      if m * b = N then Inner.ret (r + e x * m) xs else cInner b e N xs (r + e x * m) (m * b)
    else Inner.exit r m (x :: xs)

def cBucket (e : Int → Nat) (k N : Nat) : List Int → Draw Nat
  | [] => Draw.more
  | x :: xs => if e x / k < N then Draw.done (e x / k) xs else cBucket e k N xs

/-- the whole algorithm, producing the offset in `[0, N)` -/
def core (b : Nat) (e : Int → Nat) : Nat → Nat → List Int → Draw Nat
  | 0, _, _ => Draw.more
  | fuel + 1, N, xs =>
    if N = 1 then Draw.done 0 xs
    else if b = N then
      match xs with
      | [] => Draw.more
      | x :: xs => Draw.done (e x) xs
    else if b < N then
      match cInner b e N xs 0 1 with
      | Inner.more => Draw.more
      | Inner.ub => Draw.ub
      | Inner.ret r rest => Draw.done r rest
      | Inner.exit r m rest =>
        match core b e fuel ((N - 1) / m + 1) rest with
        | Draw.more => Draw.more
        | Draw.ub => Draw.ub
        | Draw.done i rest =>
          if r + i * m < N then Draw.done (r + i * m) rest else core b e fuel N rest
    else cBucket e (b / N) N xs

theorem succ_div_if (a c : Nat) (hc : 0 < c) :
    (if a % c = c - 1 then a / c + 1 else a / c) = (a + 1) / c := by
  have h1 := Nat.div_add_mod a c
  have h2 := Nat.mod_lt a hc
  generalize a / c = q at *
  generalize a % c = r at *
  split
  · next h =>
    rw [show a + 1 = c * (q + 1) by rw [Nat.mul_add]; omega, Nat.mul_div_cancel_left _ hc]
  · next h =>
    symm
    apply Nat.div_eq_of_lt_le
    · rw [Nat.mul_comm]; omega
    · rw [Nat.mul_comm, Nat.mul_add]; omega

/-- A sum or product below `2^w` is computed exactly, in the type or in `int`. -/
theorem arith_lt {w v : Nat} (h : v < 2 ^ w) : (uns w).arith v = some v := by
  unfold IntTy.arith
  split
  · next hw =>
    have : 2 ^ w ≤ 2 ^ 16 := Nat.pow_le_pow_right (by norm_num) hw
    rw [if_pos (by omega)]
  · simp [IntTy.fit, Nat.mod_eq_of_lt h]

theorem arith_fit {w v : Nat} (h : v < 2 * 2 ^ w) : ((uns w).arith v).bind (uns w).fit = some (v % 2 ^ w) := by
  unfold IntTy.arith
  split
  · next hw =>
    have : 2 ^ w ≤ 2 ^ 16 := Nat.pow_le_pow_right (by norm_num) hw
    rw [if_pos (by omega)]
    simp [IntTy.fit]
  · simp [IntTy.fit]

theorem uns_add {w x y : Nat} (hx : x < 2 ^ w) (hy : y < 2 ^ w) : (uns w).add x y = some ((x + y) % 2 ^ w) :=
  arith_fit (by omega)

theorem uns_mul {w x y : Nat} (h : x * y < 2 ^ w) : (uns w).mul x y = some (x * y) := by
  unfold IntTy.mul
  rw [arith_fit (by omega), Nat.mod_eq_of_lt h]

theorem limit_spec (w range brange : Nat) (hr : range < 2 ^ w) (hb : brange < range) (h0 : 0 < brange) :
    limit w range brange = some ((range + 1) / (brange + 1)) := by
  unfold limit
  rw [Nat.mod_eq_of_lt (show brange < 2 ^ w by omega), arith_lt (show brange + 1 < 2 ^ w by omega)]
  simp only [Option.bind_eq_bind, Option.bind_some, Nat.succ_ne_zero, if_false]
  have hlt : (range / (brange + 1)) < range := Nat.div_lt_self (by omega) (by omega)
  split
  · next h =>
    have := succ_div_if range (brange + 1) (by omega)
    rw [Nat.add_sub_cancel] at this
    rw [this, Nat.mod_eq_of_lt]
    rw [← this]; split <;> omega
  · rw [arith_lt (by omega)]
    simp only [Option.bind_some]
    rw [Nat.mod_eq_of_lt]
    exact lt_of_le_of_lt (Nat.div_le_self _ _) (by omega)

theorem bucketSize_spec (w range brange : Nat) (hb : brange < 2 ^ w) (hr : range < brange) (h0 : 0 < range) :
    bucketSize w range brange = some ((brange + 1) / (range + 1)) := by
  unfold bucketSize
  rw [Nat.mod_eq_of_lt (a := range) (by omega), arith_lt (show range + 1 < 2 ^ w by omega)]
  simp only [Option.bind_eq_bind, Option.bind_some, Nat.succ_ne_zero, if_false]
  have hlt : (brange / (range + 1)) < brange := Nat.div_lt_self (by omega) (by omega)
  split
  · next h =>
    have := succ_div_if brange (range + 1) (by omega)
    rw [Nat.add_sub_cancel] at this
    rw [this, Nat.mod_eq_of_lt]
    rw [← this]; split <;> omega
  · rw [uns_add (by omega) (by omega), Nat.mod_eq_of_lt (a := brange + 1) (by omega)]
    simp only [Option.bind_some]
    rw [Nat.mod_eq_of_lt]
    exact lt_of_le_of_lt (Nat.div_le_self _ _) (by omega)

theorem inner_eq {E : EngInfo} (hE : EngOK E) (w N : Nat) (hN : N ≤ 2 ^ w) (hbN : E.b < N) :
    ∀ (xs : List Int) (r m : Nat), Outputs E xs → r < m → 0 < m → m < N →
      inner E w (N - 1) (E.b - 1) (N / E.b) xs r m = cInner E.b (dig E) N xs r m := by
  have hb0 : 0 < E.b := by unfold EngInfo.b; omega
  intro xs
  induction xs with
  | nil =>
    intro r m _ _ _ _
    unfold inner cInner
    simp only [Nat.le_div_iff_mul_le hb0]
  | cons x xs ih =>
    intro r m hxs hr hm hmN
    have hx := hxs x (by simp)
    have hxs' : Outputs E xs := fun y hy => hxs y (by simp [hy])
    unfold inner cInner
    simp only [Nat.le_div_iff_mul_le hb0]
    by_cases hle : m * E.b ≤ N
    · rw [if_pos hle, if_pos hle, EngInfo.diff_eq hE hx]
      have hd := dig_lt hx
      have h1 : dig E x * m + m ≤ m * E.b := by
        have : (dig E x + 1) * m ≤ E.b * m := Nat.mul_le_mul_right _ hd
        linarith
      have e2 : m * (E.b - 1) = m * E.b - m := by rw [Nat.mul_sub, Nat.mul_one]
      have hmb : m ≤ m * E.b := Nat.le_mul_of_pos_right _ hb0
      have e4 : remaining w (N - 1) m = (N - m : Nat) := by
        unfold remaining
        split
        · omega
        · congr 1
          rw [show N - 1 + 2 ^ w - m + 1 = (N - m) + 2 ^ w by omega, Nat.add_mod_right, Nat.mod_eq_of_lt (by omega)]
      have e5 : (((m * E.b - m : Nat) : Int) = (N - m : Nat)) = (m * E.b = N) := by
        apply propext; omega
      have hdig : digit w (N - 1) (E.b - 1) r m (dig E x) =
          some (r + dig E x * m, if m * E.b = N then none else some (m * E.b)) := by
        unfold digit
        rw [Nat.mod_eq_of_lt (a := dig E x) (by omega), Nat.mod_eq_of_lt (a := E.b - 1) (by omega),
          arith_lt (show dig E x * m < 2 ^ w by omega), arith_lt (show m * (E.b - 1) < 2 ^ w by omega),
          arith_lt (show E.b - 1 + 1 < 2 ^ w by omega)]
        simp only [Option.bind_eq_bind, Option.bind_some]
        rw [Nat.mod_eq_of_lt (a := dig E x * m) (by omega), uns_add (by omega) (by omega),
          Nat.mod_eq_of_lt (a := r + dig E x * m) (by omega), e2, e4]
        simp only [Option.bind_some, e5]
        by_cases he : m * E.b = N
        · rw [if_pos he, if_pos he]
        · rw [if_neg he, if_neg he, show E.b - 1 + 1 = E.b by omega, uns_mul (by omega)]
          rfl
      simp only [Option.bind_some, hdig]
      by_cases he : m * E.b = N
      · simp only [if_pos he]
      · simp only [if_neg he]
        exact ih _ _ hxs' (by omega) (by omega) (by omega)
    · rw [if_neg hle, if_neg hle]

theorem cInner_rest (b : Nat) (e : Int → Nat) (N : Nat) : ∀ (xs : List Int) (r m : Nat),
    (∀ r' rest, cInner b e N xs r m = Inner.ret r' rest → rest <:+ xs) ∧
    (∀ r' m' rest, cInner b e N xs r m = Inner.exit r' m' rest → rest <:+ xs) := by
  intro xs
  induction xs with
  | nil =>
    intro r m
    unfold cInner
    split
    · exact ⟨by rintro _ _ ⟨⟩, by rintro _ _ _ ⟨⟩⟩
    · exact ⟨by rintro _ _ ⟨⟩, by rintro _ _ _ ⟨⟩; exact List.suffix_refl _⟩
  | cons x xs ih =>
    intro r m
    unfold cInner
    split
    · split
      · exact ⟨by rintro _ _ ⟨⟩; exact List.suffix_cons _ _, by rintro _ _ _ ⟨⟩⟩
      · exact ⟨fun r' rest h => ((ih _ _).1 _ _ h).trans (List.suffix_cons _ _),
          fun r' m' rest h => ((ih _ _).2 _ _ _ h).trans (List.suffix_cons _ _)⟩
    · exact ⟨by rintro _ _ ⟨⟩, by rintro _ _ _ ⟨⟩; exact List.suffix_refl _⟩

theorem cBucket_rest (e : Int → Nat) (k N : Nat) (xs : List Int) :
    ∀ v rest, cBucket e k N xs = Draw.done v rest → rest <:+ xs ∧ v < N := by
  induction xs with
  | nil => intro v rest h; simp [cBucket] at h
  | cons x xs ih =>
    intro v rest h
    unfold cBucket at h
    split at h
    · simp only [Draw.done.injEq] at h
      obtain ⟨rfl, rfl⟩ := h
      exact ⟨List.suffix_cons _ _, by assumption⟩
    · exact ⟨(ih v rest h).1.trans (List.suffix_cons _ _), (ih v rest h).2⟩

/-- invariants of the digit loop -/
theorem cInner_inv {b : Nat} {e : Int → Nat} {N : Nat} (hb : 2 ≤ b)  :
    ∀ (xs : List Int) (r m : Nat), (∀ x ∈ xs, e x < b) → r < m → 0 < m → m < N →
    (∀ r' rest, cInner b e N xs r m = Inner.ret r' rest → r' < N ∧ ∃ k, 1 ≤ k ∧ N = m * b ^ k) ∧
    (∀ r' m' rest, cInner b e N xs r m = Inner.exit r' m' rest → r' < m' ∧ 0 < m' ∧ m' < N ∧ N < m' * b ∧
      ∃ j, m' = m * b ^ j) ∧ cInner b e N xs r m ≠ Inner.ub := by
  intro xs
  induction xs with
  | nil =>
    intro r m _ hr hm hmN
    unfold cInner
    split
    · simp
    · next h =>
      refine ⟨by rintro _ _ ⟨⟩, ?_, by rintro ⟨⟩⟩
      rintro _ _ _ ⟨⟩
      exact ⟨hr, hm, hmN, by omega, 0, by simp⟩
  | cons x xs ih =>
    intro r m he hr hm hmN
    have hx := he x (by simp)
    have he' : ∀ y ∈ xs, e y < b := fun y hy => he y (by simp [hy])
    have h1 : e x * m + m ≤ m * b := by
      have : (e x + 1) * m ≤ b * m := Nat.mul_le_mul_right _ hx
      linarith
    unfold cInner
    split
    · next hle =>
      split
      · next heq =>
        refine ⟨?_, by rintro _ _ _ ⟨⟩, by rintro ⟨⟩⟩
        rintro _ _ ⟨⟩
        exact ⟨by omega, 1, by omega, by simp [heq]⟩
      · next hne =>
        have hmb : m ≤ m * b := Nat.le_mul_of_pos_right _ (by omega)
        obtain ⟨i1, i2, i3⟩ := ih (r + e x * m) (m * b) he' (by omega) (by omega) (by omega)
        refine ⟨fun r' rest h => ?_, fun r' m' rest h => ?_, i3⟩
        · obtain ⟨j1, k, j2, j3⟩ := i1 r' rest h
          exact ⟨j1, k + 1, by omega, by rw [j3, pow_succ]; ring⟩
        · obtain ⟨j1, j2, j3, j4, j5⟩ := i2 r' m' rest h
          obtain ⟨j, rfl⟩ := j5
          exact ⟨j1, j2, j3, j4, j + 1, by rw [pow_succ]; ring⟩
    · next h =>
      refine ⟨by rintro _ _ ⟨⟩, ?_, by rintro ⟨⟩⟩
      rintro _ _ _ ⟨⟩
      exact ⟨hr, hm, hmN, by omega, 0, by simp⟩

theorem core_rest {b : Nat} {e : Int → Nat} (hb : 2 ≤ b) : ∀ (fuel N : Nat) (xs : List Int),
    (∀ x ∈ xs, e x < b) → 0 < N →
    (∀ v rest, core b e fuel N xs = Draw.done v rest → rest <:+ xs ∧ v < N) ∧ core b e fuel N xs ≠ Draw.ub := by
  intro fuel
  induction fuel with
  | zero => intro N xs _ _; simp [core]
  | succ fuel ih =>
    intro N xs he hN
    unfold core
    split
    · exact ⟨by rintro _ _ ⟨⟩; exact ⟨List.suffix_refl _, hN⟩, by rintro ⟨⟩⟩
    · split
      · next hbN =>
        cases xs with
        | nil => simp
        | cons x xs =>
          refine ⟨?_, by rintro ⟨⟩⟩
          rintro _ _ ⟨⟩
          exact ⟨List.suffix_cons _ _, hbN ▸ he x (by simp)⟩
      · split
        · next h1 h2 h3 =>
          obtain ⟨i1, i2, i3⟩ := cInner_inv (e := e) (N := N) hb xs 0 1 he (by omega) (by omega) (by omega)
          obtain ⟨j1, j2⟩ := cInner_rest b e N xs 0 1
          cases hc : cInner b e N xs 0 1 with
          | more => simp
          | ub => exact absurd hc i3
          | ret r rest =>
            refine ⟨?_, by rintro ⟨⟩⟩
            rintro _ _ ⟨⟩
            exact ⟨j1 _ _ hc, (i1 _ _ hc).1⟩
          | exit r m rest =>
            have hsuf := j2 _ _ _ hc
            have he' : ∀ y ∈ rest, e y < b := fun y hy => he y (hsuf.subset hy)
            obtain ⟨k1, k2⟩ := ih ((N - 1) / m + 1) rest he' (Nat.succ_pos _)
            simp only
            cases hd : core b e fuel ((N - 1) / m + 1) rest with
            | more => simp
            | ub => exact absurd hd k2
            | done i rest' =>
              simp only
              have hsuf' := (k1 _ _ hd).1
              have he'' : ∀ y ∈ rest', e y < b := fun y hy => he' y (hsuf'.subset hy)
              split
              · refine ⟨?_, by rintro ⟨⟩⟩
                rintro _ _ ⟨⟩
                exact ⟨hsuf'.trans hsuf, by assumption⟩
              · obtain ⟨l1, l2⟩ := ih N rest' he'' hN
                exact ⟨fun v rest'' h => ⟨((l1 v rest'' h).1.trans hsuf').trans hsuf, (l1 v rest'' h).2⟩, l2⟩
        · refine ⟨cBucket_rest e _ N xs, ?_⟩
          clear he
          induction xs with
          | nil => simp [cBucket]
          | cons x xs ihx => unfold cBucket; split <;> simp_all

/-- what the code makes of the offset: the early return forgets `min_value` -/
noncomputable def out (E : EngInfo) (T : IntTy) (mn mx : Int) (v : Nat) : Int :=
  open Classical in if ExactPower E mn mx then castT T v else mn + v

theorem castT_unsigned {w v : Nat} (hv : v < 2 ^ w) : castT ⟨w, false⟩ v = v := by
  simp [castT, Nat.mod_eq_of_lt hv]

theorem exactPower_nat {E : EngInfo} (hE : EngOK E) {mn mx : Int} (h : mn ≤ mx) :
    ExactPower E mn mx ↔ ∃ k, 2 ≤ k ∧ (mx - mn).toNat + 1 = E.b ^ k := by
  unfold ExactPower
  have h1 : (E.max - E.min + 1 : Int) = (E.b : Nat) := by
    have := hE.lt; unfold EngInfo.b; omega
  have h2 : (mx - mn + 1 : Int) = ((mx - mn).toNat + 1 : Nat) := by omega
  rw [h1, h2]
  constructor
  · rintro ⟨k, hk, h⟩; exact ⟨k, hk, by exact_mod_cast h⟩
  · rintro ⟨k, hk, h⟩; exact ⟨k, hk, by exact_mod_cast h⟩

theorem EngInfo.b_ge {E : EngInfo} (hE : EngOK E) : 2 ≤ E.b := by
  have := hE.lt; unfold EngInfo.b; omega

theorem bucketLoop_eq {E : EngInfo} (hE : EngOK E) {T : IntTy} {mn mx : Int} (hP : ParamOK T mn mx)
    (hlt : (mx - mn).toNat + 1 < E.b) (k : Nat) (hk : 0 < k) :
    ∀ xs, Outputs E xs → bucketLoop E T (mx - mn).toNat k mn xs =
      (cBucket (dig E) k ((mx - mn).toNat + 1) xs).map (fun v : Nat => mn + (v : Int)) := by
  intro xs
  have hble := EngInfo.b_le hE
  have hle := hP.le
  induction xs with
  | nil => intro _; simp [bucketLoop, cBucket, Draw.map]
  | cons x xs ih =>
    intro hxs
    have hx := hxs x (by simp)
    have hd := dig_lt hx
    unfold bucketLoop cBucket
    rw [EngInfo.diff_eq hE hx]
    simp only
    rw [if_neg (by omega), Nat.mod_eq_of_lt (by omega)]
    have hdd : dig E x / k ≤ dig E x := Nat.div_le_self _ _
    generalize dig E x / k = q at *
    by_cases hc : q ≤ (mx - mn).toNat
    · rw [if_pos hc, if_pos (by omega), addT_spec hP.bits (by omega) hP.min_ty
        (inTy_of_between hP.min_ty hP.max_ty (by omega) (by omega))]
      rfl
    · rw [if_neg hc, if_neg (by omega)]
      exact ih (fun y hy => hxs y (by simp [hy]))

theorem generateAux_eq {E : EngInfo} (hE : EngOK E) : ∀ (fuel : Nat) (T : IntTy) (mn mx : Int) (xs : List Int),
    ParamOK T mn mx → Outputs E xs →
    generateAux fuel E T mn mx xs =
      (core E.b (dig E) fuel ((mx - mn).toNat + 1) xs).map (out E T mn mx) := by
  have hb2 := EngInfo.b_ge hE
  have hble := EngInfo.b_le hE
  intro fuel
  induction fuel with
  | zero => intro T mn mx xs _ _; rfl
  | succ fuel ih =>
    intro T mn mx xs hP hxs
    have hle := hP.le
    have hNle : (mx - mn).toNat + 1 ≤ 2 ^ T.bits := by
      have := inTy_diff hP.bits hP.min_ty hP.max_ty
      have := pow_cast T.bits
      omega
    have hexact := exactPower_nat hE hle
    have hadd : ∀ (w1 v : Nat), v < 2 ^ w1 → v < (mx - mn).toNat + 1 → addT w1 T v mn = some (mn + v) :=
      fun w1 v h1 h2 => addT_spec hP.bits h1 hP.min_ty
        (inTy_of_between hP.min_ty hP.max_ty (by omega) (by omega))
    have hnot : (mx - mn).toNat + 1 ≤ E.b → ∀ v, out E T mn mx v = mn + v := by
      intro h v
      unfold out
      rw [if_neg]
      rw [hexact]
      rintro ⟨k, hk, he⟩
      have h1 : E.b ^ 2 ≤ E.b ^ k := Nat.pow_le_pow_right (by omega) hk
      have h2 : E.b * 2 ≤ E.b ^ 2 := by rw [pow_two]; exact Nat.mul_le_mul_left _ hb2
      omega
    unfold generateAux core
    rw [subtractT_spec hP.bits hP.max_ty hP.min_ty hle, EngInfo.brange_eq hE]
    simp only
    by_cases h0 : (mx - mn).toNat = 0
    · rw [if_pos h0, if_pos (show (mx - mn).toNat + 1 = 1 by omega)]
      simp only [Draw.map]
      rw [hnot (by omega)]; simp
    · rw [if_neg h0, if_neg (show ¬ (mx - mn).toNat + 1 = 1 by omega)]
      by_cases h1 : E.b - 1 = (mx - mn).toNat
      · rw [if_pos h1, if_pos (show E.b = (mx - mn).toNat + 1 by omega)]
        cases xs with
        | nil => rfl
        | cons x xs =>
          have hx := hxs x (by simp)
          have hd := dig_lt hx
          simp only [EngInfo.diff_eq hE hx]
          rw [hadd E.ty.bits (dig E x) (by omega) (by omega)]
          simp only [Draw.map]
          rw [hnot (by omega)]
      · rw [if_neg h1, if_neg (show ¬ E.b = (mx - mn).toNat + 1 by omega)]
        by_cases h2 : E.b - 1 < (mx - mn).toNat
        · rw [if_pos h2, if_pos (show E.b < (mx - mn).toNat + 1 by omega)]
          rw [limit_spec T.bits _ _ (by omega) h2 (by omega)]
          simp only
          rw [show E.b - 1 + 1 = E.b by omega]
          have hin := inner_eq hE T.bits ((mx - mn).toNat + 1) hNle (by omega) xs 0 1 hxs (by omega) (by omega)
            (by omega)
          rw [Nat.add_sub_cancel] at hin
          rw [hin]
          have hdl : ∀ x ∈ xs, dig E x < E.b := fun x hx => dig_lt (hxs x hx)
          obtain ⟨i1, i2, i3⟩ := cInner_inv (e := dig E) (N := (mx - mn).toNat + 1) hb2 xs 0 1 hdl (by omega)
            (by omega) (by omega)
          obtain ⟨j1, j2⟩ := cInner_rest E.b (dig E) ((mx - mn).toNat + 1) xs 0 1
          cases hc : cInner E.b (dig E) ((mx - mn).toNat + 1) xs 0 1 with
          | more => rfl
          | ub => exact absurd hc i3
          | ret r rest =>
            simp only [Draw.map]
            obtain ⟨hr, k, hk, he⟩ := i1 _ _ hc
            unfold out
            rw [if_pos]
            rw [hexact]
            refine ⟨k, ?_, by omega⟩
            by_contra hk2
            have : k = 1 := by omega
            subst this
            rw [pow_one, Nat.one_mul] at he
            omega
          | exit r m rest =>
            obtain ⟨k1, k2, k3, k4, j, k5⟩ := i2 _ _ _ hc
            have hout : ∀ v, out E T mn mx v = mn + v := by
              intro v
              unfold out
              rw [if_neg]
              rw [hexact]
              rintro ⟨k, hk, he⟩
              rw [Nat.one_mul] at k5
              have l1 : j < k := (Nat.pow_lt_pow_iff_right (a := E.b) (by omega)).1 (by omega)
              have l2 : k < j + 1 := (Nat.pow_lt_pow_iff_right (a := E.b) (by omega)).1 (by
                rw [pow_succ, ← k5]; omega)
              omega
            have hsuf := j2 _ _ _ hc
            have hrest : Outputs E rest := fun y hy => hxs y (hsuf.subset hy)
            have hdr : ∀ x ∈ rest, dig E x < E.b := fun x hx => dig_lt (hrest x hx)
            simp only
            rw [if_neg (by omega)]
            have hq : (mx - mn).toNat / m ≤ (mx - mn).toNat := Nat.div_le_self _ _
            clear hexact
            rw [Nat.add_sub_cancel]
            generalize (mx - mn).toNat / m = q at *
            have hP' : ParamOK ⟨T.bits, false⟩ 0 (q : Int) := by
              have := pow_cast T.bits
              refine ⟨hP.bits, ?_, ?_, by omega⟩
              · simp [InTy]
              · simp only [InTy, Bool.false_eq_true, if_false]; omega
            rw [ih ⟨T.bits, false⟩ 0 _ rest hP' hrest]
            rw [show ((q : Int) - 0).toNat = q by omega]
            obtain ⟨c1, c2⟩ := core_rest (e := dig E) hb2 fuel (q + 1) rest hdr (Nat.succ_pos _)
            cases hd : core E.b (dig E) fuel (q + 1) rest with
            | more => rfl
            | ub => exact absurd hd c2
            | done i rest' =>
              obtain ⟨d1, d2⟩ := c1 _ _ hd
              have hi : (out E ⟨T.bits, false⟩ 0 (q : Int) i).toNat = i := by
                unfold out
                split
                · rw [castT_unsigned (by omega)]; simp
                · simp
              have hrest' : Outputs E rest' := fun y hy => hrest y (d1.subset hy)
              simp only [Draw.map, hi]
              have hre := ih T mn mx rest' hP hrest'
              have hmpos : 0 < m := k2
              by_cases hov : (2 ^ T.bits - 1) / m < i
              · have hN' : ¬ r + i * m < (mx - mn).toNat + 1 := by
                  rw [Nat.div_lt_iff_lt_mul hmpos] at hov
                  clear ih hre hi
                  generalize 2 ^ T.bits = W at *
                  omega
                rw [if_pos hov, hre, if_neg hN']
                rfl
              · rw [if_neg hov]
                rw [Nat.div_lt_iff_lt_mul hmpos] at hov
                rw [uns_mul (show i * m < 2 ^ T.bits by omega)]
                simp only
                rw [uns_add (show r < 2 ^ T.bits by omega) (show i * m < 2 ^ T.bits by omega)]
                simp only
                by_cases hs : r + i * m < 2 ^ T.bits
                · rw [Nat.mod_eq_of_lt hs, if_neg (by omega)]
                  by_cases hN : r + i * m < (mx - mn).toNat + 1
                  · rw [if_neg (by omega), if_pos hN, hadd T.bits _ (by omega) hN, ← hout]
                    
                  · rw [if_pos (by omega), if_neg hN, hre]
                    rfl
                · have : (r + i * m) % 2 ^ T.bits = r + i * m - 2 ^ T.bits := by
                    rw [Nat.mod_eq_sub_mod (by omega), Nat.mod_eq_of_lt (by omega)]
                  rw [this, if_pos (by omega), if_neg (by omega), hre]
                  rfl
        · rw [if_neg h2, if_neg (show ¬ E.b < (mx - mn).toNat + 1 by omega)]
          rw [bucketSize_spec _ _ _ (by omega) (by omega) (by omega)]
          simp only
          rw [show E.b - 1 + 1 = E.b by omega]
          rw [bucketLoop_eq hE hP (by omega) _ (Nat.div_pos (by omega) (by omega)) xs hxs]
          congr 1
          funext v
          rw [hnot (by omega)]

end UniformInt
end Boost.Random
