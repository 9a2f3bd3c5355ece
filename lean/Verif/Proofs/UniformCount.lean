import Verif.Proofs.UniformInt
import Mathlib.Algebra.BigOperators.Ring.Finset
import Mathlib.Algebra.Order.BigOperators.Group.Finset
import Mathlib.Algebra.Module.NatInt

/-! Counting lemmas for the uniform integer distributions. -/

namespace Boost.Random
open Spec Finset

section cnt
variable {α : Type} [DecidableEq α] (E : EngInfo)

/-- `count`, by recursion on the first engine value -/
def cnt (q : List Int → Draw α) : Nat → α → Nat
  | 0, v => if q [] = Draw.done v [] then 1 else 0
  | n + 1, v => ∑ d ∈ range E.b, cnt (fun xs => q ((E.min + (d : Int)) :: xs)) n v

theorem list_sum_range (f : Nat → Nat) (b : Nat) : ((List.range b).map f).sum = ∑ d ∈ range b, f d := by
  induction b with
  | zero => rfl
  | succ b ih => rw [List.range_succ, List.map_append, List.sum_append, ih, sum_range_succ]; simp

theorem count_eq_cnt (q : List Int → Draw α) (n : Nat) (v : α) : count E q n v = cnt E q n v := by
  induction n generalizing q with
  | zero => simp [count, tuples, cnt, List.countP_cons]
  | succ n ih =>
    unfold count tuples cnt
    rw [List.countP_flatMap, ← list_sum_range]
    congr 1
    apply List.map_congr_left
    intro d _
    rw [← ih]
    unfold count
    simp only [Function.comp, List.countP_map]
    rfl

theorem cnt_congr_outputs {q q' : List Int → Draw α} (hE : E.min ≤ E.max) (h : ∀ xs, Outputs E xs → q xs = q' xs) (n : Nat) (v : α) :
    cnt E q n v = cnt E q' n v := by
  induction n generalizing q q' with
  | zero => simp only [cnt]; rw [h [] (by intro x hx; simp at hx)]
  | succ n ih =>
    simp only [cnt]
    apply sum_congr rfl
    intro d hd
    apply ih
    intro xs hxs
    apply h
    intro x hx
    rcases List.mem_cons.1 hx with rfl | hx
    · have := mem_range.1 hd
      unfold EngInfo.b at this
      omega
    · exact hxs x hx

theorem cnt_done (a : α) (n : Nat) (v : α) :
    cnt E (fun xs => Draw.done a xs) n v = if n = 0 ∧ a = v then 1 else 0 := by
  cases n with
  | zero => simp [cnt]
  | succ n =>
    simp only [cnt]
    rw [sum_eq_zero]
    · simp
    · intro d _
      have : ∀ (pre : List Int), pre ≠ [] → cnt E (fun xs => Draw.done a (pre ++ xs)) n v = 0 := by
        induction n with
        | zero => intro pre hpre; simp [cnt, hpre]
        | succ n ih =>
          intro pre hpre
          simp only [cnt]
          apply sum_eq_zero
          intro d _
          have := ih (pre ++ [E.min + (d : Int)]) (by simp)
          simpa using this
      exact this [E.min + (d : Int)] (by simp)

theorem cnt_more (n : Nat) (v : α) : cnt E (fun _ => (Draw.more : Draw α)) n v = 0 := by
  induction n with
  | zero => simp [cnt]
  | succ n ih => simp only [cnt, ih, sum_const_zero]

end cnt

theorem sum_digits (f : Nat → Nat) (m b : Nat) :
    ∑ r ∈ range m, ∑ d ∈ range b, f (r + d * m) = ∑ t ∈ range (m * b), f t := by
  rw [sum_comm]
  induction b with
  | zero => simp
  | succ b ih =>
    rw [sum_range_succ, ih, Nat.mul_add, Nat.mul_one, sum_range_add]
    congr 1
    apply sum_congr rfl
    intro r _
    rw [Nat.add_comm, Nat.mul_comm b m]

/-- sum over `d < b` of a function of the bucket `d / k`, for the buckets below `N` -/
theorem sum_buckets (f : Nat → Nat) (c : Nat) (k N b : Nat) (hk : 0 < k) (hN : k * N ≤ b) :
    ∑ d ∈ range b, (if d / k < N then f (d / k) else c) = k * (∑ i ∈ range N, f i) + (b - k * N) * c := by
  obtain ⟨t, rfl⟩ := Nat.exists_eq_add_of_le hN
  rw [sum_range_add]
  congr 1
  · rw [← sum_digits]
    rw [mul_sum, sum_comm]
    apply sum_congr rfl
    intro i hi
    have : ∀ r ∈ range k, (if (r + i * k) / k < N then f ((r + i * k) / k) else c) = f i := by
      intro r hr
      have h1 : (r + i * k) / k = i := by
        rw [Nat.add_mul_div_right _ _ hk, Nat.div_eq_of_lt (mem_range.1 hr), Nat.zero_add]
      rw [h1, if_pos (mem_range.1 hi)]
    rw [sum_congr rfl this, sum_const, card_range, smul_eq_mul]
  · have : ∀ r ∈ range t, (if (k * N + r) / k < N then f ((k * N + r) / k) else c) = c := by
      intro r _
      rw [if_neg]
      rw [Nat.not_lt, Nat.le_div_iff_mul_le hk]
      rw [Nat.mul_comm]; omega
    rw [sum_congr rfl this, sum_const, card_range, smul_eq_mul, Nat.add_sub_cancel_left]

namespace UniformInt
section K
variable {b : Nat} {e : Int → Nat}

theorem cInner_exit_length {N : Nat} (xs : List Int) (r m : Nat) (h : m * b ≤ N) :
    ∀ r' m' rest, cInner b e N xs r m = Inner.exit r' m' rest → rest.length < xs.length := by
  cases xs with
  | nil => intro r' m' rest hc; unfold cInner at hc; rw [if_pos h] at hc; cases hc
  | cons x xs =>
    intro r' m' rest hc
    unfold cInner at hc
    rw [if_pos h] at hc
    split at hc
    · cases hc
    · have := ((cInner_rest b e N xs _ _).2 _ _ _ hc).length_le
      simp; omega

theorem core_fuel (hb : 2 ≤ b) : ∀ (f f' N : Nat) (xs : List Int), (∀ x ∈ xs, e x < b) → 0 < N →
    xs.length < f → xs.length < f' → core b e f N xs = core b e f' N xs := by
  intro f
  induction f with
  | zero => intro f' N xs _ _ h; omega
  | succ f ih =>
    intro f' N xs he hN h h'
    obtain ⟨f', rfl⟩ : ∃ g, f' = g + 1 := ⟨f' - 1, by omega⟩
    unfold core
    by_cases h1 : N = 1
    · rw [if_pos h1, if_pos h1]
    rw [if_neg h1, if_neg h1]
    by_cases h2 : b = N
    · rw [if_pos h2, if_pos h2]
    rw [if_neg h2, if_neg h2]
    by_cases h3 : b < N
    · rw [if_pos h3, if_pos h3]
      cases hc : cInner b e N xs 0 1 with
      | more => rfl
      | ub => rfl
      | ret r rest => rfl
      | exit r m rest =>
        have hlen := cInner_exit_length xs 0 1 (by omega) _ _ _ hc
        have hsuf := (cInner_rest b e N xs 0 1).2 _ _ _ hc
        have he' : ∀ x ∈ rest, e x < b := fun x hx => he x (hsuf.subset hx)
        simp only
        rw [ih f' ((N - 1) / m + 1) rest he' (Nat.succ_pos _) (by omega) (by omega)]
        cases hd : core b e f' ((N - 1) / m + 1) rest with
        | more => rfl
        | ub => rfl
        | done i rest' =>
          have hs' := ((core_rest (e := e) hb f' _ rest he' (Nat.succ_pos _)).1 _ _ hd).1
          have hl' := hs'.length_le
          simp only
          rw [ih f' N rest' (fun x hx => he' x (hs'.subset hx)) hN (by omega) (by omega)]
    · rw [if_neg h3, if_neg h3]

/-- the algorithm with enough fuel -/
def K (b : Nat) (e : Int → Nat) (N : Nat) (xs : List Int) : Draw Nat := core b e (xs.length + 1) N xs

theorem core_eq_K (hb : 2 ≤ b) (f N : Nat) (xs : List Int) (he : ∀ x ∈ xs, e x < b) (hN : 0 < N)
    (hf : xs.length < f) : core b e f N xs = K b e N xs :=
  core_fuel hb _ _ _ _ he hN hf (by omega)

/-- after the digit loop -/
def G (b : Nat) (e : Int → Nat) (N r m : Nat) (xs : List Int) : Draw Nat :=
  match K b e ((N - 1) / m + 1) xs with
  | Draw.more => Draw.more
  | Draw.ub => Draw.ub
  | Draw.done i rest => if r + i * m < N then Draw.done (r + i * m) rest else K b e N rest

/-- from inside the digit loop -/
def F (b : Nat) (e : Int → Nat) (N r m : Nat) (xs : List Int) : Draw Nat :=
  match cInner b e N xs r m with
  | Inner.more => Draw.more
  | Inner.ub => Draw.ub
  | Inner.ret r rest => Draw.done r rest
  | Inner.exit r m rest => G b e N r m rest

theorem K_eq_F (hb : 2 ≤ b) {N : Nat} (hN : b < N) (xs : List Int) (he : ∀ x ∈ xs, e x < b) :
    K b e N xs = F b e N 0 1 xs := by
  unfold K F core
  rw [if_neg (by omega), if_neg (by omega), if_pos hN]
  cases hc : cInner b e N xs 0 1 with
  | more => rfl
  | ub => rfl
  | ret r rest => rfl
  | exit r m rest =>
    have hlen := cInner_exit_length xs 0 1 (by omega) _ _ _ hc
    have hsuf := (cInner_rest b e N xs 0 1).2 _ _ _ hc
    have he' : ∀ x ∈ rest, e x < b := fun x hx => he x (hsuf.subset hx)
    simp only [G]
    rw [core_eq_K hb _ _ rest he' (Nat.succ_pos _) hlen]
    cases hd : K b e ((N - 1) / m + 1) rest with
    | more => rfl
    | ub => rfl
    | done i rest' =>
      have hs' := ((core_rest (e := e) hb _ _ rest he' (Nat.succ_pos _)).1 _ _ hd).1
      have hl' := hs'.length_le
      simp only
      rw [core_eq_K hb _ _ rest' (fun x hx => he' x (hs'.subset hx)) (by omega) (by omega)]

theorem F_nil {N r m : Nat} (h : m * b ≤ N) : F b e N r m [] = Draw.more := by
  unfold F cInner; rw [if_pos h]

theorem F_cons_lt {N r m : Nat} (h : m * b < N) (x : Int) (xs : List Int) :
    F b e N r m (x :: xs) = F b e N (r + e x * m) (m * b) xs := by
  conv => lhs; unfold F cInner
  rw [if_pos (by omega), if_neg (by omega)]; rfl

theorem F_cons_eq {N r m : Nat} (h : m * b = N) (x : Int) (xs : List Int) :
    F b e N r m (x :: xs) = Draw.done (r + e x * m) xs := by
  unfold F cInner
  rw [if_pos (by omega), if_pos h]

theorem F_gt {N r m : Nat} (h : N < m * b) (xs : List Int) : F b e N r m xs = G b e N r m xs := by
  unfold F
  cases xs <;> (unfold cInner; rw [if_neg (by omega)])

theorem K_one (xs : List Int) : K b e 1 xs = Draw.done 0 xs := by
  unfold K core; rw [if_pos rfl]

theorem K_b_nil (hb : 2 ≤ b) : K b e b [] = Draw.more := by
  unfold K core; rw [if_neg (by omega), if_pos rfl]

theorem K_b_cons (hb : 2 ≤ b) (x : Int) (xs : List Int) : K b e b (x :: xs) = Draw.done (e x) xs := by
  unfold K core; rw [if_neg (by omega), if_pos rfl]

theorem K_bucket {N : Nat} (h1 : N ≠ 1) (h2 : N < b) (xs : List Int) :
    K b e N xs = cBucket e (b / N) N xs := by
  unfold K core; rw [if_neg h1, if_neg (by omega), if_neg (by omega)]

end K

section uniform
variable {E : EngInfo} (hE : EngOK E)
include hE

theorem dig_min (d : Nat) : dig E (E.min + (d : Int)) = d := by unfold dig; omega

theorem outputs_dig {xs : List Int} (h : Outputs E xs) : ∀ x ∈ xs, dig E x < E.b := fun x hx => dig_lt (h x hx)

/-- after the final step of an attempt: accept or start again -/
def after (E : EngInfo) (N t : Nat) (xs : List Int) : Draw Nat :=
  if t < N then Draw.done t xs else K E.b (dig E) N xs

omit hE in
theorem sum_after (N C n v : Nat) (hC : N ≤ C) (hv : v < N) :
    ∑ t ∈ range C, cnt E (after E N t) n v =
      (if n = 0 then 1 else 0) + (C - N) * cnt E (K E.b (dig E) N) n v := by
  obtain ⟨u, rfl⟩ := Nat.exists_eq_add_of_le hC
  rw [sum_range_add]
  congr 1
  · have : ∀ t ∈ range N, cnt E (after E N t) n v = if n = 0 ∧ t = v then 1 else 0 := by
      intro t ht
      rw [← cnt_done]
      congr 1
      funext xs
      unfold after
      rw [if_pos (mem_range.1 ht)]
    rw [sum_congr rfl this]
    by_cases hn : n = 0
    · simp [hn, hv]
    · simp [hn]
  · have : ∀ t ∈ range u, cnt E (after E N (N + t)) n v = cnt E (K E.b (dig E) N) n v := by
      intro t _
      congr 1
      funext xs
      unfold after
      rw [if_neg (by omega)]
    rw [sum_congr rfl this, sum_const, card_range, smul_eq_mul, Nat.add_sub_cancel_left]

/-- number of acceptances over all digit-loop results, once the digit loop is over -/
theorem sum_G (N m : Nat) (hm0 : 0 < m) (hmN : m < N) (hmb : N < m * E.b) (n v v' : Nat) (hv : v < N) (hv' : v' < N)
    (ihA : ∀ j ≤ n, cnt E (K E.b (dig E) N) j v = cnt E (K E.b (dig E) N) j v') :
    ∑ r ∈ range m, cnt E (G E.b (dig E) N r m) n v = ∑ r ∈ range m, cnt E (G E.b (dig E) N r m) n v' := by
  have hb2 := EngInfo.b_ge hE
  obtain ⟨N', hN'⟩ : ∃ N', N' = (N - 1) / m + 1 := ⟨_, rfl⟩
  have hN'b : N' ≤ E.b := by
    have : (N - 1) / m < E.b := by
      rw [Nat.div_lt_iff_lt_mul hm0]; rw [Nat.mul_comm]; omega
    omega
  have hNm : N ≤ m * N' := by
    have h1 := Nat.div_add_mod (N - 1) m
    have h2 := Nat.mod_lt (N - 1) hm0
    rw [hN', Nat.mul_add, Nat.mul_one]
    omega
  have hH : ∀ j w, w < N → ∑ r ∈ range m, ∑ i ∈ range N', cnt E (after E N (r + i * m)) j w =
      (if j = 0 then 1 else 0) + (m * N' - N) * cnt E (K E.b (dig E) N) j w := by
    intro j w hw
    rw [sum_digits (fun t => cnt E (after E N t) j w), sum_after N _ j w hNm hw]
  by_cases h1 : N' = 1
  · have hG : ∀ r, G E.b (dig E) N r m = after E N (r + 0 * m) := by
      intro r
      funext xs
      unfold G after
      rw [← hN', h1, K_one]
    have := fun w hw => hH n w hw
    simp only [h1, range_one, sum_singleton] at this
    simp only [hG]
    rw [this v hv, this v' hv', ihA n (le_refl _)]
  by_cases h2 : N' = E.b
  · cases n with
    | zero =>
      have : ∀ r w, cnt E (G E.b (dig E) N r m) 0 w = 0 := by
        intro r w
        have : G E.b (dig E) N r m [] = Draw.more := by
          unfold G; rw [← hN', h2, K_b_nil hb2]
        simp only [cnt, this]; simp
      simp only [this]
    | succ n =>
      have : ∀ r w, cnt E (G E.b (dig E) N r m) (n + 1) w = ∑ i ∈ range N', cnt E (after E N (r + i * m)) n w := by
        intro r w
        simp only [cnt]
        rw [h2]
        apply sum_congr rfl
        intro d _
        congr 1
        funext xs
        unfold G after
        rw [← hN', h2, K_b_cons hb2, dig_min hE]
      simp only [this]
      rw [hH n v hv, hH n v' hv', ihA n (by omega)]
  · have h3 : N' < E.b := by omega
    have hkpos : 0 < E.b / N' := Nat.div_pos hN'b (by rw [hN']; exact Nat.succ_pos _)
    have hkN : E.b / N' * N' ≤ E.b := Nat.div_mul_le_self _ _
    generalize hk : E.b / N' = k at *
    have hnil : ∀ r, G E.b (dig E) N r m [] = Draw.more := by
      intro r; unfold G
      rw [← hN', K_bucket h1 h3]; rfl
    have hcons : ∀ (r d : Nat) xs, G E.b (dig E) N r m ((E.min + (d : Int)) :: xs) =
        if d / k < N' then after E N (r + d / k * m) xs else G E.b (dig E) N r m xs := by
      intro r d xs
      unfold G after
      rw [← hN', K_bucket h1 h3, K_bucket h1 h3, hk]
      conv => lhs; unfold cBucket
      rw [dig_min hE]
      by_cases hd : d / k < N'
      · rw [if_pos hd, if_pos hd]
      · rw [if_neg hd, if_neg hd]
    have hrec : ∀ j w, w < N → ∑ r ∈ range m, cnt E (G E.b (dig E) N r m) (j + 1) w =
        k * ((if j = 0 then 1 else 0) + (m * N' - N) * cnt E (K E.b (dig E) N) j w) +
          (E.b - k * N') * ∑ r ∈ range m, cnt E (G E.b (dig E) N r m) j w := by
      intro j w hw
      rw [← hH j w hw, mul_sum, mul_sum, ← sum_add_distrib]
      apply sum_congr rfl
      intro r _
      simp only [cnt]
      rw [← sum_buckets (fun i => cnt E (after E N (r + i * m)) j w) _ k N' E.b hkpos hkN]
      apply sum_congr rfl
      intro d _
      by_cases hd : d / k < N'
      · rw [if_pos hd]
        congr 1; funext xs; rw [hcons, if_pos hd]
      · rw [if_neg hd]
        congr 1; funext xs; rw [hcons, if_neg hd]
    induction n with
    | zero => simp [cnt, hnil]
    | succ n ih =>
      rw [hrec n v hv, hrec n v' hv', ihA n (by omega), ih (fun j hj => ihA j (by omega))]

theorem sum_F (N : Nat) (v v' : Nat) (hv : v < N) (hv' : v' < N) : ∀ (n m : Nat), 0 < m → m < N →
    (∀ j ≤ n, cnt E (K E.b (dig E) N) j v = cnt E (K E.b (dig E) N) j v') →
    ∑ r ∈ range m, cnt E (F E.b (dig E) N r m) n v = ∑ r ∈ range m, cnt E (F E.b (dig E) N r m) n v' := by
  have hb2 := EngInfo.b_ge hE
  intro n
  induction n with
  | zero =>
    intro m hm0 hmN ihA
    by_cases h : m * E.b ≤ N
    · simp [cnt, F_nil h]
    · have : ∀ r, F E.b (dig E) N r m = G E.b (dig E) N r m := fun r => funext fun xs => F_gt (by omega) xs
      simp only [this]
      exact sum_G hE N m hm0 hmN (by omega) 0 v v' hv hv' ihA
  | succ n ih =>
    intro m hm0 hmN ihA
    rcases Nat.lt_trichotomy (m * E.b) N with h | h | h
    · have : ∀ w, ∑ r ∈ range m, cnt E (F E.b (dig E) N r m) (n + 1) w =
          ∑ t ∈ range (m * E.b), cnt E (F E.b (dig E) N t (m * E.b)) n w := by
        intro w
        rw [← sum_digits]
        apply sum_congr rfl
        intro r _
        simp only [cnt]
        apply sum_congr rfl
        intro d _
        congr 1; funext xs
        rw [F_cons_lt h, dig_min hE]
      rw [this, this]
      exact ih (m * E.b) (Nat.mul_pos hm0 (by omega)) h (fun j hj => ihA j (by omega))
    · have : ∀ w, w < N → ∑ r ∈ range m, cnt E (F E.b (dig E) N r m) (n + 1) w = if n = 0 then 1 else 0 := by
        intro w hw
        have h1 : ∑ r ∈ range m, cnt E (F E.b (dig E) N r m) (n + 1) w =
            ∑ r ∈ range m, ∑ d ∈ range E.b, (if n = 0 ∧ (r + d * m) = w then 1 else 0) := by
          apply sum_congr rfl
          intro r _
          simp only [cnt]
          apply sum_congr rfl
          intro d _
          rw [← cnt_done]
          congr 1; funext xs
          rw [F_cons_eq h, dig_min hE]
        rw [h1, sum_digits (fun t => if n = 0 ∧ t = w then 1 else 0), h]
        by_cases hn : n = 0
        · simp [hn, hw]
        · simp [hn]
      rw [this v hv, this v' hv']
    · have : ∀ r, F E.b (dig E) N r m = G E.b (dig E) N r m := fun r => funext fun xs => F_gt h xs
      simp only [this]
      exact sum_G hE N m hm0 hmN h (n + 1) v v' hv hv' ihA

/-- the offset is uniform -/
theorem cnt_K_uniform (N : Nat) (v v' : Nat) (hv : v < N) (hv' : v' < N) (n : Nat) :
    cnt E (K E.b (dig E) N) n v = cnt E (K E.b (dig E) N) n v' := by
  have hb2 := EngInfo.b_ge hE
  rcases Nat.lt_trichotomy E.b N with h | h | h
  · induction n using Nat.strong_induction_on with
    | _ n ih =>
      have hKF : ∀ j w, cnt E (K E.b (dig E) N) j w = cnt E (F E.b (dig E) N 0 1) j w := fun j w =>
        cnt_congr_outputs E hE.lt.le (fun xs hxs => K_eq_F hb2 h xs (outputs_dig hE hxs)) j w
      rw [hKF, hKF]
      cases n with
      | zero => simp [cnt, F_nil (show 1 * E.b ≤ N by omega)]
      | succ n =>
        have : ∀ w, cnt E (F E.b (dig E) N 0 1) (n + 1) w = ∑ r ∈ range E.b, cnt E (F E.b (dig E) N r E.b) n w := by
          intro w
          simp only [cnt]
          apply sum_congr rfl
          intro d _
          congr 1; funext xs
          rw [F_cons_lt (by omega), dig_min hE]
          simp
        rw [this, this]
        exact sum_F hE N v v' hv hv' n E.b (by omega) h (fun j hj => ih j (by omega))
  · subst h
    have : ∀ w, w < E.b → cnt E (K E.b (dig E) E.b) n w = if n = 1 then 1 else 0 := by
      intro w hw
      cases n with
      | zero => simp [cnt, K_b_nil hb2]
      | succ n =>
        simp only [cnt]
        have h1 : ∀ d ∈ range E.b, cnt E (fun xs => K E.b (dig E) E.b ((E.min + (d : Int)) :: xs)) n w =
            if n = 0 ∧ d = w then 1 else 0 := by
          intro d _
          rw [← cnt_done]
          congr 1; funext xs
          rw [K_b_cons hb2, dig_min hE]
        rw [sum_congr rfl h1]
        by_cases hn : n = 0
        · simp [hn, hw]
        · simp [hn]
    rw [this v hv, this v' hv']
  · by_cases h1 : N = 1
    · have : v = v' := by omega
      rw [this]
    have hkpos : 0 < E.b / N := Nat.div_pos (by omega) (by omega)
    have hkN : E.b / N * N ≤ E.b := Nat.div_mul_le_self _ _
    have hrec : ∀ j w, w < N → cnt E (K E.b (dig E) N) (j + 1) w =
        E.b / N * (if j = 0 then 1 else 0) + (E.b - E.b / N * N) * cnt E (K E.b (dig E) N) j w := by
      intro j w hw
      have h2 : ∑ i ∈ range N, (if j = 0 ∧ i = w then 1 else 0) = if j = 0 then 1 else 0 := by
        by_cases hn : j = 0
        · simp [hn, hw]
        · simp [hn]
      rw [← h2, ← sum_buckets (fun i => if j = 0 ∧ i = w then 1 else 0) _ _ N E.b hkpos hkN]
      simp only [cnt]
      apply sum_congr rfl
      intro d _
      have hc : ∀ xs, K E.b (dig E) N ((E.min + (d : Int)) :: xs) =
          if d / (E.b / N) < N then Draw.done (d / (E.b / N)) xs else K E.b (dig E) N xs := by
        intro xs
        rw [K_bucket h1 h, K_bucket h1 h]
        conv => lhs; unfold cBucket
        rw [dig_min hE]
      by_cases hd : d / (E.b / N) < N
      · rw [if_pos hd, ← cnt_done]
        congr 1; funext xs; rw [hc, if_pos hd]
      · rw [if_neg hd]
        congr 1; funext xs; rw [hc, if_neg hd]
    induction n with
    | zero =>
      have : ∀ w, cnt E (K E.b (dig E) N) 0 w = 0 := by
        intro w
        simp only [cnt]; rw [K_bucket h1 h]; simp [cBucket]
      rw [this, this]
    | succ n ih => rw [hrec n v hv, hrec n v' hv', ih]

end uniform
end UniformInt
end Boost.Random

namespace Boost.Random
open Spec Finset

section map
variable {α β : Type} [DecidableEq α] [DecidableEq β] (E : EngInfo)

theorem cnt_map (q : List Int → Draw α) (f : α → β) (v : α)
    (hinj : ∀ xs a rest, Outputs E xs → q xs = Draw.done a rest → f a = f v → a = v) (hE : E.min ≤ E.max) (n : Nat) :
    cnt E (fun xs => (q xs).map f) n (f v) = cnt E q n v := by
  induction n generalizing q with
  | zero =>
    simp only [cnt]
    have hnil : Outputs E [] := by intro x hx; simp at hx
    have key : (q []).map f = Draw.done (f v) [] ↔ q [] = Draw.done v [] := by
      constructor
      · intro h
        revert h
        cases hq : q [] with
        | more => intro h; cases h
        | ub => intro h; cases h
        | done a rest =>
          intro h
          simp only [Draw.map, Draw.done.injEq] at h
          rw [hinj [] a rest hnil hq h.1, h.2]
      · intro h; rw [h]; rfl
    simp only [key]
  | succ n ih =>
    simp only [cnt]
    apply sum_congr rfl
    intro d hd
    apply ih (fun xs => q ((E.min + (d : Int)) :: xs))
    intro xs a rest hxs h
    apply hinj _ _ _ _ h
    intro x hx
    rcases List.mem_cons.1 hx with rfl | hx
    · have := mem_range.1 hd
      unfold EngInfo.b at this
      omega
    · exact hxs x hx

end map

theorem castT_cases (T : IntTy) (hT : 1 ≤ T.bits) (v : Nat) (hv : v < 2 ^ T.bits) :
    (castT T v = v ∧ (T.signed = true → (v : Int) < 2 ^ (T.bits - 1))) ∨
    (T.signed = true ∧ (2 : Int) ^ (T.bits - 1) ≤ v ∧ castT T v = (v : Int) - 2 ^ T.bits) := by
  unfold castT toSigned
  have h1 := pow_cast (T.bits - 1)
  cases hs : T.signed
  · left; simp [Nat.mod_eq_of_lt hv]
  · simp only [if_true, Nat.mod_eq_of_lt hv]
    by_cases h : v < 2 ^ (T.bits - 1)
    · left; rw [if_pos h]; exact ⟨rfl, fun _ => by omega⟩
    · right; rw [if_neg h]; exact ⟨trivial, by omega, rfl⟩

namespace UniformInt

/-- the parameters for which the early return is harmless -/
def Good (E : EngInfo) (T : IntTy) (mn mx : Int) : Prop :=
  ¬ ExactPower E mn mx ∨ mn = 0 ∨ FullRange T mn mx

section
variable {E : EngInfo} {T : IntTy} {mn mx : Int} (hP : ParamOK T mn mx)
include hP

theorem size_le : (mx - mn).toNat + 1 ≤ 2 ^ T.bits := by
  have := inTy_diff hP.bits hP.min_ty hP.max_ty
  have := pow_cast T.bits
  have := hP.le
  omega

theorem two_pow_half : (2 : Int) ^ T.bits = 2 * 2 ^ (T.bits - 1) := by
  have := hP.bits
  conv => lhs; rw [show T.bits = (T.bits - 1) + 1 by omega]
  rw [pow_succ]; ring

theorem out_range (hg : Good E T mn mx) (v : Nat) (hv : v < (mx - mn).toNat + 1) :
    mn ≤ out E T mn mx v ∧ out E T mn mx v ≤ mx := by
  have hle := hP.le
  have hsz := size_le hP
  have h2 := two_pow_half hP
  have hpc := pow_cast T.bits
  have h3 := pow_cast (T.bits - 1)
  have hmn := hP.min_ty
  have hmx := hP.max_ty
  unfold out
  split
  · next hep =>
    rcases castT_cases T hP.bits v (by omega) with ⟨h, _⟩ | ⟨hs, h', h⟩
    · rw [h]
      rcases hg with hg | hg | hg
      · exact absurd hep hg
      · omega
      · unfold FullRange at hg
        unfold InTy InSigned at hmn hmx
        cases hs : T.signed
        · simp only [hs, Bool.false_eq_true, if_false] at hmn hmx; omega
        · simp only [hs, if_true] at hmn hmx
          rename_i hlt
          have := hlt hs
          omega
    · rw [h]
      unfold InTy InSigned at hmn hmx
      simp only [hs, if_true] at hmn hmx
      rcases hg with hg | hg | hg
      · exact absurd hep hg
      · omega
      · unfold FullRange at hg; omega
  · omega

theorem out_inj (v v' : Nat) (hv : v < (mx - mn).toNat + 1) (hv' : v' < (mx - mn).toNat + 1)
    (h : out E T mn mx v = out E T mn mx v') : v = v' := by
  have hle := hP.le
  have hsz := size_le hP
  have h2 := two_pow_half hP
  have hpc := pow_cast T.bits
  unfold out at h
  split at h
  · rcases castT_cases T hP.bits v (by omega) with ⟨g, g'⟩ | ⟨hs, g', g⟩ <;>
    rcases castT_cases T hP.bits v' (by omega) with ⟨k, k'⟩ | ⟨ks, k', k⟩ <;> rw [g, k] at h <;> omega
  · omega

theorem out_surj (hg : Good E T mn mx) (x : Int) (hx : mn ≤ x ∧ x ≤ mx) :
    ∃ v, v < (mx - mn).toNat + 1 ∧ out E T mn mx v = x := by
  have hle := hP.le
  have hsz := size_le hP
  have h2 := two_pow_half hP
  have hpc := pow_cast T.bits
  have hmn := hP.min_ty
  have hmx := hP.max_ty
  have h3 := pow_cast (T.bits - 1)
  by_cases hep : ExactPower E mn mx
  · have hout : ∀ v, out E T mn mx v = castT T v := by intro v; unfold out; rw [if_pos hep]
    rcases hg with hg | hg | hg
    · exact absurd hep hg
    · refine ⟨x.toNat, by omega, ?_⟩
      rw [hout]
      rcases castT_cases T hP.bits x.toNat (by omega) with ⟨g, g'⟩ | ⟨hs, g', g⟩
      · rw [g]; omega
      · exfalso
        unfold InTy InSigned at hmn hmx
        simp only [hs, if_true] at hmn hmx
        omega
    · unfold FullRange at hg
      have hneg : mn ≤ 0 := by
        unfold InTy InSigned at hmn hmx
        cases hs : T.signed
        · simp only [hs, Bool.false_eq_true, if_false] at hmn hmx; omega
        · simp only [hs, if_true] at hmn hmx; omega
      by_cases h0 : 0 ≤ x
      · refine ⟨x.toNat, by omega, ?_⟩
        rw [hout]
        rcases castT_cases T hP.bits x.toNat (by omega) with ⟨g, g'⟩ | ⟨hs, g', g⟩
        · rw [g]; omega
        · exfalso
          unfold InTy InSigned at hmn hmx
          simp only [hs, if_true] at hmn hmx
          omega
      · refine ⟨(x + 2 ^ T.bits).toNat, by omega, ?_⟩
        rw [hout]
        unfold InTy InSigned at hmn hmx
        rcases castT_cases T hP.bits (x + 2 ^ T.bits).toNat (by omega) with ⟨g, g'⟩ | ⟨hs, g', g⟩
        · exfalso
          cases hs : T.signed
          · simp only [hs, Bool.false_eq_true, if_false] at hmn hmx; omega
          · simp only [hs, if_true] at hmn hmx
            have := g' hs
            omega
        · rw [g]; omega
  · refine ⟨(x - mn).toNat, by omega, ?_⟩
    unfold out; rw [if_neg hep]; omega

end

theorem generate_eq_K {E : EngInfo} (hE : EngOK E) {T : IntTy} {mn mx : Int} (hP : ParamOK T mn mx)
    (xs : List Int) (hxs : Outputs E xs) :
    generate E T mn mx xs = (K E.b (dig E) ((mx - mn).toNat + 1) xs).map (out E T mn mx) :=
  generateAux_eq hE _ T mn mx xs hP hxs

theorem K_done_lt {E : EngInfo} (hE : EngOK E) {N : Nat} (hN : 0 < N) {xs rest : List Int} {v : Nat}
    (hxs : Outputs E xs) (h : K E.b (dig E) N xs = Draw.done v rest) : v < N ∧ rest <:+ xs :=
  ⟨((core_rest (EngInfo.b_ge hE) _ N xs (outputs_dig hE hxs) hN).1 _ _ h).2,
   ((core_rest (EngInfo.b_ge hE) _ N xs (outputs_dig hE hxs) hN).1 _ _ h).1⟩

theorem count_generate {E : EngInfo} (hE : EngOK E) {T : IntTy} {mn mx : Int} (hP : ParamOK T mn mx)
    (n v : Nat) (hv : v < (mx - mn).toNat + 1) :
    count E (generate E T mn mx) n (out E T mn mx v) = cnt E (K E.b (dig E) ((mx - mn).toNat + 1)) n v := by
  rw [count_eq_cnt, cnt_congr_outputs E hE.lt.le (fun xs hxs => generate_eq_K hE hP xs hxs)]
  apply cnt_map _ _ _ _ _ hE.lt.le
  intro xs a rest hxs h hf
  exact out_inj hP a v (K_done_lt hE (Nat.succ_pos _) hxs h).1 hv hf

/-- the digit loop can produce every value -/
theorem F_surj {E : EngInfo} (hE : EngOK E) (N : Nat) : ∀ (k m : Nat), 0 < m → N = m * E.b ^ (k + 1) → ∀ (r t : Nat),
    t < E.b ^ (k + 1) → ∃ xs, Outputs E xs ∧ F E.b (dig E) N r m xs = Draw.done (r + t * m) [] := by
  have hb2 := EngInfo.b_ge hE
  have hout : ∀ d, d < E.b → E.min ≤ E.min + (d : Int) ∧ E.min + (d : Int) ≤ E.max := by
    intro d hd; have := hE.lt; unfold EngInfo.b at hd; omega
  intro k
  induction k with
  | zero =>
    intro m hm hN r t ht
    rw [zero_add, pow_one] at *
    refine ⟨[E.min + (t : Int)], ?_, ?_⟩
    · intro x hx; simp at hx; subst hx; exact hout t ht
    · rw [F_cons_eq hN.symm, dig_min hE]
  | succ k ih =>
    intro m hm hN r t ht
    have hlt : m * E.b < N := by
      rw [hN, pow_succ, Nat.mul_comm (E.b ^ (k + 1)), ← Nat.mul_assoc]
      have h1 : 1 < E.b ^ (k + 1) := Nat.one_lt_pow (by omega) (by omega)
      have h2 : 0 < m * E.b := Nat.mul_pos hm (by omega)
      nlinarith
    obtain ⟨xs, h1, h2⟩ := ih (m * E.b) (Nat.mul_pos hm (by omega)) (by rw [hN, pow_succ _ (k + 1)]; ring)
      (r + t % E.b * m) (t / E.b) (by
        rw [Nat.div_lt_iff_lt_mul (by omega), ← pow_succ]; exact ht)
    refine ⟨(E.min + ((t % E.b : Nat) : Int)) :: xs, ?_, ?_⟩
    · intro x hx
      rcases List.mem_cons.1 hx with rfl | hx
      · exact hout _ (Nat.mod_lt _ (by omega))
      · exact h1 x hx
    · rw [F_cons_lt hlt, dig_min hE, h2]
      congr 1
      have := Nat.div_add_mod t E.b
      nlinarith

theorem K_surj_pow {E : EngInfo} (hE : EngOK E) (k : Nat) (hk : 2 ≤ k) (v : Nat) (hv : v < E.b ^ k) :
    ∃ xs, Outputs E xs ∧ K E.b (dig E) (E.b ^ k) xs = Draw.done v [] := by
  have hb2 := EngInfo.b_ge hE
  have hlt : E.b < E.b ^ k := by
    calc E.b < E.b ^ 2 := by rw [pow_two]; nlinarith
      _ ≤ E.b ^ k := Nat.pow_le_pow_right (by omega) hk
  obtain ⟨j, rfl⟩ : ∃ j, k = j + 1 := ⟨k - 1, by omega⟩
  obtain ⟨xs, h1, h2⟩ := F_surj hE (E.b ^ (j + 1)) j 1 (by omega) (by ring) 0 v hv
  refine ⟨xs, h1, ?_⟩
  rw [K_eq_F hb2 hlt xs (outputs_dig hE h1), h2]
  simp

/-- offset 0 is produced by minimal engine values -/
theorem K_zero {E : EngInfo} (hE : EngOK E) (N : Nat) (hN : 0 < N) :
    ∃ xs, Outputs E xs ∧ K E.b (dig E) N xs = Draw.done 0 [] := by
  have hb2 := EngInfo.b_ge hE
  have hmin : E.min ≤ E.min ∧ E.min ≤ E.max := ⟨le_refl _, hE.lt.le⟩
  have hd0 : dig E E.min = 0 := by unfold dig; simp
  have hnil : Outputs E [] := by intro x hx; simp at hx
  have hcons : ∀ xs, Outputs E xs → Outputs E (E.min :: xs) := by
    intro xs h x hx
    rcases List.mem_cons.1 hx with rfl | hx
    · exact hmin
    · exact h x hx
  have small : ∀ N, 0 < N → N ≤ E.b → ∃ xs, Outputs E xs ∧ K E.b (dig E) N xs = Draw.done 0 [] := by
    intro N hN hNb
    by_cases h1 : N = 1
    · subst h1; exact ⟨[], hnil, K_one []⟩
    by_cases h2 : N = E.b
    · subst h2; exact ⟨[E.min], hcons _ hnil, by rw [K_b_cons hb2, hd0]⟩
    · refine ⟨[E.min], hcons _ hnil, ?_⟩
      rw [K_bucket h1 (by omega)]
      unfold cBucket
      rw [hd0, Nat.zero_div, if_pos hN]
  rcases Nat.lt_or_ge E.b N with h | h
  · have key : ∀ (c m : Nat), 0 < m → m < N → N ≤ c + m → ∃ xs, Outputs E xs ∧ F E.b (dig E) N 0 m xs = Draw.done 0 [] := by
      intro c
      induction c with
      | zero => intro m _ h1 h2; omega
      | succ c ih =>
        intro m hm hmN hc
        rcases Nat.lt_trichotomy (m * E.b) N with h' | h' | h'
        · have : m + 1 ≤ m * E.b := by nlinarith
          obtain ⟨xs, g1, g2⟩ := ih (m * E.b) (by omega) h' (by omega)
          refine ⟨E.min :: xs, hcons _ g1, ?_⟩
          rw [F_cons_lt h', hd0]
          simpa using g2
        · exact ⟨[E.min], hcons _ hnil, by rw [F_cons_eq h', hd0]; simp⟩
        · have : (N - 1) / m < E.b := by
            rw [Nat.div_lt_iff_lt_mul hm, Nat.mul_comm]; omega
          obtain ⟨xs, g1, g2⟩ := small ((N - 1) / m + 1) (Nat.succ_pos _) (by omega)
          refine ⟨xs, g1, ?_⟩
          rw [F_gt h']
          unfold G
          rw [g2]
          simp [hN]
    obtain ⟨xs, g1, g2⟩ := key N 1 (by omega) (by omega) (by omega)
    exact ⟨xs, g1, by rw [K_eq_F hb2 h xs (outputs_dig hE g1), g2]⟩
  · exact small N hN h

theorem cnt_pos {α : Type} [DecidableEq α] {E : EngInfo} (q : List Int → Draw α) (xs : List Int) (hxs : Outputs E xs) (v : α)
    (h : q xs = Draw.done v []) : 0 < cnt E q xs.length v := by
  induction xs generalizing q with
  | nil => simp [cnt, h]
  | cons x xs ih =>
    have hx := hxs x (by simp)
    simp only [List.length_cons, cnt]
    have hm : dig E x ∈ range E.b := mem_range.2 (dig_lt hx)
    have he : E.min + (dig E x : Int) = x := by unfold dig; omega
    have := ih (fun xs => q ((E.min + (dig E x : Int)) :: xs)) (fun y hy => hxs y (by simp [hy])) (by simpa [he] using h)
    exact lt_of_lt_of_le this (single_le_sum (f := fun d : Nat => cnt E (fun xs => q ((E.min + (d : Int)) :: xs)) xs.length v)
      (fun _ _ => Nat.zero_le _) hm)

end UniformInt
end Boost.Random
