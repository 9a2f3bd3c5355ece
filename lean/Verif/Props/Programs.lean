import Verif.Proofs.JointMean
import Verif.Props.Expected
import Verif.Props.ExpectedDiscrete
import Verif.Props.Promotion

/-!
# C161, C162: calls in turn are independent; `uniform_int`, `std::random_shuffle` and the example programs
-/

namespace Boost.Random
open Spec Finset Program Discrete

theorem prod_zipWith_const (p : Int → Int → ℚ) (ps : List (IntTy × Int × Int)) (vs : List Int) (h : vs.length = ps.length) :
    (List.zipWith (fun (f : Int → ℚ) v => f v) (ps.map fun x => fun _ => p x.2.1 x.2.2) vs).prod = (ps.map fun x => p x.2.1 x.2.2).prod := by
  induction ps generalizing vs with
  | nil => simp
  | cons x ps ih =>
    cases vs with
    | nil => simp at h
    | cons v vs => simp only [List.map_cons, List.zipWith_cons_cons, List.prod_cons]; rw [ih vs (by simpa using h)]

/-! ## C161 -/

/-- C161 (guard of C38 for each call): calls of `uniform_int_distribution` one after the other, with any types and ranges, that
share an ideal engine return every sequence of values in the ranges with the product of the probabilities of the values: they
are independent and uniform. And they return with probability one. -/
theorem c161_uniform_int_partial (E : EngInfo) (hE : EngOK E) (ps : List (IntTy × Int × Int))
    (hP : ∀ x ∈ ps, ParamOK x.1 x.2.1 x.2.2 ∧ (¬ ExactPower E x.2.1 x.2.2 ∨ x.2.1 = 0 ∨ FullRange x.1 x.2.1 x.2.2)) :
    (∀ vs : List Int, List.Forall₂ (fun v x => x.2.1 ≤ v ∧ v ≤ x.2.2) vs ps →
      Tends (fun n => returned E (inTurn (ps.map fun x => UniformInt.generate E x.1 x.2.1 x.2.2)) n vs)
        (ps.map fun x => 1 / ((x.2.2 : ℚ) - x.2.1 + 1)).prod) ∧
    Tends (stillRunning E (inTurn (ps.map fun x => UniformInt.generate E x.1 x.2.1 x.2.2))) 0 := by
  have h := inTurn_law hE.lt.le (ps.map fun x => (UniformInt.generate E x.1 x.2.1 x.2.2, Finset.Icc x.2.1 x.2.2,
      fun _ : Int => 1 / ((x.2.2 : ℚ) - x.2.1 + 1))) (by
    intro y hy
    obtain ⟨x, hx, rfl⟩ := List.mem_map.1 hy
    obtain ⟨h1, h2⟩ := hP x hx
    have hc := card_Icc_int x.2.1 x.2.2 h1.le
    have hpos : (0 : ℚ) < (x.2.2 : ℚ) - x.2.1 + 1 := by
      rw [← hc]; exact_mod_cast Finset.card_pos.2 ⟨x.2.1, Finset.mem_Icc.2 ⟨le_rfl, h1.le⟩⟩
    refine ⟨UniformInt.generate_local hE h1, fun v hv => ⟨AtLeast.of_tends ?_, by positivity⟩, ?_⟩
    · exact (c153_law_partial E hE x.1 x.2.1 x.2.2 h1 h2 v).1 (Finset.mem_Icc.1 hv)
    · rw [sum_const, nsmul_eq_mul, hc]
      field_simp)
  simp only [List.map_map, Function.comp_def] at h
  refine ⟨fun vs hvs => ?_, h.2⟩
  have := h.1 vs (by
    rw [List.forall₂_map_right_iff]
    exact hvs.imp fun v x hv => Finset.mem_Icc.2 hv)
  rwa [prod_zipWith_const (fun a b => 1 / ((b : ℚ) - a + 1)) ps vs hvs.length_eq] at this

example : ∀ x ∈ ([(⟨32, true⟩, 0, 3), (⟨8, false⟩, 0, 9)] : List (IntTy × Int × Int)),
    ParamOK x.1 x.2.1 x.2.2 ∧ (¬ ExactPower die x.2.1 x.2.2 ∨ x.2.1 = 0 ∨ FullRange x.1 x.2.1 x.2.2) := by
  intro x hx
  simp only [List.mem_cons, List.not_mem_nil, or_false] at hx
  rcases hx with rfl | rfl
  · exact ⟨⟨by decide, by decide, by decide, by decide⟩, Or.inr (Or.inl rfl)⟩
  · exact ⟨⟨by decide, by decide, by decide, by decide⟩, Or.inr (Or.inl rfl)⟩

/-- Two numbers of 0..3 from a die: each pair has probability 1/16, of which 1/36 after two rolls and 1/18 after four. -/
example : inTurn [UniformInt.generate die ⟨32, true⟩ 0 3, UniformInt.generate die ⟨32, true⟩ 0 3] [6, 2, 5, 4, 1] = Draw.done [1, 3] [1] := by
  decide
#guard returned die (inTurn [UniformInt.generate die ⟨32, true⟩ 0 3, UniformInt.generate die ⟨32, true⟩ 0 3]) 2 [1, 3] = 1 / 36
#guard returned die (inTurn [UniformInt.generate die ⟨32, true⟩ 0 3, UniformInt.generate die ⟨32, true⟩ 0 3]) 4 [1, 3] = 1 / 18

/-- C161: calls in turn use on average at most the sum of what each may use on average (C152), for all types and ranges. -/
theorem c161_mean (E : EngInfo) (hE : EngOK E) (ps : List (IntTy × Int × Int)) (hP : ∀ x ∈ ps, ParamOK x.1 x.2.1 x.2.2) (n : Nat) :
    meanUsed E (inTurn (ps.map fun x => UniformInt.generate E x.1 x.2.1 x.2.2)) n ≤
      (ps.map fun x => (2 * (Nat.log (engValues E) (x.2.2 - x.2.1).toNat + 2 : Nat) : ℚ)).sum := by
  have h := mu_inTurn hE.lt.le (ps.map fun x => (UniformInt.generate E x.1 x.2.1 x.2.2,
      (2 * (Nat.log (engValues E) (x.2.2 - x.2.1).toNat + 2 : Nat) : ℚ))) (by
    intro y hy
    obtain ⟨x, hx, rfl⟩ := List.mem_map.1 hy
    refine ⟨UniformInt.generate_local hE (hP x hx), by positivity, fun n => ?_⟩
    rw [← meanUsed_eq]
    exact c152_mean E hE x.1 x.2.1 x.2.2 (hP x hx) n) n
  rw [meanUsed_eq]
  simpa only [List.map_map, Function.comp_def] using h

#guard meanUsed die (inTurn [UniformInt.generate die ⟨32, true⟩ 0 3, UniformInt.generate die ⟨32, true⟩ 0 3]) 4 ≤ 3

/-- C161: calls of one `discrete_distribution` return every sequence with the product of the probabilities of its values. -/
theorem c161_discrete (E : EngInfo) (hE : EngOK E) (WT T : IntTy) (hWb : 1 ≤ WT.bits) (hTb : 1 ≤ T.bits) (old : IntAlias) (ws : List Nat)
    (hT : ws.length ≤ T.maxv) (hW : ∀ x ∈ ws, x ≤ WT.maxv) (hs : 0 < ws.sum) (k : Nat) :
    ∃ d, IntAlias.init WT T old ws = some d ∧
      (∀ vs : List Nat, vs.length = k → (∀ v ∈ vs, v < ws.length) →
        Tends (fun n => returned E (inTurn (List.replicate k (IntAlias.next E WT T d))) n vs)
          (vs.map fun v => (weightOf ws v : ℚ) / ws.sum).prod) ∧
      Tends (stillRunning E (inTurn (List.replicate k (IntAlias.next E WT T d)))) 0 := by
  have hne : ws ≠ [] := by rintro rfl; simp at hs
  obtain ⟨d, h1, H, _⟩ := Discrete.init_spec WT T old ws hne hT hW
  obtain ⟨d', h1', hlaw⟩ := c154_law E hE WT T hWb hTb old ws hT hW hs
  rw [h1] at h1'
  cases h1'
  refine ⟨d, h1, ?_⟩
  have hsq : (0 : ℚ) < ws.sum := by exact_mod_cast hs
  have h3 : ∀ l : List Nat, l.sum = ∑ v ∈ range l.length, l.getD v 0 := by
    intro l
    induction l with
    | nil => rfl
    | cons x l ih => rw [List.sum_cons, List.length_cons, sum_range_succ', ih, Nat.add_comm]; rfl
  have h4 : (∑ v ∈ range ws.length, (weightOf ws v : ℚ)) = ws.sum := by
    rw [h3 ws]; push_cast; rfl
  have h := inTurn_law hE.lt.le (List.replicate k (IntAlias.next E WT T d, range ws.length, fun v : Nat => (weightOf ws v : ℚ) / ws.sum)) (by
    intro y hy
    obtain ⟨_, rfl⟩ := List.mem_replicate.1 hy
    refine ⟨Discrete.next_local hE hWb hTb H hT hs, fun v _ => ⟨AtLeast.of_tends (hlaw v), by positivity⟩, ?_⟩
    rw [← sum_div, h4, div_self hsq.ne'])
  simp only [List.map_replicate] at h
  refine ⟨fun vs hl hv => ?_, h.2⟩
  have := h.1 vs (by
    subst hl
    clear h
    induction vs with
    | nil => exact List.Forall₂.nil
    | cons v vs ih =>
      exact List.Forall₂.cons (mem_range.2 (hv v (by simp))) (ih fun w hw => hv w (by simp [hw])))
  have e : ∀ (k : Nat) (vs : List Nat), vs.length = k →
      List.zipWith (fun (p : Nat → ℚ) v => p v) (List.replicate k fun v : Nat => (weightOf ws v : ℚ) / ws.sum) vs =
        vs.map fun v => (weightOf ws v : ℚ) / ws.sum := by
    intro k vs hk
    subst hk
    clear * -
    induction vs with
    | nil => rfl
    | cons v vs ih => simp only [List.length_cons, List.replicate_succ, List.zipWith_cons_cons, List.map_cons, ih]
  rwa [e k vs hl] at this

example : ([3, 0, 1] : List Nat).length ≤ (⟨32, true⟩ : IntTy).maxv ∧ 0 < ([3, 0, 1] : List Nat).sum := by decide

/-! ## C162 -/

/-- C162 (guard of C38): `uniform_int::operator()(eng)` returns each value of its range with the same probability, and
`operator()(eng, parm)` each value of that of `parm`. -/
theorem c162_law_partial (E : EngInfo) (hE : EngOK E) (T : IntTy) (d p : UniformIntOld.Dist) :
    (ParamOK T d.mn d.mx → (¬ ExactPower E d.mn d.mx ∨ d.mn = 0 ∨ FullRange T d.mn d.mx) → ∀ v : Int, d.mn ≤ v ∧ v ≤ d.mx →
      Tends (fun n => returned E (UniformIntOld.next E T d) n v) (1 / ((d.mx : ℚ) - d.mn + 1))) ∧
    (ParamOK T p.mn p.mx → (¬ ExactPower E p.mn p.mx ∨ p.mn = 0 ∨ FullRange T p.mn p.mx) → ∀ v : Int, p.mn ≤ v ∧ v ≤ p.mx →
      Tends (fun n => returned E (UniformIntOld.nextParam E T d p) n v) (1 / ((p.mx : ℚ) - p.mn + 1))) :=
  ⟨fun h g v => (c153_law_partial E hE T d.mn d.mx h g v).1, fun h g v => (c153_law_partial E hE T p.mn p.mx h g v).1⟩

example : UniformIntOld.nextParam die ⟨32, true⟩ ⟨0, 10⟩ ⟨0, 3⟩ [6, 3] = Draw.done 2 [] ∧ ParamOK ⟨32, true⟩ 0 3 :=
  ⟨by decide, by decide, by decide, by decide, by decide⟩

/-- C162: `uniform_int::operator()(eng, n)` is `random_number_generator::operator()(n)`, whatever the parameters of the
`uniform_int` are: the same value from the same engine values. -/
theorem c162_below (E : EngInfo) (T : IntTy) (d : UniformIntOld.Dist) (n : Int) :
    UniformIntOld.nextBelow E T d n = randomNumberGenerator E T n := by
  funext xs
  unfold UniformIntOld.nextBelow randomNumberGenerator UniformIntOld.nextParam
  rfl

/-- C162: so it is in `[0, n)`, each value with probability `1 / n`. -/
theorem c162_below_law (E : EngInfo) (hE : EngOK E) (T : IntTy) (hT : 1 ≤ T.bits) (d : UniformIntOld.Dist) (n : Int) (hn : 0 < n)
    (hnT : InTy T n) :
    (∀ xs, Outputs E xs → UniformIntOld.nextBelow E T d n xs ≠ Draw.ub ∧
      ∀ v rest, UniformIntOld.nextBelow E T d n xs = Draw.done v rest → 0 ≤ v ∧ v < n) ∧
    ∀ v : Int, 0 ≤ v ∧ v < n → Tends (fun j => returned E (UniformIntOld.nextBelow E T d n) j v) (1 / (n : ℚ)) := by
  rw [c162_below]
  refine ⟨fun xs hxs => ?_, fun v hv => c153_rng E hE T hT n hn hnT v hv⟩
  obtain ⟨hP, he⟩ := rng_eq E T hT n hn hnT
  rw [he]
  refine ⟨(c38_no_ub E hE T 0 (n - 1) hP xs hxs).1, fun v rest h => ?_⟩
  have := c38_range_partial E hE T 0 (n - 1) hP (Or.inr (Or.inl rfl)) xs hxs v rest h
  omega

example : UniformIntOld.nextBelow die ⟨32, true⟩ ⟨0, 10⟩ 4 [6, 5, 3, 1] = Draw.done 2 [1] := by decide
example : InTy ⟨32, true⟩ 4 := by decide

theorem inTy_le {T : IntTy} {m : Nat} (hm : InTy T m) {i : Nat} (hi : i ≤ m) : InTy T (i : Int) := by
  unfold InTy InSigned at *
  have : (0 : Int) < 2 ^ (T.bits - 1) := by positivity
  have : (0 : Int) < 2 ^ T.bits := by positivity
  split at hm <;> rename_i h <;> simp only [h] <;> simp only [if_true, if_false, Bool.false_eq_true] <;> omega

/-- C162: `std::random_shuffle` with a `random_number_generator` makes each of the `n!` orders of `n` different elements equally
likely, and ends with probability one, if the number of elements fits in `IntType`. -/
theorem c162_shuffle {α : Type} [DecidableEq α] (E : EngInfo) (hE : EngOK E) (T : IntTy) (hT : 1 ≤ T.bits) (a : List α) (ha : a.Nodup)
    (hn : InTy T a.length) :
    (∀ b : List α, b.Perm a → Tends (fun n => returned E (shuffle (randomNumberGenerator E T) a) n b) (1 / (a.length.factorial : ℚ))) ∧
    Tends (stillRunning E (shuffle (randomNumberGenerator E T) a)) 0 := by
  apply shuffle_law hE.lt.le _ a ha
  intro i hi
  have h1 : InTy T ((i : Int) + 2) := by
    have := inTy_le (i := i + 2) hn (by omega)
    push_cast at this
    exact this
  obtain ⟨hP, he⟩ := rng_eq E T hT ((i : Int) + 2) (by omega) h1
  constructor
  · rw [he]
    exact UniformInt.generate_local hE hP
  · intro j hj
    have := AtLeast.of_tends (c153_rng E hE T hT ((i : Int) + 2) (by omega) h1 (j : Int) ⟨by omega, by omega⟩)
    rw [show (1 : ℚ) / ((i + 2 : Nat) : ℚ) = 1 / (((i : Int) + 2 : Int) : ℚ) by push_cast; rfl]
    exact this

example : shuffle (randomNumberGenerator die ⟨64, true⟩) ['a', 'b', 'c'] [1, 5, 2] = Draw.done ['b', 'a', 'c'] [2] := by decide
example : (['a', 'b', 'c'] : List Char).Nodup ∧ InTy ⟨64, true⟩ ((['a', 'b', 'c'] : List Char).length) := by decide
#guard returned die (shuffle (randomNumberGenerator die ⟨64, true⟩) ['a', 'b', 'c']) 2 ['b', 'c', 'a'] = 1 / 6

/-- C162: whatever the engine returns, the result of the shuffle is a permutation of the elements, and nothing is undefined. -/
theorem c162_permutation {α : Type} (E : EngInfo) (hE : EngOK E) (T : IntTy) (hT : 1 ≤ T.bits) (a : List α) (hn : InTy T a.length)
    (xs : List Int) (hxs : Outputs E xs) :
    shuffle (randomNumberGenerator E T) a xs ≠ Draw.ub ∧
    ∀ b rest, shuffle (randomNumberGenerator E T) a xs = Draw.done b rest → b.Perm a ∧ rest <:+ xs := by
  refine shuffleTo_perm (E := E) _ a _ (by omega) (fun i hi ys hys => ?_) xs hxs
  have h1 : InTy T ((i : Int) + 2) := by
    have := inTy_le (i := i + 2) hn (by omega)
    push_cast at this
    exact this
  obtain ⟨hP, he⟩ := rng_eq E T hT ((i : Int) + 2) (by omega) h1
  rw [he]
  obtain ⟨g1, g2⟩ := c38_no_ub E hE T 0 _ hP ys hys
  refine ⟨g1, fun j rest h => ⟨?_, g2 j rest h⟩⟩
  have := c38_range_partial E hE T 0 _ hP (Or.inr (Or.inl rfl)) ys hys j rest h
  omega

example : shuffle (randomNumberGenerator die ⟨64, true⟩) [7, 7, 8] [2, 6, 4] = Draw.done [7, 7, 8] [4] := by decide

/-- C162: the shuffle of `n` elements uses on average at most `2 (n - 1)` engine values if the engine has at least `n` values. -/
theorem c162_shuffle_mean {α : Type} [DecidableEq α] (E : EngInfo) (hE : EngOK E) (T : IntTy) (hT : 1 ≤ T.bits) (a : List α)
    (hn : InTy T a.length) (he : a.length ≤ engValues E) (n : Nat) :
    meanUsed E (shuffle (randomNumberGenerator E T) a) n ≤ 2 * (a.length - 1 : Nat) := by
  rw [meanUsed_eq]
  have h0 : ∀ i, i < a.length - 1 → InTy T ((i : Int) + 2) := fun i hi => by
    have := inTy_le (i := i + 2) hn (by omega)
    push_cast at this
    exact this
  have := mu_shuffleTo hE.lt.le (randomNumberGenerator E T) a (a.length - 1) (by omega) (fun _ => 2) (fun i hi => by
      obtain ⟨hP, he'⟩ := rng_eq E T hT ((i : Int) + 2) (by omega) (h0 i hi)
      rw [he']
      refine ⟨UniformInt.generate_local hE hP, by norm_num, fun m => ?_⟩
      rw [← meanUsed_eq]
      refine c152_small E hE T 0 _ hP ?_ m
      have := hE.lt
      unfold engValues at he
      omega) (fun i hi ys hys => by
      obtain ⟨hP, he'⟩ := rng_eq E T hT ((i : Int) + 2) (by omega) (h0 i hi)
      rw [he']
      obtain ⟨g1, g2⟩ := c38_no_ub E hE T 0 _ hP ys hys
      refine ⟨g1, fun j rest h => ⟨?_, g2 j rest h⟩⟩
      have := c38_range_partial E hE T 0 _ hP (Or.inr (Or.inl rfl)) ys hys j rest h
      omega) n
  rw [sum_const, card_range, nsmul_eq_mul, mul_comm] at this
  exact this

example : (['a', 'b', 'c'] : List Char).length ≤ engValues die := by decide
#guard meanUsed die (shuffle (randomNumberGenerator die ⟨64, true⟩) ['a', 'b', 'c', 'd']) 4 ≤ 6

/-- C162: what test_old_uniform_int_distribution.cpp tests for one engine, seed and vector: the shuffles with
`random_number_generator<Engine, long>` and with a `uniform_int<int>` in a `variate_generator`, or with other types, are the same. -/
theorem c162_same {α : Type} (E : EngInfo) (hE : EngOK E) (T T' : IntTy) (hT : 1 ≤ T.bits) (hT' : 1 ≤ T'.bits) (d : UniformIntOld.Dist)
    (a : List α) (hn : InTy T a.length) (hn' : InTy T' a.length) (xs : List Int) (hxs : Outputs E xs) :
    shuffle (UniformIntOld.nextBelow E T d) a xs = shuffle (randomNumberGenerator E T') a xs ∧
    ∀ b rest, shuffle (randomNumberGenerator E T') a xs = Draw.done b rest → rest <:+ xs := by
  have key : ∀ k, k < a.length ∨ k = 0 →
      shuffleTo (UniformIntOld.nextBelow E T d) a k xs = shuffleTo (randomNumberGenerator E T') a k xs ∧
      ∀ b rest, shuffleTo (randomNumberGenerator E T') a k xs = Draw.done b rest → rest <:+ xs := by
    intro k
    induction k with
    | zero => intro _; exact ⟨rfl, fun b rest h => by cases h; exact List.suffix_refl _⟩
    | succ k ih =>
      intro hk
      obtain ⟨i1, i2⟩ := ih (by omega)
      simp only [shuffleTo]
      rw [i1]
      cases hq : shuffleTo (randomNumberGenerator E T') a k xs with
      | more => exact ⟨rfl, fun _ _ h => by cases h⟩
      | ub => exact ⟨rfl, fun _ _ h => by cases h⟩
      | done b rest =>
        have hsuf := i2 b rest hq
        have hO : Outputs E rest := fun x hx => hxs x (hsuf.subset hx)
        have g1 : InTy T ((k : Int) + 2) := by
          have := inTy_le (i := k + 2) hn (by omega)
          push_cast at this
          exact this
        have g2 : InTy T' ((k : Int) + 2) := by
          have := inTy_le (i := k + 2) hn' (by omega)
          push_cast at this
          exact this
        simp only [Draw.bind]
        rw [c162_below, c151_rng E E hE hE ⟨rfl, rfl⟩ T T' hT hT' _ (by omega) g1 g2 rest hO]
        refine ⟨rfl, fun c rest' h => ?_⟩
        obtain ⟨hP, he⟩ := rng_eq E T' hT' ((k : Int) + 2) (by omega) g2
        rw [he] at h
        cases hq2 : UniformInt.generate E T' 0 ((k : Int) + 2 - 1) rest with
        | more => rw [hq2] at h; cases h
        | ub => rw [hq2] at h; cases h
        | done j rest2 =>
          rw [hq2] at h
          have hs2 := (c38_no_ub E hE T' 0 _ hP rest hO).2 j rest2 hq2
          dsimp only at h
          have : rest' = rest2 := by
            split at h
            · cases h
            · split at h
              · cases h
              · cases h; rfl
          rw [this]
          exact hs2.trans hsuf
  exact key _ (by omega)

example : EngOK die ∧ InTy ⟨32, true⟩ ([7, 8, 9] : List Nat).length ∧ InTy ⟨64, true⟩ ([7, 8, 9] : List Nat).length := ⟨die_ok, by decide, by decide⟩

/-- C162: example/password.cpp writes every sequence of 8 of its 95 characters with probability `1 / 95^8`. -/
theorem c162_password (E : EngInfo) (hE : EngOK E) :
    (∀ w : List Char, w.length = 8 → (∀ c ∈ w, c ∈ chars) → Tends (fun n => returned E (password E) n w) (1 / 95 ^ 8)) ∧
    Tends (stillRunning E (password E)) 0 := by
  have hP : ParamOK ⟨32, true⟩ 0 94 := ⟨by decide, by decide, by decide, by decide⟩
  have hlen : chars.length = 95 := by decide +kernel
  have hnd : chars.Nodup := by decide +kernel
  have hloc : LocalOn E (passwordChar E) := by
    unfold passwordChar
    rw [hlen]
    refine LocalOn.bind (UniformInt.generate_local hE hP) fun i => ?_
    by_cases h : i < 0
    · simp only [if_pos h]
      intro xs u rest _ h1
      cases h1
    · simp only [if_neg h]
      cases chars[i.toNat]? with
      | none => intro xs u rest _ h1; cases h1
      | some c => exact LocalOn.done _
  have hat : ∀ c ∈ chars.toFinset, AtLeast E (passwordChar E) c (1 / 95) := by
    intro c hc
    rw [List.mem_toFinset] at hc
    obtain ⟨i, hi, hic⟩ := List.getElem_of_mem hc
    rw [hlen] at hi
    have h1 := AtLeast.of_tends ((c153_law_partial E hE ⟨32, true⟩ 0 94 hP (Or.inr (Or.inl rfl)) (i : Int)).1 (by omega))
    rw [show (1 : ℚ) / (((94 : Int) : ℚ) - ((0 : Int) : ℚ) + 1) = 1 / 95 by norm_num] at h1
    have e : (fun rest : List Int => if (i : Int) < 0 then Draw.ub else
        match chars[(i : Int).toNat]? with
        | none => Draw.ub
        | some c => Draw.done c rest) = fun rest => Draw.done c rest := by
      funext rest
      rw [if_neg (by omega), Int.toNat_natCast, List.getElem?_eq_getElem (by omega), hic]
    have h2 := AtLeast.bind (f := fun (i : Int) (rest : List Int) => if i < 0 then Draw.ub else
        match chars[i.toNat]? with
        | none => Draw.ub
        | some c => Draw.done c rest) (u := (i : Int)) (v := c) (r := 1) hE.lt.le (UniformInt.generate_local hE hP)
        (by rw [e]; exact LocalOn.done _) h1 (by rw [e]; exact AtLeast.done) (by norm_num) zero_le_one
    rw [mul_one] at h2
    unfold passwordChar
    rw [hlen]
    exact h2
  have h := inTurn_law hE.lt.le (List.replicate 8 (passwordChar E, chars.toFinset, fun _ : Char => (1 : ℚ) / 95)) (by
    intro y hy
    obtain ⟨_, rfl⟩ := List.mem_replicate.1 hy
    refine ⟨hloc, fun v hv => ⟨hat v hv, by norm_num⟩, ?_⟩
    rw [sum_const, List.toFinset_card_of_nodup hnd, hlen]
    norm_num)
  simp only [List.map_replicate] at h
  refine ⟨fun w hl hw => ?_, h.2⟩
  have := h.1 w (by
    rw [← hl]
    clear * - hw
    induction w with
    | nil => exact List.Forall₂.nil
    | cons v vs ih =>
      exact List.Forall₂.cons (List.mem_toFinset.2 (hw v (by simp))) (ih fun w' hw' => hw w' (by simp [hw'])))
  have e : (List.zipWith (fun (p : Char → ℚ) v => p v) (List.replicate 8 fun _ : Char => (1 : ℚ) / 95) w).prod = 1 / 95 ^ 8 := by
    rw [← hl]
    clear * -
    induction w with
    | nil => simp
    | cons v vs ih =>
      simp only [List.length_cons, List.replicate_succ, List.zipWith_cons_cons, List.prod_cons, ih, pow_succ']
      rw [div_mul_div_comm, one_mul]
  rw [e] at this
  exact this

/-- Two of the engine's values are rejected. -/
example : password ⟨⟨32, false⟩, 0, 4294967295⟩ [0, 1000000000, 4294967295, 45210178, 2147483648, 4294967290, 3000000000, 4, 5, 6, 7] =
    Draw.done ['a', 'w', 'a', 'V', '%', 'a', 'a', 'a'] [7] := by decide +kernel
example : EngOK ⟨⟨32, false⟩, 0, 4294967295⟩ := ⟨by decide, by decide, by decide, by decide⟩

end Boost.Random
