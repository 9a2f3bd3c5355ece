import Verif.Props.DistText

/-!
# C133 and C134: vectors in text, and comparison of the distributions
-/

namespace Boost.Random
open Spec DistText RealDist Discrete

variable {digits n : Nat} {F : Text}

/-! ## C133: vectors -/

/-- C133: with enough digits, a vector that is written is read back, and what follows it remains. -/
theorem c133_vectors (H : Faithful digits n F) (v : List ℚ) (hv : ∀ x ∈ v, Representable digits x) (rest : List Item) :
    readVector F.fl ⟨printVector F v ++ rest, true⟩ = (⟨rest, true⟩, v) := readVector_print F v (fun x hx => H.back (hv x hx)) rest

example (o : RealOps ℚ) : Faithful 53 17 (text53 o) ∧ ∀ x ∈ ([1, 3 / 2 ^ 1] : List ℚ), Representable 53 x := by
  refine ⟨(text53_faithful o).toFaithful, ?_⟩
  simp only [List.mem_cons, List.not_mem_nil, or_false, forall_eq_or_imp, forall_eq]
  exact ⟨by exact_mod_cast Representable.natCast (N := 1) (by norm_num), Representable.scaled (N := 3) (by norm_num) 1⟩

/-- C133: the texts that are accepted as a vector are exactly: a bracket, numbers, perhaps something that looks like a number but is none, and
a bracket. The elements are the numbers. -/
theorem c133_text (fl : ℚ → ℚ) (s : Str) (rest : List Item) (v : List ℚ) :
    readVector fl s = (⟨rest, true⟩, v) ↔ s.ok = true ∧ ∃ (nums : List ℚ) (tail : List Item), (tail = [] ∨ ∃ x, tail = [Item.bad x]) ∧
      s.rest = .open :: (nums.map Item.num ++ (tail ++ .close :: rest)) ∧ v = nums.map fl := by
  have loop : ∀ (l : List Item) (v : List ℚ), readNumbers fl l = (v, .close :: rest) ↔
      ∃ (nums : List ℚ) (tail : List Item), (tail = [] ∨ ∃ x, tail = [Item.bad x]) ∧ l = nums.map Item.num ++ (tail ++ .close :: rest) ∧ v = nums.map fl := by
    intro l
    induction l with
    | nil =>
      intro v
      simp [readNumbers]
    | cons a l ih =>
      intro v
      cases a with
      | num x =>
        simp only [readNumbers]
        constructor
        · intro h
          rw [Prod.mk.injEq] at h
          obtain ⟨nums, tail, h1, h2, h3⟩ := (ih (readNumbers fl l).1).1 (Prod.ext rfl h.2)
          exact ⟨x :: nums, tail, h1, by rw [h2]; rfl, by rw [← h.1, h3]; rfl⟩
        · rintro ⟨nums, tail, h1, h2, h3⟩
          cases nums with
          | nil =>
            rcases h1 with rfl | ⟨y, rfl⟩ <;> simp at h2
          | cons y nums =>
            simp only [List.map_cons, List.cons_append, List.cons.injEq, Item.num.injEq] at h2
            obtain ⟨rfl, h2⟩ := h2
            rw [(ih (nums.map fl)).2 ⟨nums, tail, h1, h2, rfl⟩, h3]
            rfl
      | bad x =>
        simp only [readNumbers, Prod.mk.injEq]
        constructor
        · rintro ⟨rfl, rfl⟩
          exact ⟨[], [.bad x], .inr ⟨x, rfl⟩, rfl, rfl⟩
        · rintro ⟨nums, tail, h1, h2, h3⟩
          cases nums with
          | nil =>
            rcases h1 with rfl | ⟨y, rfl⟩
            · simp at h2
            · simp only [List.map_nil, List.nil_append, List.cons_append, List.cons.injEq] at h2
              exact ⟨h3.symm, h2.2⟩
          | cons y nums => simp at h2
      | close =>
        simp only [readNumbers, Prod.mk.injEq, List.cons.injEq, true_and]
        constructor
        · rintro ⟨rfl, rfl⟩
          exact ⟨[], [], .inl rfl, rfl, rfl⟩
        · rintro ⟨nums, tail, h1, h2, h3⟩
          cases nums with
          | nil =>
            rcases h1 with rfl | ⟨y, rfl⟩
            · simp only [List.map_nil, List.nil_append, List.cons.injEq, true_and] at h2
              exact ⟨h3.symm, h2⟩
            · simp at h2
          | cons y nums => simp at h2
      | _ =>
        simp only [readNumbers, Prod.mk.injEq, List.cons.injEq, reduceCtorEq, false_and, and_false, false_iff]
        rintro ⟨nums, tail, h1, h2, h3⟩
        cases nums with
        | nil => rcases h1 with rfl | ⟨y, rfl⟩ <;> simp at h2
        | cons y nums => simp at h2
  obtain ⟨r, ok⟩ := s
  cases ok with
  | false => simp [readVector, Str.char]
  | true =>
    cases r with
    | nil => simp [readVector, Str.char]
    | cons a l =>
      by_cases ha : a = .open
      · subst ha
        simp only [readVector, Str.char, if_true, true_and, List.cons.injEq]
        rw [← loop l v]
        rcases hq : readNumbers fl l with ⟨v', r'⟩
        cases r' with
        | nil => simp
        | cons b r' =>
          by_cases hb : b = .close
          · subst hb
            simp [and_comm]
          · simp [hb]
      · simp [readVector, Str.char, ha]

example : readVector id ⟨[.open, .num 1, .num 2, .bad 7, .close, .junk], true⟩ = (⟨[.junk], true⟩, [1, 2]) := by decide +kernel

/-- C133 is false in so far as what is no number is not noticed if it is the last thing before the bracket: from `[1 1e999]` the vector of one
element is read, without failure. -/
theorem c133_unreadable_false (fl : ℚ → ℚ) (x : ℚ) (rest : List Item) :
    readVector fl ⟨.open :: .num 1 :: .bad x :: .close :: rest, true⟩ = (⟨rest, true⟩, [fl 1]) :=
  (c133_text fl _ rest _).2 ⟨rfl, [1], [.bad x], .inr ⟨x, rfl⟩, rfl, rfl⟩

/-- Rounding keeps the sign. -/
theorem Rounding.sign {fl : ℚ → ℚ} (R : Rounding digits fl) (hd : 1 ≤ digits) (x : ℚ) : (0 < x → 0 < fl x) ∧ (x < 0 → fl x < 0) := by
  constructor
  · intro h
    obtain ⟨k, hk⟩ := exists_pow_lt_of_lt_one h (show (1 / 2 : ℚ) < 1 by norm_num)
    have h1 := R.mono (1 / 2 ^ k) x (by rw [div_pow, one_pow] at hk; linarith)
    rw [R.exact _ (Representable.inv_two_pow hd k)] at h1
    have : (0 : ℚ) < 1 / 2 ^ k := by positivity
    linarith
  · intro h
    obtain ⟨k, hk⟩ := exists_pow_lt_of_lt_one (neg_pos.2 h) (show (1 / 2 : ℚ) < 1 by norm_num)
    obtain ⟨m, e, hm, he⟩ := Representable.inv_two_pow hd k
    have h1 := R.mono x (-(1 / 2 ^ k)) (by rw [div_pow, one_pow] at hk; linarith)
    rw [R.exact (-(1 / 2 ^ k)) ⟨-m, e, by rwa [abs_neg], by rw [he]; push_cast; ring⟩] at h1
    have : (0 : ℚ) < 1 / 2 ^ k := by positivity
    linarith

theorem readTwoVectors_print (v w : List ℚ) (hv : ∀ x ∈ v, F.fl (F.pr x) = x) (hw : ∀ x ∈ w, F.fl (F.pr x) = x) (p : List ℚ × List ℚ) (rest : List Item) :
    readTwoVectors F.fl ⟨printVector F v ++ printVector F w ++ rest, true⟩ p = (⟨rest, true⟩, (v, w)) := by
  unfold readTwoVectors
  rw [List.append_assoc, readVector_print F v hv]
  simp only
  rw [readVector_print F w hw]
  rfl

/-- C133: a piecewise linear distribution that is written is read back into any other: the boundaries and the weights, which are all that is
compared, are the same. -/
theorem c133_linear (H : Faithful digits n F) (ivs ws : List ℚ) (V : PlValid ivs ws) (hi : ∀ x ∈ ivs, Representable digits x)
    (hw : ∀ x ∈ ws, Representable digits x) (d : Pl) (h : Pl.ofRanges F.fl ivs ws = some d) (old : Pl) (rest : List Item) :
    ∃ t d', (piecewiseLinear F).write d = some t ∧ (piecewiseLinear F).read ⟨t ++ rest, true⟩ old = some (⟨rest, true⟩, d') ∧
      d'.intervals = ivs ∧ d'.weights = ws ∧ (piecewiseLinear F).eq d d' = true ∧ (F.fl = id → PlLaw ivs ws d') := by
  have R := Nearest.rounding H.near
  have sg := Rounding.sign R H.pos
  obtain ⟨e1, e2, _⟩ := c104_param F.fl ivs ws d V.two h
  obtain ⟨W, t, _, _, _, _, h4⟩ := V.init (fl := F.fl) (fun x hx => by
      rcases hx.eq_or_lt with rfl | hx
      · rw [R.exact 0 (Representable.zero _)]
      · exact ((sg x).1 hx).le)
    (fun x hx => (sg x).1 hx) (fun x hx => by
      rcases lt_or_gt_of_ne hx with h | h
      · exact ((sg x).2 h).ne
      · exact ((sg x).1 h).ne') old.bins
  have hd : d.intervals = ivs ∧ d.weights = ws := by
    have : ¬ d.intervals.length < 2 := by
      intro hlt
      have two := V.two
      unfold Pl.ofRanges at h
      rw [if_neg (by omega)] at h
      unfold Pl.init at h
      obtain ⟨w, _, h⟩ := Option.bind_eq_some_iff.1 h
      obtain ⟨t, _, rfl⟩ := Option.map_eq_some_iff.1 h
      exact absurd hlt (by simp only; omega)
    simp only [Pl.getParam, PlParam.ofRanges, if_neg this] at e1 e2
    exact ⟨e1, e2⟩
  refine ⟨_, ⟨t, ivs, ws⟩, rfl, ?_, rfl, rfl, ?_, fun hid => ?_⟩
  · rw [e1, e2]
    unfold piecewiseLinear
    dsimp only
    exact viaParam_ok (readTwoVectors_print ivs ws (fun x hx => H.back (hi x hx)) (fun x hx => H.back (hw x hx)) _ rest) h4
  · simp [piecewiseLinear, hd]
  · obtain ⟨d'', h5, h6⟩ := V.law old.bins
    rw [hid, h5] at h4
    rw [← Option.some.inj h4]
    exact h6

example (o : RealOps ℚ) : PlValid [0, 1, 3 / 2 ^ 1] [2, 0, 1] ∧ Faithful 53 17 (text53 o) :=
  ⟨⟨rfl, by simp, by simp, ⟨2, by simp, by norm_num⟩, by norm_num⟩, (text53_faithful o).toFaithful⟩

/-- Text and arithmetic are exact. -/
structure Exact (F : Text) : Prop where
  fl : F.fl = id
  pr : F.pr = id

theorem Exact.back (H : Exact F) (x : ℚ) : F.fl (F.pr x) = x := by rw [H.fl, H.pr]; rfl

theorem normalize_twice {ws : List ℚ} (hs : 0 < ws.sum) : realNormalize (realNormalize ws) = realNormalize ws := by
  conv_lhs => unfold realNormalize
  rw [show (ws.map (· / ws.sum)).sum = 1 from sum_normalize hs]
  simp [realNormalize]

theorem binsParam_twice (old : List (ℚ × Nat)) {ws : List ℚ} (hs : 0 < ws.sum) : binsParam old (realNormalize ws) = binsParam old ws := by
  unfold binsParam
  rw [normalize_twice hs]

/-- C133 (partial: exact text and arithmetic, and the object that is written has not had more weights before, see `c133_history_false`): a
discrete, a piecewise constant or a hyperexponential distribution that is written is read back into any other object as a distribution with
the same law: the probabilities are written, and the tables made from them hold them. -/
theorem c133_law_partial (H : Exact F) :
    (∀ ws : List ℚ, (∀ x ∈ ws, 0 ≤ x) → 0 < ws.sum → ∃ d, realInit [] ws = some d ∧ ∀ old rest, ∃ t d', (discrete F).write d = some t ∧
      (discrete F).read ⟨t ++ rest, true⟩ old = some (⟨rest, true⟩, d') ∧ HoldsReal ws d') ∧
    (∀ ivs ws : List ℚ, ivs.length = ws.length + 1 → (∀ x ∈ ws, 0 ≤ x) → 0 < ws.sum → ivs.Pairwise (· < ·) →
      ∃ d, Pc.ofRanges ivs ws = some d ∧ ∀ old rest, ∃ t d', (piecewiseConstant F).write d = some t ∧
        (piecewiseConstant F).read ⟨t ++ rest, true⟩ old = some (⟨rest, true⟩, d') ∧ d'.intervals = ivs ∧ PcLaw ivs ws d') ∧
    (∀ probs rates : List ℚ, Hyperexponential.Valid probs rates → ∃ d, Hyperexponential.Dist.make probs rates = some d ∧
      ∀ old rest, ∃ t d', (hyperexponential F).write d = some t ∧ (hyperexponential F).read ⟨t ++ rest, true⟩ old = some (⟨rest, true⟩, d') ∧
        d'.rates = rates ∧ Hyperexponential.Law probs rates d') := by
  refine ⟨fun ws h0 hs => ?_, fun ivs ws hl h0 hs hp => ?_, fun probs rates V => ?_⟩
  · obtain ⟨d, h1, h2, _, _⟩ := realProbabilities_spec [] ws h0 hs (by simp)
    refine ⟨d, h1, fun old rest => ?_⟩
    obtain ⟨t, h3, h4⟩ := binsParam_holds old ws h0 hs
    refine ⟨printVector F (realNormalize ws), t, by simp [discrete, h2], ?_, h4⟩
    unfold discrete
    dsimp only
    refine viaParam_ok (p := realNormalize ws) ?_ h3
    unfold readOneVector
    rw [readVector_print F _ fun x _ => H.back x]
    rfl
  · obtain ⟨b, h1, h2, _, _⟩ := realProbabilities_spec [] ws h0 hs (by simp)
    have hn : 0 < ws.length := by
      rcases ws with _ | ⟨a, l⟩
      · exact absurd hs (by simp)
      · simp
    refine ⟨⟨b, ivs⟩, by unfold Pc.ofRanges; rw [h1, Option.map_some, if_neg (by omega)], fun old rest => ?_⟩
    obtain ⟨t, h3, h4⟩ := binsParam_holds old.bins ws h0 hs
    refine ⟨printVector F ivs ++ printVector F (realNormalize ws), ⟨t, ivs⟩, ?_, ?_, rfl, fun k x => pc_law k (d := ⟨t, ivs⟩) hl hp h4 hs x⟩
    · simp only [piecewiseConstant, Pc.getParam, h2, Option.map_some, PcParam.ofRanges]
      rw [if_neg (by omega)]
    · unfold piecewiseConstant
      dsimp only
      refine viaParam_ok (readTwoVectors_print ivs (realNormalize ws) (fun x _ => H.back x) (fun x _ => H.back x) _ rest) ?_
      unfold Pc.setParam
      simp only
      rw [binsParam_twice _ hs, h3]
      rfl
  · obtain ⟨d, h1, h2, _⟩ := Hyperexponential.c106_param probs rates V
    have hs : (probs.map (· / probs.sum)).sum = 1 := sum_normalize V.pos
    have hne : probs ≠ [] := by
      rintro rfl
      exact absurd V.pos (by simp)
    have hn : 0 < probs.length := List.length_pos_iff.2 hne
    have hlen := V.len
    have hne' : rates ≠ [] := by
      rintro rfl
      simp at hlen
      exact hne hlen
    refine ⟨d, h1, fun old rest => ?_⟩
    obtain ⟨t, h3, h4⟩ := binsParam_holds old.dd probs V.nonneg V.pos
    refine ⟨printVector F (probs.map (· / probs.sum)) ++ printVector F rates, ⟨t, rates⟩, ?_, ?_, rfl, fun k x =>
      hyper_law k (d := ⟨t, rates⟩) V.len V.rate h4 V.pos x⟩
    · simp [hyperexponential, H.fl, h2]
    · unfold hyperexponential
      dsimp only
      refine viaParam_ok (p := ⟨probs.map (· / probs.sum), rates⟩) ?_ ?_
      · unfold readHyper
        rw [List.append_assoc, readVector_print F _ fun x _ => H.back x]
        simp only [if_true]
        rw [readVector_print F _ fun x _ => H.back x]
        simp only [if_true, hne', if_false, List.map_eq_nil_iff, hne, List.length_map, hlen, max_self]
        rw [show max 1 rates.length = rates.length by omega, Nat.sub_self, List.replicate_zero, List.append_nil, List.append_nil, H.fl,
          Hyperexponential.normalize_id _ (by rw [hs]; norm_num), hs]
        simp
      · unfold Hyperexponential.Dist.setParam
        simp only
        rw [show probs.map (· / probs.sum) = realNormalize probs from rfl, binsParam_twice _ V.pos, h3]
        rfl

example : Exact ⟨⟨id, id, id, id, fun a _ => a⟩, id, id⟩ ∧ Hyperexponential.Valid [1, 3] [2, 5] := ⟨⟨rfl, rfl⟩, ⟨rfl, by simp, by norm_num, by simp⟩⟩

/-- C133 is false for objects with a history: reading `[1]` into a discrete distribution that has had three weights leaves an entry of its table
that `==` compares and that `operator<<` follows out of the table. -/
theorem c133_history_false : ∀ F : Text, F.fl = id → ∃ old d', realInit [] [0, 0, 5] = some old ∧
    (discrete F).read ⟨[.open, .num 1, .close], true⟩ old = some (⟨[], true⟩, d') ∧ (discrete F).eq d' [(1, 0)] = false ∧
    (discrete F).read ⟨[.open, .num 1, .close], true⟩ [] = some (⟨[], true⟩, [(1, 0)]) ∧ (discrete F).write d' = none := by
  intro F hF
  refine ⟨[(0, 2), (0, 2), (1, 0)], [(1, 2)], by decide +kernel, ?_, by simp [discrete], ?_, ?_⟩
  · unfold discrete; dsimp only; rw [hF]; decide +kernel
  · unfold discrete; dsimp only; rw [hF]; decide +kernel
  · unfold discrete
    dsimp only
    rw [show realProbabilities [(1, 2)] = none by decide +kernel]
    rfl

/-- C133 is false for vectors that do not fit: `[0 1][1 1]` is accepted by `piecewise_constant_distribution`, which then reads outside its
boundaries if the second weight is drawn; `[][]` and `[0 1][1]` are undefined behaviour while `piecewise_linear_distribution` reads them; `[1][-1]`
is accepted by `hyperexponential_distribution`, whose `param()`, and so `operator<<`, then fails an assertion. -/
theorem c133_mismatch_false (F : Text) (hF : F.fl = id) :
    (∃ d, (piecewiseConstant F).read ⟨[.open, .num 0, .num 1, .close, .open, .num 1, .num 1, .close], true⟩ Pc.default = some (⟨[], true⟩, d) ∧
      realPick d.bins 1 0 = some 1 ∧ d.intervals[2]? = none) ∧
    (∀ old, (piecewiseLinear F).read ⟨[.open, .close, .open, .close], true⟩ old = none ∧
      (piecewiseLinear F).read ⟨[.open, .num 0, .num 1, .close, .open, .num 1, .close], true⟩ old = none) ∧
    (∃ d, (hyperexponential F).read ⟨[.open, .num 1, .close, .open, .num (-1), .close], true⟩ ⟨[(1, 0)], [1]⟩ = some (⟨[], true⟩, d) ∧
      d.rates = [-1] ∧ (hyperexponential F).write d = none) := by
  refine ⟨⟨⟨[(1, 0), (1, 0)], [0, 1]⟩, ?_, by decide +kernel, by decide⟩, fun old => ⟨?_, ?_⟩, ⟨⟨[(1, 0)], [-1]⟩, ?_, rfl, ?_⟩⟩
  · unfold piecewiseConstant; dsimp only; rw [hF]
    refine viaParam_ok (p := ([0, 1], [1, 1])) (by decide +kernel) ?_
    unfold Pc.setParam
    rw [show binsParam Pc.default.bins [1, 1] = some [(1, 0), (1, 0)] by decide +kernel]
    rfl
  · unfold piecewiseLinear; dsimp only; rw [hF]; rfl
  · unfold piecewiseLinear; dsimp only; rw [hF]; rfl
  · unfold hyperexponential; dsimp only; rw [hF]
    refine viaParam_ok (p := ⟨[1], [-1]⟩) (by decide +kernel) ?_
    unfold Hyperexponential.Dist.setParam
    rw [show binsParam [(1, 0)] [1] = some [(1, 0)] by decide +kernel]
    rfl
  · unfold hyperexponential; dsimp only; rw [hF]
    unfold Hyperexponential.Dist.getParam
    rw [show realProbabilities [(1, 0)] = some [1] by decide +kernel, Option.bind_some,
      show Hyperexponential.Param.make id [1] [-1] = none by decide +kernel]
    rfl

/-! ## C134: comparison -/

/-- C134: two distributions are equal exactly if all their members are, also those that are computed from the parameters. -/
theorem c134_compare (T : IntTy) (bits : Nat) :
    Compares (bernoulli F) (fun _ => True) ∧ Compares (cauchy F) (fun _ => True) ∧ Compares (exponential F) (fun _ => True) ∧
    Compares (normal F) (fun _ => True) ∧ Compares (lognormal F) (fun _ => True) ∧ Compares (smallint T) (fun _ => True) ∧
    Compares (beta F) (fun _ => True) ∧ Compares (extremeValue F) (fun _ => True) ∧ Compares (laplace F) (fun _ => True) ∧
    Compares (weibull F) (fun _ => True) ∧ Compares (nonCentral F) (fun _ => True) ∧ Compares (uniformReal F) (fun _ => True) ∧
    Compares (uniformInt T) (fun _ => True) ∧ Compares (gamma F) (fun d => ∃ a b, d = Gamma.init F.toRealOps a b) ∧
    Compares (chiSquared F) (fun d => ∃ k, d = Gamma.init F.toRealOps (F.fl (k / 2)) 1) ∧
    Compares (fisherF F) (fun d => ∃ k m, d = (Gamma.init F.toRealOps (F.fl (k / 2)) 1, Gamma.init F.toRealOps (F.fl (m / 2)) 1)) ∧
    Compares (studentT F) (fun d => ∃ k, d.2 = Gamma.init F.toRealOps (F.fl (k / 2)) 1) ∧
    Compares (poisson F) (fun d => ∃ m, d = Poisson.init F.toRealOps m) ∧
    Compares (binomial F bits) (fun d => ∃ t p, Binomial.init F.toRealOps bits t p = some d) ∧ Compares (negativeBinomial F T) (fun _ => True) ∧
    Compares (geometric F) (fun d => ∃ p, d = Geo.make F p) ∧ Compares (triangle F) (fun d => ∃ a b c, d = Triangle.init F.toRealOps a b c) ∧
    Compares (piecewiseConstant F) (fun _ => True) ∧ Compares (discrete F) (fun _ => True) ∧ Compares (hyperexponential F) (fun _ => True) := by
  have pair : ∀ {α β : Type} (d e : α × β), (d.1 = e.1 ∧ d.2 = e.2) ↔ d = e := fun d e => Prod.ext_iff.symm
  refine ⟨?_, ?_, ?_, ?_, ?_, ?_, ?_, ?_, ?_, ?_, ?_, ?_, ?_, ?_, ?_, ?_, ?_, ?_, ?_, ?_, ?_, ?_, ?_, ?_, ?_⟩
  · intro d e _ _; simp [DistText.bernoulli]
  · intro d e _ _; simp [cauchy, pair]
  · intro d e _ _; simp [exponential]
  · intro d e _ _; simp [normal, pair]
  · intro d e _ _; simp [lognormal, normal, pair]
  · intro d e _ _; simp [smallint, pair]
  · intro d e _ _; simp [beta, pair]
  · intro d e _ _; simp [extremeValue, pair]
  · intro d e _ _; simp [laplace, pair]
  · intro d e _ _; simp [weibull, pair]
  · intro d e _ _; simp [nonCentral, pair]
  · intro d e _ _; simp [DistText.uniformReal, pair]
  · intro d e _ _; simp [uniformInt, pair]
  · rintro _ _ ⟨a, b, rfl⟩ ⟨c, d, rfl⟩
    simp only [gamma, Gamma.init, decide_eq_true_eq, Gamma.Dist.mk.injEq]
    grind
  · rintro _ _ ⟨a, rfl⟩ ⟨c, rfl⟩
    simp only [chiSquared, gamma, Gamma.init, decide_eq_true_eq, Gamma.Dist.mk.injEq]
    grind
  · rintro _ _ ⟨a, b, rfl⟩ ⟨c, d, rfl⟩
    simp only [fisherF, chiSquared, gamma, Gamma.init, decide_eq_true_eq, Gamma.Dist.mk.injEq, Prod.mk.injEq]
    grind
  · rintro ⟨x, _⟩ ⟨y, _⟩ ⟨a, rfl⟩ ⟨c, rfl⟩
    simp only [studentT, normal, chiSquared, gamma, Gamma.init, decide_eq_true_eq, Gamma.Dist.mk.injEq, Prod.mk.injEq, pair]
    grind
  · rintro _ _ ⟨a, rfl⟩ ⟨c, rfl⟩
    simp only [poisson, Poisson.init, decide_eq_true_eq, Poisson.Dist.mk.injEq]
    constructor
    · rintro rfl; exact ⟨rfl, rfl⟩
    · exact fun h => h.1
  · rintro d e ⟨t, p, h⟩ ⟨t', p', h'⟩
    have key : ∀ {t p d}, Binomial.init F.toRealOps bits t p = some d → d.t = t ∧ d.p = p := by
      intro t p d hd
      unfold Binomial.init at hd
      split at hd
      · simp only at hd
        split at hd
        · cases hd
        · cases hd; exact ⟨rfl, rfl⟩
      · cases hd
    obtain ⟨h1, h2⟩ := key h
    obtain ⟨h3, h4⟩ := key h'
    simp only [binomial, decide_eq_true_eq, h1, h2, h3, h4]
    constructor
    · rintro ⟨rfl, rfl⟩
      exact Option.some.inj (h.symm.trans h')
    · rintro rfl
      exact ⟨h1.symm.trans h3, h2.symm.trans h4⟩
  · intro d e _ _; simp [negativeBinomial, pair]
  · rintro _ _ ⟨a, rfl⟩ ⟨c, rfl⟩
    simp only [geometric, Geo.make, decide_eq_true_eq, Geo.mk.injEq]
    grind
  · rintro _ _ ⟨a, b, c, rfl⟩ ⟨a', b', c', rfl⟩
    simp only [triangle, decide_eq_true_eq]
    constructor
    · rintro ⟨h1, h2, h3⟩
      simp only [Triangle.init] at h1 h2 h3
      rw [h1, h2, h3]
    · intro h; rw [h]; exact ⟨rfl, rfl, rfl⟩
  · rintro ⟨a, b⟩ ⟨c, d⟩ _ _; simp [piecewiseConstant]
  · intro d e _ _; simp [discrete]
  · rintro ⟨a, b⟩ ⟨c, d⟩ _ _; simp [hyperexponential]

example (F : Text) : (gamma F).eq (Gamma.init F.toRealOps 2 3) (Gamma.init F.toRealOps 2 3) = true ∧
    (gamma F).eq (Gamma.init F.toRealOps 2 3) (Gamma.init F.toRealOps 2 4) = false := by
  simp [gamma, Gamma.init]

/-- C134: piecewise linear distributions are equal exactly if their parameters are, and then, in exact arithmetic, they have the same law,
although their tables may differ. -/
theorem c134_linear (d e : Pl) : ((piecewiseLinear F).eq d e = true ↔ d.intervals = e.intervals ∧ d.weights = e.weights) ∧
    ∀ old old' ivs ws ivs' ws', PlValid ivs ws → PlValid ivs' ws' → Pl.init id old ivs ws = some d → Pl.init id old' ivs' ws' = some e →
      (piecewiseLinear F).eq d e = true → ∀ (k : Nat) (t : ℝ),
        chance (k + 4) (fun l => Spec.Run.Le (d.next idealMixed l) t) = chance (k + 4) (fun l => Spec.Run.Le (e.next idealMixed l) t) := by
  have hiff : (piecewiseLinear F).eq d e = true ↔ d.intervals = e.intervals ∧ d.weights = e.weights := by simp [piecewiseLinear]
  refine ⟨hiff, fun old old' ivs ws ivs' ws' V V' h h' heq k t => ?_⟩
  have key : ∀ {old ivs ws} {d : Pl}, Pl.init id old ivs ws = some d → d.intervals = ivs ∧ d.weights = ws := by
    intro old ivs ws d h
    unfold Pl.init at h
    obtain ⟨w, _, h⟩ := Option.bind_eq_some_iff.1 h
    obtain ⟨t, _, rfl⟩ := Option.map_eq_some_iff.1 h
    exact ⟨rfl, rfl⟩
  obtain ⟨h1, h2⟩ := hiff.1 heq
  rw [(key h).1, (key h').1] at h1
  rw [(key h).2, (key h').2] at h2
  subst h1 h2
  obtain ⟨x, a1, a2⟩ := V.law old
  obtain ⟨y, b1, b2⟩ := V.law old'
  obtain rfl := Option.some.inj (a1.symm.trans h)
  obtain rfl := Option.some.inj (b1.symm.trans h')
  rw [a2 k t, b2 k t]

/-- C134: reading a text never has undefined behaviour (partial: the distributions without vectors, except `binomial_distribution` and the
deprecated `geometric_distribution`, see `c134_total_false`). -/
theorem c134_total_partial (T : IntTy) :
    Total (bernoulli F) ∧ Total (cauchy F) ∧ Total (exponential F) ∧ Total (normal F) ∧ Total (lognormal F) ∧ Total (smallint T) ∧
    Total (beta F) ∧ Total (extremeValue F) ∧ Total (laplace F) ∧ Total (weibull F) ∧ Total (nonCentral F) ∧ Total (uniformReal F) ∧
    Total (uniformInt T) ∧ Total (gamma F) ∧ Total (chiSquared F) ∧ Total (fisherF F) ∧ Total (studentT F) ∧ Total (poisson F) ∧
    Total (negativeBinomial F T) ∧ Total (geometric F) ∧ Total (triangle F) ∧ Total (lognormalOld F) := by
  refine ⟨?_, ?_, ?_, ?_, ?_, ?_, ?_, ?_, ?_, ?_, ?_, ?_, ?_, ?_, ?_, ?_, ?_, ?_, ?_, ?_, ?_, ?_⟩
  · exact fun s d => ⟨_, rfl⟩
  · exact fun s d => ⟨_, rfl⟩
  · exact fun s d => ⟨_, rfl⟩
  · exact fun s d => ⟨_, rfl⟩
  · exact fun s d => ⟨_, rfl⟩
  · exact fun s d => ⟨_, rfl⟩
  · intro s d; unfold beta; dsimp only; exact viaParam_total (fun _ _ => ⟨_, rfl⟩) s d
  · intro s d; unfold extremeValue; dsimp only; exact viaParam_total (fun _ _ => ⟨_, rfl⟩) s d
  · intro s d; unfold laplace; dsimp only; exact viaParam_total (fun _ _ => ⟨_, rfl⟩) s d
  · intro s d; unfold weibull; dsimp only; exact viaParam_total (fun _ _ => ⟨_, rfl⟩) s d
  · intro s d; unfold nonCentral; dsimp only; exact viaParam_total (fun _ _ => ⟨_, rfl⟩) s d
  · intro s d; unfold DistText.uniformReal; dsimp only; exact viaParam_total (fun _ _ => ⟨_, rfl⟩) s d
  · intro s d; unfold uniformInt; dsimp only; exact viaParam_total (fun _ _ => ⟨_, rfl⟩) s d
  · intro s d; unfold gamma; dsimp only; exact viaParam_total (fun _ _ => ⟨_, rfl⟩) s d
  · intro s d; unfold chiSquared; dsimp only; exact viaParam_total (fun _ _ => ⟨_, rfl⟩) s d
  · intro s d; unfold fisherF; dsimp only; exact viaParam_total (fun _ _ => ⟨_, rfl⟩) s d
  · intro s d; unfold studentT; dsimp only; exact viaParam_total (fun _ _ => ⟨_, rfl⟩) s d
  · intro s d; unfold poisson; dsimp only; exact viaParam_total (fun _ _ => ⟨_, rfl⟩) s d
  · intro s d; unfold negativeBinomial; dsimp only; exact viaParam_total (fun _ _ => ⟨_, rfl⟩) s d
  · intro s d; unfold geometric; dsimp only; exact viaParam_total (fun _ _ => ⟨_, rfl⟩) s d
  · intro s d; unfold triangle; dsimp only; exact viaParam_total (fun _ _ => ⟨_, rfl⟩) s d
  · exact fun s d => ⟨_, rfl⟩

example (F : Text) : ∃ d, (poisson F).read ⟨[.num (-1), .junk], true⟩ d = some (⟨[.junk], true⟩, Poisson.init F.toRealOps (F.fl (-1))) :=
  ⟨Poisson.init F.toRealOps 1, rfl⟩

/-- C134 is false for `binomial_distribution`: reading the greatest value of `IntType` computes that value plus one. (For the deprecated
`geometric_distribution` see `c132_false`, for vectors `c133_mismatch_false`.) -/
theorem c134_total_false (F : Text) (bits : Nat) (old : Binomial.Dist ℚ) :
    (binomial F bits).read ⟨[.num (1 / 2), .num ((2 ^ (bits - 1) - 1 : Int) : ℚ)], true⟩ old = none := by
  unfold binomial
  dsimp only
  have hm : IntTy.maxv ⟨bits, true⟩ = 2 ^ (bits - 1) - 1 := by simp [IntTy.maxv]
  have hp : 1 ≤ 2 ^ (bits - 1) := Nat.one_le_two_pow
  have hf : Fits ⟨bits, true⟩ (2 ^ (bits - 1) - 1 : Int) := by
    unfold Fits
    rw [hm]
    simp only [if_true]
    push_cast [hp]
    constructor
    · have : (0 : Int) < 2 ^ (bits - 1) := by positivity
      omega
    · exact le_refl _
  refine viaParam_none (r := []) (p := (2 ^ (bits - 1) - 1, F.fl (1 / 2))) ?_ ?_
  · simp only [intParam, Str.real_num]
    rw [Str.int_num _ _ _ hf]
  · unfold Binomial.init
    rw [if_neg]
    unfold InSigned
    intro h
    omega

end Boost.Random
