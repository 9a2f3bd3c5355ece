import Verif.Proofs.DistText
import Verif.Props.Mixture

/-!
# C130 – C134: text representation and comparison of the distributions
-/

namespace Boost.Random
open Spec DistText

/-! ## C130: text round trip -/

/-- The text has enough digits for `RealType`, of `digits` bits, and is rounded to nearest when it is read. -/
structure Faithful (digits n : Nat) (F : Text) : Prop where
  pos : 1 ≤ digits
  near : Nearest digits F.fl
  prints : Prints n F.pr
  enough : 2 ^ digits < 10 ^ (n - 1)

/-- `RealType` is `float` or `double`, and a number read as a `double` is close enough. -/
structure FaithfulDouble (digits n : Nat) (F : Text) : Prop extends Faithful digits n F where
  le : digits ≤ 53
  dnear : Nearest 53 F.dbl
  denough : 2 ^ 53 < 10 ^ (n - 1) ∨ 2 ^ (digits + 1) < 10 ^ (n - 1)

variable {digits n : Nat} {F : Text}

theorem Faithful.back (H : Faithful digits n F) {x : ℚ} (hx : Representable digits x) : F.fl (F.pr x) = x := Prints.back H.near H.prints H.enough hx

/-- `double`s with 17 digits, `long double`s with 21, and `float`s with 9. -/
def text53 (o : RealOps ℚ) : Text := { o with fl := rn 53, pr := dec 17, dbl := rn 53 }
def text64 (o : RealOps ℚ) : Text := { o with fl := rn 64, pr := dec 21, dbl := rn 53 }
def text24 (o : RealOps ℚ) : Text := { o with fl := rn 24, pr := dec 9, dbl := rn 53 }

theorem text53_faithful (o : RealOps ℚ) : FaithfulDouble 53 17 (text53 o) :=
  ⟨⟨by norm_num, rn_nearest (by norm_num), dec_prints (by norm_num), by norm_num⟩, by norm_num, rn_nearest (by norm_num), .inl (by norm_num)⟩

theorem text24_faithful (o : RealOps ℚ) : FaithfulDouble 24 9 (text24 o) :=
  ⟨⟨by norm_num, rn_nearest (by norm_num), dec_prints (by norm_num), by norm_num⟩, by norm_num, rn_nearest (by norm_num), .inr (by norm_num)⟩

/-- C130: with `max_digits10` digits (17 for `double`, 9 for `float`, 21 for 64 bits) the text of a number is read back as the number. -/
theorem c130_number (H : Faithful digits n F) (x old : ℚ) (hx : Representable digits x) (rest : List Item) :
    Str.real F.fl ⟨.num (F.pr x) :: rest, true⟩ old = (⟨rest, true⟩, x) := by
  rw [Str.real_num, H.back hx]

example : Representable 53 (3602879701896397 / 2 ^ 55) ∧ dec 17 (3602879701896397 / 2 ^ 55) = 10000000000000001 / 10 ^ 17 := by
  constructor
  · exact Representable.scaled (N := 3602879701896397) (by norm_num) 55
  · rw [dec_eq (-1) 10000000000000001 (by norm_num) (by norm_num) (by norm_num)]
    norm_num

/-- Both parameters are values of `RealType`. -/
def Both (digits : Nat) (d : ℚ × ℚ) : Prop := Representable digits d.1 ∧ Representable digits d.2

/-- C130 (partial: the text must have `max_digits10` digits, which the code does not ask for; see `c130_default_precision_false`): the
distributions that hold just their parameters. For those that `param()` checks, the parameters must be valid. -/
theorem c130_members_partial (H : Faithful digits n F) :
    (∀ d, Representable digits d → RoundTrip (bernoulli F) (fun _ => True) d ∧ RoundTrip (exponential F) (fun _ => True) d) ∧
    (∀ d, Both digits d → RoundTrip (cauchy F) (fun _ => True) d ∧ RoundTrip (normal F) (fun _ => True) d ∧
      RoundTrip (lognormal F) (fun _ => True) d ∧ RoundTrip (extremeValue F) (fun _ => True) d ∧ RoundTrip (laplace F) (fun _ => True) d ∧
      RoundTrip (weibull F) (fun _ => True) d ∧ RoundTrip (nonCentral F) (fun _ => True) d ∧
      (0 < d.1 → 0 < d.2 → RoundTrip (beta F) (fun _ => True) d) ∧ (d.1 < d.2 → RoundTrip (uniformReal F) (fun _ => True) d)) := by
  have key : ∀ x, Representable digits x → F.fl (F.pr x) = x := fun x hx => H.back hx
  refine ⟨fun d hd => ?_, fun d hd => ?_⟩
  · exact ⟨fun old _ rest => ⟨_, rfl, by simp [bernoulli, key d hd]⟩, fun old _ rest => ⟨_, rfl, by simp [exponential, key d hd]⟩⟩
  · obtain ⟨a, b⟩ := d
    have ha := key a hd.1
    have hb := key b hd.2
    refine ⟨fun old _ rest => ⟨_, rfl, ?_⟩, fun old _ rest => ⟨_, rfl, ?_⟩, fun old _ rest => ⟨_, rfl, ?_⟩, fun old _ rest => ⟨_, rfl, ?_⟩,
      fun old _ rest => ⟨_, rfl, ?_⟩, fun old _ rest => ⟨_, rfl, ?_⟩, fun old _ rest => ⟨_, rfl, ?_⟩,
      fun h1 h2 old _ rest => ⟨[.num (F.pr a), .num (F.pr b)], if_pos ⟨h1, h2⟩, ?_⟩, fun h old _ rest => ⟨[.num (F.pr a), .num (F.pr b)], if_pos h, ?_⟩⟩
    · simp [cauchy, ha, hb]
    · simp [normal, ha, hb]
    · simp [lognormal, normal, ha, hb]
    · unfold extremeValue; dsimp only; exact viaParam_ok (p := (a, b)) (by simp [ha, hb]) rfl
    · unfold laplace; dsimp only; exact viaParam_ok (p := (a, b)) (by simp [ha, hb]) rfl
    · unfold weibull; dsimp only; exact viaParam_ok (p := (a, b)) (by simp [ha, hb]) rfl
    · unfold nonCentral; dsimp only; exact viaParam_ok (p := (a, b)) (by simp [ha, hb]) rfl
    · unfold beta; dsimp only; exact viaParam_ok (p := (a, b)) (by simp [ha, hb]) rfl
    · unfold uniformReal; dsimp only; exact viaParam_ok (p := (a, b)) (by simp [ha, hb, show a ≤ b from le_of_lt h]) rfl

example (o : RealOps ℚ) : Faithful 53 17 (text53 o) ∧ Both 53 (1, 3 / 2 ^ 1) :=
  ⟨(text53_faithful o).toFaithful, by exact_mod_cast Representable.natCast (N := 1) (by norm_num), Representable.scaled (N := 3) (by norm_num) 1⟩

/-- C130: distributions of integers. Integers are written exactly. -/
theorem c130_integers (T : IntTy) (a b : Int) (ha : Fits T a) (hb : Fits T b) :
    RoundTrip (smallint T) (fun _ => True) (a, b) ∧ (a ≤ b → RoundTrip (uniformInt T) (fun _ => True) (a, b)) := by
  refine ⟨fun old _ rest => ⟨_, rfl, ?_⟩, fun h old _ rest => ⟨[.num (a : ℚ), .num (b : ℚ)], if_pos h, ?_⟩⟩
  · simp only [smallint, List.cons_append, List.nil_append]
    rw [Str.int_num T a _ ha]
    simp only
    rw [Str.int_num T b _ hb]
  · unfold uniformInt
    dsimp only
    refine viaParam_ok (p := (a, b)) ?_ rfl
    simp only [List.cons_append, List.nil_append]
    rw [Str.int_num T a _ ha]
    simp only
    rw [Str.int_num T b _ hb]
    simp only [if_true]
    rw [if_pos h]

example : Fits ⟨32, true⟩ (-(2 ^ 31)) ∧ Fits ⟨32, true⟩ (2 ^ 31 - 1) ∧ Fits ⟨64, false⟩ (2 ^ 64 - 1) := by unfold Fits; decide

/-- C130 (partial as above): the distributions with members that are computed from the parameters: these are computed again. `n` degrees of
freedom are kept as a parameter `n / 2` of a gamma distribution. -/
theorem c130_computed_partial (H : Faithful digits n F) :
    (∀ a b, Representable digits a → Representable digits b → RoundTrip (gamma F) (fun _ => True) (Gamma.init F.toRealOps a b)) ∧
    (∀ k, Representable digits k → RoundTrip (chiSquared F) (fun _ => True) (Gamma.init F.toRealOps (F.fl (k / 2)) 1)) ∧
    (∀ k m, Representable digits k → Representable digits m → RoundTrip (fisherF F) (fun _ => True)
      (Gamma.init F.toRealOps (F.fl (k / 2)) 1, Gamma.init F.toRealOps (F.fl (m / 2)) 1)) ∧
    (∀ k, Representable digits k → RoundTrip (studentT F) (fun d => d.1 = (0, 1)) ((0, 1), Gamma.init F.toRealOps (F.fl (k / 2)) 1)) ∧
    (∀ m, Representable digits m → 0 < m → RoundTrip (poisson F) (fun _ => True) (Poisson.init F.toRealOps m)) ∧
    (∀ bits t p d, Representable digits p → Fits ⟨bits, true⟩ t → Binomial.init F.toRealOps bits t p = some d → RoundTrip (binomial F bits) (fun _ => True) d) ∧
    (∀ T k p, Representable digits p → Fits T k → RoundTrip (negativeBinomial F T) (fun _ => True) (k, p)) := by
  have key : ∀ x, Representable digits x → F.fl (F.pr x) = x := fun x hx => H.back hx
  have R := Nearest.rounding H.near
  have half : ∀ k, Representable digits k → F.fl (k / 2) = k / 2 ∧ F.fl (2 * (k / 2)) = k := by
    rintro k hk
    have hk' := hk
    obtain ⟨m, e, hm, rfl⟩ := hk
    refine ⟨R.exact _ ⟨m, e - 1, hm, by rw [zpow_sub₀ (by norm_num)]; ring⟩, ?_⟩
    rw [mul_div_cancel₀ _ (by norm_num)]
    exact R.exact _ hk'
  refine ⟨fun a b ha hb old _ rest => ⟨_, rfl, ?_⟩, fun k hk old _ rest => ⟨_, rfl, ?_⟩, fun k m hk hm old _ rest => ⟨_, rfl, ?_⟩,
    fun k hk old ho rest => ⟨_, rfl, ?_⟩, fun m hm hm0 old _ rest => ⟨_, if_pos hm0, ?_⟩, fun bits t p d hp ht hd old _ rest => ⟨_, rfl, ?_⟩,
    fun T k p hp hk old _ rest => ⟨_, rfl, ?_⟩⟩
  · unfold gamma; dsimp only; exact viaParam_ok (p := (a, b)) (by simp [Gamma.init, key a ha, key b hb]) rfl
  · unfold chiSquared; dsimp only; exact viaParam_ok (p := k) (by simp [Gamma.init, half k hk, key k hk]) rfl
  · unfold fisherF; dsimp only; exact viaParam_ok (p := (k, m)) (by simp [Gamma.init, half k hk, key k hk, half m hm, key m hm]) rfl
  · unfold studentT; dsimp only; exact viaParam_ok (p := k) (by simp [Gamma.init, half k hk, key k hk]) (by rw [ho])
  · unfold poisson; dsimp only; exact viaParam_ok (p := m) (by simp [Poisson.init, key m hm]) rfl
  · have e : d.p = p ∧ d.t = t := by
      unfold Binomial.init at hd
      split at hd
      · simp only at hd
        split at hd
        · cases hd
        · cases hd; exact ⟨rfl, rfl⟩
      · cases hd
    unfold binomial
    dsimp only
    refine viaParam_ok (p := (t, p)) ?_ hd
    simp only [intParam, List.cons_append, List.nil_append, Str.real_num, e.1, e.2, key p hp]
    rw [Str.int_num _ t _ ht]
  · unfold negativeBinomial
    dsimp only
    refine viaParam_ok (p := (k, p)) ?_ rfl
    simp only [intParam, List.cons_append, List.nil_append, Str.real_num, key p hp]
    rw [Str.int_num _ k _ hk]

example : ∃ d, Binomial.init (⟨rn 53, id, id, id, fun a _ => a⟩ : RealOps ℚ) 32 5 (1 / 2) = some d ∧ d.t = 5 ∧ d.p = 1 / 2 ∧ d.m = 3 := by
  have e : ∀ N k : ℕ, N < 2 ^ 53 → rn 53 ((N : ℚ) / 2 ^ k) = N / 2 ^ k := fun N k h =>
    (Nearest.rounding (rn_nearest (by norm_num : 1 ≤ 53))).exact _ (Representable.scaled h k)
  have e6 : rn 53 6 = 6 := by simpa using e 6 0 (by norm_num)
  have e3 : rn 53 3 = 3 := by simpa using e 3 0 (by norm_num)
  have h3 : castSigned 32 (rn 53 (rn 53 ((5 + 1 : Int) : ℚ) * (1 / 2 : ℚ))) = some 3 := by
    have : ((5 + 1 : Int) : ℚ) = 6 := by norm_num
    rw [this, e6, show (6 : ℚ) * (1 / 2) = 3 by norm_num, e3]
    unfold castSigned
    simp only [show (0 : ℚ) ≤ 3 by norm_num, if_true, show ⌊(3 : ℚ)⌋ = 3 by exact_mod_cast Int.floor_intCast (R := ℚ) 3]
    exact if_pos (by decide)
  unfold Binomial.init
  rw [if_pos (by decide)]
  simp only [show ¬ (1 / 2 : ℚ) < 1 / 2 by norm_num, if_false, h3]
  exact ⟨_, rfl, rfl, rfl, rfl⟩

/-- C130 (partial as above, and `RealType` is not longer than `double`, see `c130_long_double_false`): the distributions that read their
parameters as `double`s. -/
theorem c130_double_partial (H : FaithfulDouble digits n F) :
    (∀ p, Representable digits p → 0 < p → p < 1 → RoundTrip (geometric F) (fun _ => True) (Geo.make F p)) ∧
    (∀ a b c, Representable digits a → Representable digits b → Representable digits c → a ≤ b → b ≤ c →
      RoundTrip (triangle F) (fun _ => True) (Triangle.init F.toRealOps a b c)) := by
  have back : ∀ x, Representable digits x → F.fl (F.dbl (F.pr x)) = x := fun x hx => Prints.double_back H.near H.dnear H.prints H.le H.denough hx
  have order : ∀ x z, Representable digits x → Representable digits z → x < z → F.dbl (F.pr x) < (x + z) / 2 ∧ (x + z) / 2 < F.dbl (F.pr z) :=
    fun x z hx hz h => Prints.double_order H.dnear H.prints H.le H.denough hx hz h
  have order' : ∀ x z, Representable digits x → Representable digits z → x ≤ z → F.dbl (F.pr x) ≤ F.dbl (F.pr z) := by
    intro x z hx hz h
    rcases h.eq_or_lt with rfl | h
    · rfl
    · have := order x z hx hz h
      linarith
  refine ⟨fun p hp h0 h1 old _ rest => ⟨_, rfl, ?_⟩,
    fun a b c ha hb hc h1 h2 old _ rest => ⟨_, if_pos ⟨h1, h2⟩, ?_⟩⟩
  · have o1 := (order 0 p (Representable.zero _) hp h0).2
    have o2 := (order p 1 hp (Representable.one H.pos) h1).1
    unfold geometric
    dsimp only
    refine viaParam_ok (p := p) ?_ rfl
    simp only [Geo.make, List.cons_append, List.nil_append, Str.real_num, if_true, back p hp]
    rw [if_pos ⟨by linarith, by linarith⟩]
  · unfold triangle
    dsimp only
    refine viaParam_ok (p := (a, b, c)) ?_ rfl
    simp only [Triangle.init, List.cons_append, List.nil_append, two_num, Str.real_num, if_true, back a ha, back b hb, back c hc]
    rw [if_pos ⟨order' a b ha hb h1, order' b c hb hc h2⟩]

example (o : RealOps ℚ) : FaithfulDouble 24 9 (text24 o) ∧ FaithfulDouble 53 17 (text53 o) := ⟨text24_faithful o, text53_faithful o⟩

/-- C130 (partial as above): the deprecated distributions. The geometric one keeps `1 - p` and writes `1 - (1 - p)`, both rounded; this is
`p` up to rounding and gives the same distribution back. -/
theorem c130_deprecated_partial (H : Faithful digits n F) :
    (∀ p, Representable digits p → 0 < p → p < 1 → 0 < F.fl (1 - p) → F.fl (1 - p) < 1 →
      RoundTrip (geometricOld F) (fun _ => True) (Geo.make F (F.fl (1 - p)))) ∧
    (∀ m s, Representable digits m → Representable digits s → RoundTrip (lognormalOld F) (fun _ => True) (LogOld.init F (0, 1) m s)) := by
  have key : ∀ x, Representable digits x → F.fl (F.pr x) = x := fun x hx => H.back hx
  have R := Nearest.rounding H.near
  refine ⟨fun p hp h0 h1 h2 h3 old _ rest => ⟨_, rfl, ?_⟩, fun m s hm hs old _ rest => ⟨_, rfl, ?_⟩⟩
  · simp only [geometricOld, Geo.make, List.cons_append, List.nil_append, Str.real_num, if_true]
    simp only [key _ (R.repr _), one_sub_one_sub R H.pos hp h0 h1]
    exact if_pos ⟨h2, h3⟩
  · simp [lognormalOld, LogOld.init, key m hm, key s hs, key 0 (Representable.zero _), key 1 (Representable.one H.pos)]

example (o : RealOps ℚ) : (text53 o).fl (1 - 3602879701896397 / 2 ^ 55) = 8106479329266893 / 2 ^ 53 := by
  show rn 53 _ = _
  refine Nearest.close (rn_nearest (by norm_num)) (Representable.scaled (N := 8106479329266893) (by norm_num) 53) ?_
  norm_num

/-- C130, the computed members: whatever has been read, they belong to the parameters. For the deprecated lognormal distribution also if reading
has failed. -/
theorem c130_members (F : Text) :
    (∀ s old s' d, (geometric F).read s old = some (s', d) → s'.ok = true → d.log1mp = F.fl (F.log (F.fl (1 - d.p)))) ∧
    (∀ s old s' d, (geometricOld F).read s old = some (s', d) → s'.ok = true → d.log1mp = F.fl (F.log (F.fl (1 - d.p)))) ∧
    (∀ s old s' d, (lognormalOld F).read s old = some (s', d) →
      d.nmean = F.log (F.fl (F.fl (d.mean * d.mean) / F.sqrt (F.fl (F.fl (d.sigma * d.sigma) + F.fl (d.mean * d.mean))))) ∧
      d.nsigma = F.sqrt (F.log (F.fl (F.fl (F.fl (F.fl (d.sigma * d.sigma) / d.mean) / d.mean) + 1)))) := by
  refine ⟨fun s old s' d h hok => ?_, fun s old s' d h hok => ?_, fun s old s' d h => ?_⟩
  · simp only [geometric, viaParam] at h
    generalize (if (s.real F.dbl 0).1.ok = true then _ else _ : Str × ℚ) = r at h
    by_cases hr : r.1.ok = true
    · rw [if_pos hr] at h
      cases h
      rfl
    · rw [if_neg hr] at h
      cases h
      exact absurd hok hr
  · simp only [geometricOld] at h
    split at h
    · split at h
      · cases h
        rfl
      · exact absurd h (by simp)
    · rename_i hn
      cases h
      exact absurd hok hn
  · simp only [lognormalOld] at h
    cases h
    exact ⟨rfl, rfl⟩

/-- Texts that are read. -/
example (F : Text) (h0 : 0 < F.fl (1 - F.fl (1 / 4))) (h1 : F.fl (1 - F.fl (1 / 4)) < 1) (old : Geo) :
    ∃ d, (geometricOld F).read ⟨[.num (1 / 4)], true⟩ old = some (⟨[], true⟩, d) := by
  refine ⟨Geo.make F (F.fl (1 - F.fl (1 / 4))), ?_⟩
  simp only [geometricOld, Str.real_num, if_true]
  exact if_pos ⟨h0, h1⟩

/-- C130 is false for the precision that a stream has by default, six digits, which the code does not change: some `double` parameter is read
back as another one. -/
theorem c130_default_precision_false (o : RealOps ℚ) :
    ∃ F : Text, F.toRealOps = { o with fl := rn 53 } ∧ Prints 6 F.pr ∧ ∃ p, Representable 53 p ∧ 0 < p ∧ p < 1 ∧
      ∀ old, ∃ t q, (bernoulli F).write p = some t ∧ (bernoulli F).read ⟨t, true⟩ old = some (⟨[], true⟩, q) ∧ (bernoulli F).eq p q = false := by
  refine ⟨{ o with fl := rn 53, pr := dec 6, dbl := rn 53 }, rfl, dec_prints (by norm_num), (2 ^ 29 + 1 : ℕ) / 2 ^ 30,
    Representable.scaled (by norm_num) 30, by norm_num, by norm_num, fun old => ⟨_, _, rfl, rfl, ?_⟩⟩
  show decide (((2 ^ 29 + 1 : ℕ) : ℚ) / 2 ^ 30 = rn 53 (dec 6 (((2 ^ 29 + 1 : ℕ) : ℚ) / 2 ^ 30))) = false
  rw [dec_eq (-1) 500000 (by norm_num) (by norm_num) (by norm_num [abs_of_pos]), decide_eq_false_iff_not]
  have e : rn 53 (1 / 2 ^ 1) = 1 / 2 ^ 1 := (Nearest.rounding (rn_nearest (by norm_num : 1 ≤ 53))).exact _ (Representable.inv_two_pow (by norm_num) 1)
  rw [show (((500000 : ℤ) : ℚ) * 10 ^ (-1 + 1 - ((6 : ℕ) : ℤ))) = 1 / 2 ^ 1 by norm_num, e]
  norm_num

theorem geometric_other (p q : ℚ) (h0 : 0 < F.dbl (F.pr p)) (h1 : F.dbl (F.pr p) < 1) (hq : F.fl (F.dbl (F.pr p)) = q) (hne : p ≠ q) (old : Geo) :
    ∃ t d, (geometric F).write (Geo.make F p) = some t ∧ (geometric F).read ⟨t, true⟩ old = some (⟨[], true⟩, d) ∧
      (geometric F).eq (Geo.make F p) d = false := by
  refine ⟨_, Geo.make F q, rfl, ?_, ?_⟩
  · unfold geometric
    dsimp only
    refine viaParam_ok (p := q) ?_ rfl
    simp only [Geo.make, Str.real_num, if_true]
    rw [hq]
    exact if_pos ⟨h0, h1⟩
  · simp [geometric, Geo.make, hne]

/-- C130 is false for `long double` with 64 bits, even with all digits in the text: the geometric distribution reads its parameter as a
`double`. -/
theorem c130_long_double_false (o : RealOps ℚ) :
    ∃ F : Text, Faithful 64 21 F ∧ F.log = o.log ∧ Nearest 53 F.dbl ∧ ∃ p, Representable 64 p ∧ 0 < p ∧ p < 1 ∧
      ∀ old, ∃ t d, (geometric F).write (Geo.make F p) = some t ∧ (geometric F).read ⟨t, true⟩ old = some (⟨[], true⟩, d) ∧
        (geometric F).eq (Geo.make F p) d = false := by
  have hN : Nearest 64 (rn 64) := rn_nearest (by norm_num)
  refine ⟨text64 o, ⟨by norm_num, hN, dec_prints (by norm_num), by norm_num⟩, rfl, rn_nearest (by norm_num),
    (2 ^ 62 + 1 : ℕ) / 2 ^ 63, Representable.scaled (by norm_num) 63, by norm_num, by norm_num, fun old => ?_⟩
  have e : rn 53 (dec 21 ((2 ^ 62 + 1 : ℕ) / 2 ^ 63)) = 1 / 2 := by
    have hP := dec_prints (show 1 ≤ 21 by norm_num) (((2 ^ 62 + 1 : ℕ) : ℚ) / 2 ^ 63)
    generalize dec 21 (((2 ^ 62 + 1 : ℕ) : ℚ) / 2 ^ 63) = y at hP ⊢
    refine Nearest.close (rn_nearest (by norm_num)) (by simpa using Representable.inv_two_pow (show 1 ≤ 53 by norm_num) 1) ?_
    have h2 : |y - 1 / 2| ≤ |y - ((2 ^ 62 + 1 : ℕ) : ℚ) / 2 ^ 63| + 1 / 2 ^ 63 := by
      have := abs_add_le (y - ((2 ^ 62 + 1 : ℕ) : ℚ) / 2 ^ 63) (1 / 2 ^ 63)
      rw [abs_of_pos (show (0 : ℚ) < 1 / 2 ^ 63 by positivity)] at this
      refine le_trans (le_of_eq ?_) this
      congr 1
      push_cast
      ring
    rw [abs_of_pos (show (0 : ℚ) < ((2 ^ 62 + 1 : ℕ) : ℚ) / 2 ^ 63 by positivity)] at hP
    rw [abs_of_pos (show (0 : ℚ) < 1 / 2 by norm_num)]
    norm_num at h2 hP ⊢
    linarith
  have e2 : rn 64 (1 / 2) = 1 / 2 := (Nearest.rounding hN).exact _ (by simpa using Representable.inv_two_pow (show 1 ≤ 64 by norm_num) 1)
  have e3 : (text64 o).dbl ((text64 o).pr ((2 ^ 62 + 1 : ℕ) / 2 ^ 63)) = 1 / 2 := e
  exact geometric_other _ (1 / 2) (by rw [e3]; norm_num) (by rw [e3]; norm_num) (by rw [e3]; exact e2) (by norm_num) old

/-! ## C131: reading that fails -/

/-- C131 (partial: the distributions that read into a `param_type` first; for the others see `c131_members_false`): reading that fails leaves
the distribution as it was. -/
theorem c131_unchanged_partial (F : Text) (T : IntTy) (bits : Nat) :
    Unchanged (beta F) ∧ Unchanged (extremeValue F) ∧ Unchanged (laplace F) ∧ Unchanged (weibull F) ∧ Unchanged (nonCentral F) ∧
    Unchanged (uniformReal F) ∧ Unchanged (uniformInt T) ∧ Unchanged (gamma F) ∧ Unchanged (chiSquared F) ∧ Unchanged (fisherF F) ∧
    Unchanged (studentT F) ∧ Unchanged (poisson F) ∧ Unchanged (binomial F bits) ∧ Unchanged (negativeBinomial F T) ∧ Unchanged (geometric F) ∧
    Unchanged (geometricOld F) ∧ Unchanged (triangle F) ∧ Unchanged (piecewiseConstant F) ∧ Unchanged (piecewiseLinear F) ∧
    Unchanged (discrete F) ∧ Unchanged (hyperexponential F) := by
  refine ⟨?_, ?_, ?_, ?_, ?_, ?_, ?_, ?_, ?_, ?_, ?_, ?_, ?_, ?_, ?_, ?_, ?_, ?_, ?_, ?_, ?_⟩
  · intro s d s' d' h hf; unfold beta at h; dsimp only at h; exact viaParam_unchanged h hf
  · intro s d s' d' h hf; unfold extremeValue at h; dsimp only at h; exact viaParam_unchanged h hf
  · intro s d s' d' h hf; unfold laplace at h; dsimp only at h; exact viaParam_unchanged h hf
  · intro s d s' d' h hf; unfold weibull at h; dsimp only at h; exact viaParam_unchanged h hf
  · intro s d s' d' h hf; unfold nonCentral at h; dsimp only at h; exact viaParam_unchanged h hf
  · intro s d s' d' h hf; unfold uniformReal at h; dsimp only at h; exact viaParam_unchanged h hf
  · intro s d s' d' h hf; unfold uniformInt at h; dsimp only at h; exact viaParam_unchanged h hf
  · intro s d s' d' h hf; unfold gamma at h; dsimp only at h; exact viaParam_unchanged h hf
  · intro s d s' d' h hf; unfold chiSquared at h; dsimp only at h; exact viaParam_unchanged h hf
  · intro s d s' d' h hf; unfold fisherF at h; dsimp only at h; exact viaParam_unchanged h hf
  · intro s d s' d' h hf; unfold studentT at h; dsimp only at h; exact viaParam_unchanged h hf
  · intro s d s' d' h hf; unfold poisson at h; dsimp only at h; exact viaParam_unchanged h hf
  · intro s d s' d' h hf; unfold binomial at h; dsimp only at h; exact viaParam_unchanged h hf
  · intro s d s' d' h hf; unfold negativeBinomial at h; dsimp only at h; exact viaParam_unchanged h hf
  · intro s d s' d' h hf; unfold geometric at h; dsimp only at h; exact viaParam_unchanged h hf
  · intro s d s' d' h hf
    simp only [geometricOld] at h
    split at h
    · next hok =>
      split at h
      · rw [Option.some.injEq, Prod.mk.injEq] at h
        rw [← h.1, hok] at hf
        cases hf
      · cases h
    · rw [Option.some.injEq, Prod.mk.injEq] at h
      exact h.2.symm
  · intro s d s' d' h hf; unfold triangle at h; dsimp only at h; exact viaParam_unchanged h hf
  · intro s d s' d' h hf; unfold piecewiseConstant at h; dsimp only at h; exact viaParam_unchanged h hf
  · intro s d s' d' h hf; unfold piecewiseLinear at h; dsimp only at h; exact viaParam_unchanged h hf
  · intro s d s' d' h hf; unfold discrete at h; dsimp only at h; exact viaParam_unchanged h hf
  · intro s d s' d' h hf; unfold hyperexponential at h; dsimp only at h; exact viaParam_unchanged h hf

example (F : Text) : (beta F).read ⟨[.num 5, .junk], true⟩ (2, 3) = some (⟨[.junk], false⟩, (2, 3)) := rfl

/-- C131 is false for the distributions that read into their members. When the text ends too early, a member is zero, even though that is no
valid rate of an exponential distribution, and members before it may have changed. The deprecated lognormal distribution computes its other
members from what it has. -/
theorem c131_members_false (F : Text) (T : IntTy) :
    (bernoulli F).read ⟨[], true⟩ 1 = some (⟨[], false⟩, 0) ∧ (exponential F).read ⟨[.junk], true⟩ 1 = some (⟨[.junk], false⟩, 0) ∧
    (∀ a b v, (cauchy F).read ⟨[.num v], true⟩ (a, b) = some (⟨[], false⟩, (F.fl v, 0)) ∧
      (normal F).read ⟨[.num v], true⟩ (a, b) = some (⟨[], false⟩, (F.fl v, 0)) ∧
      (lognormal F).read ⟨[.num v], true⟩ (a, b) = some (⟨[], false⟩, (F.fl v, 0))) ∧
    (∀ a b v : Int, Fits T v → (smallint T).read ⟨[.num v], true⟩ (a, b) = some (⟨[], false⟩, (v, 0))) ∧
    (∀ d v, (lognormalOld F).read ⟨[.num v], true⟩ d = some (⟨[], false⟩, LogOld.init F (F.fl v, 0) d.mean d.sigma)) ∧
    ¬ Unchanged (bernoulli F) ∧ ¬ Unchanged (exponential F) ∧ ¬ Unchanged (cauchy F) ∧ ¬ Unchanged (normal F) ∧ ¬ Unchanged (lognormal F) ∧
    ¬ Unchanged (smallint T) ∧ ¬ Unchanged (lognormalOld F) := by
  have hs : ∀ a b v : Int, Fits T v → (smallint T).read ⟨[.num v], true⟩ (a, b) = some (⟨[], false⟩, (v, 0)) := by
    intro a b v hv
    simp only [smallint]
    rw [Str.int_num T v _ hv]
    rfl
  have two_false : ∀ x : ℚ, ((x, 0) : ℚ × ℚ) ≠ (0, 1) := by
    intro x hx
    rw [Prod.mk.injEq] at hx
    norm_num at hx
  refine ⟨rfl, rfl, fun a b v => ⟨rfl, rfl, rfl⟩, hs, fun d v => rfl, fun h => ?_, fun h => ?_, fun h => ?_, fun h => ?_, fun h => ?_, fun h => ?_, fun h => ?_⟩
  · have := h ⟨[], true⟩ 1 _ _ rfl rfl
    norm_num at this
  · have := h ⟨[], true⟩ 1 _ _ rfl rfl
    norm_num at this
  · exact two_false _ (h ⟨[.num 0], true⟩ (0, 1) _ _ rfl rfl)
  · exact two_false _ (h ⟨[.num 0], true⟩ (0, 1) _ _ rfl rfl)
  · exact two_false _ (h ⟨[.num 0], true⟩ (0, 1) _ _ rfl rfl)
  · have := h ⟨[], true⟩ (1, 1) ⟨[], false⟩ (0, 1) rfl rfl
    simp at this
  · have := h ⟨[.num 0], true⟩ (LogOld.init F (0, 1) 1 1) _ _ rfl rfl
    exact two_false _ (congrArg LogOld.normal this)

/-- C131: a stream that has failed before is left as it is, and so is the distribution, whichever it is. -/
theorem c131_idle (F : Text) (T : IntTy) (bits : Nat) :
    Idle (bernoulli F) (fun _ => True) ∧ Idle (exponential F) (fun _ => True) ∧ Idle (cauchy F) (fun _ => True) ∧ Idle (normal F) (fun _ => True) ∧
    Idle (lognormal F) (fun _ => True) ∧ Idle (smallint T) (fun _ => True) ∧ Idle (lognormalOld F) (fun d => d = LogOld.init F d.normal d.mean d.sigma) ∧
    Idle (beta F) (fun _ => True) ∧ Idle (extremeValue F) (fun _ => True) ∧ Idle (laplace F) (fun _ => True) ∧ Idle (weibull F) (fun _ => True) ∧
    Idle (nonCentral F) (fun _ => True) ∧ Idle (uniformReal F) (fun _ => True) ∧ Idle (uniformInt T) (fun _ => True) ∧ Idle (gamma F) (fun _ => True) ∧
    Idle (chiSquared F) (fun _ => True) ∧ Idle (fisherF F) (fun _ => True) ∧ Idle (studentT F) (fun _ => True) ∧ Idle (poisson F) (fun _ => True) ∧
    Idle (binomial F bits) (fun _ => True) ∧ Idle (negativeBinomial F T) (fun _ => True) ∧ Idle (geometric F) (fun _ => True) ∧
    Idle (geometricOld F) (fun _ => True) ∧ Idle (triangle F) (fun _ => True) ∧ Idle (piecewiseConstant F) (fun _ => True) ∧
    Idle (piecewiseLinear F) (fun _ => True) ∧ Idle (discrete F) (fun _ => True) ∧ Idle (hyperexponential F) (fun _ => True) := by
  refine ⟨?_, ?_, ?_, ?_, ?_, ?_, ?_, ?_, ?_, ?_, ?_, ?_, ?_, ?_, ?_, ?_, ?_, ?_, ?_, ?_, ?_, ?_, ?_, ?_, ?_, ?_, ?_, ?_⟩
  · exact fun _ _ _ => rfl
  · exact fun _ _ _ => rfl
  · exact fun _ _ _ => rfl
  · exact fun _ _ _ => rfl
  · exact fun _ _ _ => rfl
  · exact fun _ _ _ => rfl
  · intro r d hd
    show some _ = some _
    simp only [two_false]
    rw [← hd]
  · intro r d _; unfold beta; dsimp only; exact viaParam_idle r d rfl
  · intro r d _; unfold extremeValue; dsimp only; exact viaParam_idle r d rfl
  · intro r d _; unfold laplace; dsimp only; exact viaParam_idle r d rfl
  · intro r d _; unfold weibull; dsimp only; exact viaParam_idle r d rfl
  · intro r d _; unfold nonCentral; dsimp only; exact viaParam_idle r d rfl
  · intro r d _; unfold uniformReal; dsimp only; exact viaParam_idle r d rfl
  · intro r d _; unfold uniformInt; dsimp only; exact viaParam_idle r d rfl
  · intro r d _; unfold gamma; dsimp only; exact viaParam_idle r d rfl
  · intro r d _; unfold chiSquared; dsimp only; exact viaParam_idle r d rfl
  · intro r d _; unfold fisherF; dsimp only; exact viaParam_idle r d rfl
  · intro r d _; unfold studentT; dsimp only; exact viaParam_idle r d rfl
  · intro r d _; unfold poisson; dsimp only; exact viaParam_idle r d rfl
  · intro r d _; unfold binomial; dsimp only; exact viaParam_idle r d rfl
  · intro r d _; unfold negativeBinomial; dsimp only; exact viaParam_idle r d rfl
  · intro r d _; unfold geometric; dsimp only; exact viaParam_idle r d rfl
  · exact fun _ _ _ => rfl
  · intro r d _; unfold triangle; dsimp only; exact viaParam_idle r d rfl
  · intro r d _; unfold piecewiseConstant; dsimp only; exact viaParam_idle r d rfl
  · intro r d _; unfold piecewiseLinear; dsimp only; exact viaParam_idle r d rfl
  · intro r d _; unfold discrete; dsimp only; exact viaParam_idle r d rfl
  · intro r d _; unfold hyperexponential; dsimp only; exact viaParam_idle r d rfl

example (F : Text) : (poisson F).read ⟨[.num 3], false⟩ (Poisson.init F.toRealOps 7) = some (⟨[.num 3], false⟩, Poisson.init F.toRealOps 7) := rfl

/-! ## C132: what is accepted -/

/-- C132 (partial: these four; all others accept any numbers, see `c132_false`): a text that is read without failure makes a distribution with
valid parameters. -/
theorem c132_valid_partial (F : Text) (T : IntTy) (digits : Nat) (R : Rounding digits F.fl) (hd : 1 ≤ digits) :
    Accepts (geometric F) (fun d => 0 ≤ d.p ∧ d.p ≤ 1 ∧ d = Geo.make F d.p) ∧ ((∀ x, F.fl (F.dbl x) = F.dbl x) → Accepts (geometric F) fun d => 0 < d.p ∧ d.p < 1) ∧
    Accepts (triangle F) (fun d => d.a ≤ d.b ∧ d.b ≤ d.c ∧ d = Triangle.init F.toRealOps d.a d.b d.c) ∧
    Accepts (uniformInt T) (fun d => d.1 ≤ d.2) ∧ Accepts (uniformReal F) (fun d => d.1 ≤ d.2) := by
  have fl0 : F.fl 0 = 0 := R.exact 0 (Representable.zero _)
  have fl1 : F.fl 1 = 1 := R.exact 1 (Representable.one hd)
  have hg : Accepts (geometric F) (fun d => ∃ v, d = Geo.make F (F.fl (F.dbl v)) ∧ 0 < F.dbl v ∧ F.dbl v < 1) := by
    intro s d s' d' h hok
    unfold geometric at h
    dsimp only at h
    obtain ⟨h1, h2⟩ := viaParam_accepts h hok
    cases s with | mk r ok =>
    cases ok with
    | false =>
      simp only [Str.real_false, Bool.false_eq_true, if_false] at h1
      rw [← h1] at hok
      cases hok
    | true =>
      cases r with
      | nil => rw [← h1] at hok; cases hok
      | cons x r =>
        cases x with
        | num v =>
          simp only [Str.real_num, if_true] at h1 h2
          by_cases hc : 0 < F.dbl v ∧ F.dbl v < 1
          · simp only [hc, and_self, if_true] at h2
            exact ⟨v, (Option.some.inj h2).symm, hc⟩
          · simp only [hc, if_false] at h1
            rw [← h1] at hok; cases hok
        | _ => rw [← h1] at hok; cases hok
  refine ⟨fun s d s' d' h hok => ?_, fun he s d s' d' h hok => ?_, fun s d s' d' h hok => ?_, fun s d s' d' h hok => ?_, fun s d s' d' h hok => ?_⟩
  · obtain ⟨v, rfl, h0, h1⟩ := hg s d s' d' h hok
    refine ⟨?_, ?_, rfl⟩
    · have := R.mono 0 _ h0.le; rwa [fl0] at this
    · have := R.mono _ 1 h1.le; rwa [fl1] at this
  · obtain ⟨v, rfl, h0, h1⟩ := hg s d s' d' h hok
    show 0 < F.fl _ ∧ F.fl _ < 1
    rw [he]
    exact ⟨h0, h1⟩
  · unfold triangle at h
    dsimp only at h
    obtain ⟨h1, h2⟩ := viaParam_accepts h hok
    split at h1
    · next hok' =>
      rw [if_pos hok'] at h2
      split at h1
      · next hc =>
        rw [if_pos hc] at h2
        rw [← Option.some.inj h2]
        exact ⟨R.mono _ _ hc.1, R.mono _ _ hc.2, rfl⟩
      · rw [← h1] at hok; cases hok
    · next hok' => rw [← h1] at hok; exact absurd hok hok'
  · unfold uniformInt at h
    dsimp only at h
    obtain ⟨h1, h2⟩ := viaParam_accepts h hok
    split at h1
    · next hok' =>
      rw [if_pos hok'] at h2
      split at h1
      · next hc =>
        rw [if_pos hc] at h2
        rw [← Option.some.inj h2]
        exact hc
      · rw [← h1] at hok; cases hok
    · next hok' => rw [← h1] at hok; exact absurd hok hok'
  · unfold uniformReal at h
    dsimp only at h
    obtain ⟨h1, h2⟩ := viaParam_accepts h hok
    split at h1
    · next hok' =>
      rw [if_pos hok'] at h2
      split at h1
      · next hc =>
        rw [if_pos hc] at h2
        rw [← Option.some.inj h2]
        exact hc
      · rw [← h1] at hok; cases hok
    · next hok' => rw [← h1] at hok; exact absurd hok hok'

example : (uniformInt ⟨32, true⟩).read ⟨[.num 5, .num 2], true⟩ (7, 8) = some (⟨[], false⟩, (7, 8)) := by decide +kernel

/-- C132 is false otherwise. `1 1` is accepted by `uniform_real_distribution`, whose `param()`, and so `operator<<`, then fails an assertion;
`-1` by `poisson_distribution` and `-1 -1` by `beta_distribution`, with the same result; a probability of two, and negative rates and
deviations, are accepted. The deprecated geometric distribution fails an assertion while it reads `2`. -/
theorem c132_false (F : Text) (digits : Nat) (R : Rounding digits F.fl) (hd : 2 ≤ digits) :
    (∀ old, (uniformReal F).read ⟨[.num 1, .num 1], true⟩ old = some (⟨[], true⟩, (1, 1)) ∧ (uniformReal F).write (1, 1) = none) ∧
    (∀ old, (poisson F).read ⟨[.num (-1)], true⟩ old = some (⟨[], true⟩, Poisson.init F.toRealOps (-1)) ∧
      (poisson F).write (Poisson.init F.toRealOps (-1)) = none) ∧
    (∀ old, (beta F).read ⟨[.num (-1), .num (-1)], true⟩ old = some (⟨[], true⟩, (-1, -1)) ∧ (beta F).write (-1, -1) = none) ∧
    (∀ old, (bernoulli F).read ⟨[.num 2], true⟩ old = some (⟨[], true⟩, 2)) ∧
    (∀ old, (exponential F).read ⟨[.num (-1)], true⟩ old = some (⟨[], true⟩, -1)) ∧
    (∀ old, (normal F).read ⟨[.num (-1), .num (-1)], true⟩ old = some (⟨[], true⟩, (-1, -1))) ∧
    (∀ old, (gamma F).read ⟨[.num (-1), .num (-1)], true⟩ old = some (⟨[], true⟩, Gamma.init F.toRealOps (-1) (-1))) ∧
    (∀ old, (geometricOld F).read ⟨[.num 2], true⟩ old = none) := by
  have f1 : F.fl 1 = 1 := R.exact 1 (Representable.one (by omega))
  have fm : F.fl (-1) = -1 := R.exact (-1) (by
    obtain ⟨m, e, hm, h⟩ := Representable.one (show 1 ≤ digits by omega)
    exact ⟨-m, e, by rwa [abs_neg], by rw [h]; push_cast; ring⟩)
  have f2 : F.fl 2 = 2 := R.exact 2 (by simpa using Representable.natCast (digits := digits) (N := 2) (lt_of_lt_of_le (by norm_num) (Nat.pow_le_pow_right (by norm_num) hd)))
  refine ⟨fun old => ⟨?_, ?_⟩, fun old => ⟨?_, ?_⟩,
    fun old => ⟨?_, ?_⟩, fun old => ?_, fun old => ?_, fun old => ?_, fun old => ?_, fun old => ?_⟩
  · unfold uniformReal; dsimp only; exact viaParam_ok (p := (1, 1)) (by simp [f1]) rfl
  · norm_num [uniformReal]
  · unfold poisson; dsimp only; exact viaParam_ok (p := -1) (by simp [fm]) rfl
  · norm_num [poisson, Poisson.init]
  · unfold beta; dsimp only; exact viaParam_ok (p := (-1, -1)) (by simp [fm]) rfl
  · norm_num [beta]
  · simp [bernoulli, f2]
  · simp [exponential, fm]
  · simp [normal, fm]
  · unfold gamma; dsimp only; exact viaParam_ok (p := (-1, -1)) (by simp [fm]) rfl
  · simp only [geometricOld, Str.real_num, if_true, f2]
    refine if_neg ?_
    rw [show (1 : ℚ) - 2 = -1 by norm_num, fm]
    norm_num

end Boost.Random
