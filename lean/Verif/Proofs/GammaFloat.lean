import Verif.Model.Gamma
import Verif.Props.Variates

/-!
# The distributions made of gamma numbers with a rounding
-/

namespace Boost.Random
open Spec RealDist

section
variable {o : TrigOps ℚ} {E : EngInfo} (H : Rounding 53 o.fl) (hE : EngOK E) (hD : DiffOK E)
  (hsafe : engineBits E - 8 % engineBits E < 53 → ¬ engineBits E ∣ 61) (n : Nat)

/-- What is read of the engine. -/
theorem numbers_safe {o : RealOps ℚ} (H : Rounding 53 o.fl) (hE : EngOK E) (hD : DiffOK E)
    (hsafe : engineBits E - 8 % engineBits E < 53 → ¬ engineBits E ∣ 61) (n : Nat) :
    SafeRun (fun v : ℚ => 0 ≤ v ∧ v < 1) E (engineNumbers o E n).unif ∧ SafeRun (fun v : ℚ => 0 ≤ v) E (engineNumbers o E n).expo ∧
      SafeRun (fun _ : ℚ => True) E (engineNumbers o E n).norm := by
  have h := Exponential.unit_safe (S := { pair := fun xs => (RealDist.intFloatPair o.fl E 53 8 xs).run, unif := fun xs => (RealDist.uniform01 o.fl E xs).run, expo := fun _ => .ub })
    H (pair_safe H hE hsafe) (unif_safe H hE hD) n 0 le_rfl
  have h2 := Normal.unit_safe (S := engineSource o E n) H (pair_safe H hE hsafe) (unif_safe H hE hD) h n
  refine ⟨unif_safe H hE hD, h, ?_⟩
  intro xs hO
  obtain ⟨a, b⟩ := h2 xs hO
  exact ⟨a, fun v rest e => ⟨trivial, (b v rest e).2⟩⟩

namespace Gamma

theorem expo_safe {N : Numbers ℚ (List Int)} (H : Rounding 53 o.fl) (he : SafeRun (fun v : ℚ => 0 ≤ v) E N.expo) :
    SafeRun (fun v : ℚ => 0 ≤ v) E (expo o.toRealOps N) :=
  he.bind fun v hv => SafeRun.done (fl_nonneg H (by simpa using hv))

theorem large_safe {N : Numbers ℚ (List Int)} (H : Rounding 53 o.fl) (hu : SafeRun (fun v : ℚ => 0 ≤ v ∧ v < 1) E N.unif) (d : Dist ℚ) (hb : 0 ≤ d.beta) (n : Nat) :
    SafeRun (fun v : ℚ => 0 ≤ v ∧ Representable 53 v) E (large o d N n) := by
  induction n with
  | zero => exact SafeRun.more
  | succ n ih =>
    refine hu.bind fun u _ => ?_
    dsimp only
    split
    · exact ih
    · rename_i h
      refine hu.bind fun w _ => ?_
      split
      · exact ih
      · exact SafeRun.done ⟨fl_nonneg H (mul_nonneg (not_le.1 h).le hb), H.repr _⟩

theorem candidate_nonneg (H : Rounding 53 o.fl) (hexp : ∀ x, 0 ≤ o.exp x) (d : Dist ℚ) (u : ℚ) {y : ℚ} (hy : 0 ≤ y) : 0 ≤ (candidate o.toRealOps d u y).1 := by
  unfold candidate
  split
  · exact hexp _
  · exact fl_nonneg H (by linarith)

theorem small_safe {N : Numbers ℚ (List Int)} (H : Rounding 53 o.fl) (hexp : ∀ x, 0 ≤ o.exp x) (hu : SafeRun (fun v : ℚ => 0 ≤ v ∧ v < 1) E N.unif)
    (he : SafeRun (fun v : ℚ => 0 ≤ v) E N.expo) (d : Dist ℚ) (hb : 0 ≤ d.beta) (n : Nat) :
    SafeRun (fun v : ℚ => 0 ≤ v ∧ Representable 53 v) E (small o.toRealOps d N n) := by
  induction n with
  | zero => exact SafeRun.more
  | succ n ih =>
    refine hu.bind fun u _ => (expo_safe H he).bind fun y hy => ?_
    dsimp only
    split
    · exact ih
    · exact SafeRun.done ⟨fl_nonneg H (mul_nonneg (candidate_nonneg H hexp d u hy) hb), H.repr _⟩

include H hE hD hsafe in
theorem safe (hexp : ∀ x, 0 ≤ o.exp x) (a b : ℚ) (hb : 0 ≤ b) :
    SafeRun (fun v : ℚ => 0 ≤ v ∧ Representable 53 v) E (generate o (init o.toRealOps a b) (engineNumbers o.toRealOps E n) n) := by
  obtain ⟨hu, he, _⟩ := numbers_safe H hE hD hsafe n
  unfold generate
  split
  · exact (expo_safe H he).bind fun v hv => SafeRun.done ⟨fl_nonneg H (mul_nonneg hv hb), H.repr _⟩
  · split
    · exact large_safe H hu _ hb n
    · exact small_safe H hexp hu he _ hb n

/-! ## Where the functions of the library are evaluated -/

theorem scale_arg {fl : ℚ → ℚ} (H : Rounding 53 fl) {a : ℚ} (ha : 1 < a) : 0 ≤ fl (fl (2 * a) - 1) := by
  have h2 : Representable 53 (2 : ℚ) := by simpa using Representable.two_pow (digits := 53) (by decide) 1
  have h := H.mono 2 (2 * a) (by linarith)
  rw [H.exact 2 h2] at h
  have := H.mono 0 (fl (2 * a) - 1) (by linarith)
  rwa [H.exact 0 (Representable.zero _)] at this

theorem bound_congr {o o' : RealOps ℚ} (H : Rounding 53 o.fl) (hfl : o'.fl = o.fl) (hexp : o'.exp = o.exp) (hlog : ∀ x, 0 < x → o'.log x = o.log x)
    (hsqrt : ∀ x, 0 ≤ x → o'.sqrt x = o.sqrt x) {a x y : ℚ} (ha : 1 < a) (hx : 0 < x) : bound o' a x y = bound o a x y := by
  have h1 : 0 < o.fl (x / o.fl (a - 1)) := fl_pos' o H (div_pos hx (fl_pos' o H (by linarith)))
  unfold bound scale
  rw [hfl, hexp, hlog _ h1, hsqrt _ (scale_arg H ha)]

theorem large_congr {o o' : TrigOps ℚ} {σ : Type} (H : Rounding 53 o.fl) (hfl : o'.fl = o.fl) (hexp : o'.exp = o.exp) (htan : o'.tan = o.tan)
    (hlog : ∀ x, 0 < x → o'.log x = o.log x) (hsqrt : ∀ x, 0 ≤ x → o'.sqrt x = o.sqrt x) (d : Dist ℚ) (ha : 1 < d.alpha) (N : Numbers ℚ σ) (n : Nat) :
    ∀ s, large o' d N n s = large o d N n s := by
  induction n with
  | zero => exact fun s => rfl
  | succ n ih =>
    intro s
    have hs : scale o'.toRealOps d.alpha = scale o.toRealOps d.alpha := by
      unfold scale
      rw [hfl, hsqrt _ (scale_arg H ha)]
    have hp : ∀ y, proposal o'.toRealOps d.alpha y = proposal o.toRealOps d.alpha y := by
      intro y
      unfold proposal
      rw [hs, hfl]
    have hpi : pi o'.toRealOps = pi o.toRealOps := by unfold pi; rw [hfl]
    unfold large
    simp only [hfl, htan, hp, hpi]
    congr 1
    funext u s
    by_cases hx : proposal o.toRealOps d.alpha (o.tan (o.fl (pi o.toRealOps * u))) ≤ 0
    · rw [if_pos hx, if_pos hx, ih]
    · rw [if_neg hx, if_neg hx]
      congr 1
      funext w s
      rw [bound_congr H hfl hexp hlog hsqrt ha (not_le.1 hx), ih]

theorem small_congr {o o' : RealOps ℚ} {σ : Type} (H : Rounding 53 o.fl) (hfl : o'.fl = o.fl) (hexp : o'.exp = o.exp)
    (hpow : ∀ x y, 1 ≤ x → o'.pow x y = o.pow x y) (d : Dist ℚ) (N : Numbers ℚ σ) (hN : ∀ s v s', N.expo s = .done v s' → 0 ≤ v) (n : Nat) :
    ∀ s, small o' d N n s = small o d N n s := by
  have he : ∀ s, expo o' N s = expo o N s := by
    intro s
    unfold expo
    rw [hfl]
  have hc : ∀ u y, 0 ≤ y → candidate o' d u y = candidate o d u y := by
    intro u y hy
    have h1 := H.mono 1 (1 + y) (by linarith)
    rw [H.exact 1 (Representable.one (by decide))] at h1
    unfold candidate
    simp only [hfl, hexp, hpow _ _ h1]
  induction n with
  | zero => exact fun s => rfl
  | succ n ih =>
    intro s
    unfold small
    congr 1
    funext u s
    rw [he]
    cases h : expo o N s with
    | ub => rfl
    | more => rfl
    | done y s' =>
      have hy : 0 ≤ y := by
        unfold expo at h
        cases h' : N.expo s with
        | ub => rw [h'] at h; cases h
        | more => rw [h'] at h; cases h
        | done v s'' =>
          rw [h'] at h
          cases h
          exact fl_nonneg H (by simpa using hN s v _ h')
      simp only [Run.bind, hc u y hy, hfl, ih]

theorem generate_congr {o o' : TrigOps ℚ} {σ : Type} (H : Rounding 53 o.fl) (hfl : o'.fl = o.fl) (hexp : o'.exp = o.exp) (htan : o'.tan = o.tan)
    (hlog : ∀ x, 0 < x → o'.log x = o.log x) (hsqrt : ∀ x, 0 ≤ x → o'.sqrt x = o.sqrt x) (hpow : ∀ x y, 1 ≤ x → o'.pow x y = o.pow x y)
    (a b : ℚ) (N : Numbers ℚ σ) (hN : ∀ s v s', N.expo s = .done v s' → 0 ≤ v) (n : Nat) (s : σ) :
    generate o' (init o'.toRealOps a b) N n s = generate o (init o.toRealOps a b) N n s := by
  have hi : init o'.toRealOps a b = init o.toRealOps a b := by
    unfold init
    rw [hfl, hexp]
  unfold generate
  rw [hi]
  by_cases h1 : (init o.toRealOps a b).alpha = 1
  · rw [if_pos h1, if_pos h1]
    unfold expo
    rw [hfl]
  · rw [if_neg h1, if_neg h1]
    by_cases h2 : 1 < (init o.toRealOps a b).alpha
    · rw [if_pos h2, if_pos h2, large_congr H hfl hexp htan hlog hsqrt _ h2]
    · rw [if_neg h2, if_neg h2, small_congr H hfl hexp hpow _ N hN]

end Gamma

/-! ## The ranges of the distributions made of gamma numbers -/

theorem SafeRun.both {α β γ : Type} {p : α → Prop} {q : β → Prop} {r : γ → Prop} {order : Bool} {f : List Int → Run (List Int) α} {g : List Int → Run (List Int) β}
    {h : α → β → γ} (hf : SafeRun p E f) (hg : SafeRun q E g) (hr : ∀ a b, p a → q b → r (h a b)) : SafeRun r E (Run.both order f g h) := by
  cases order
  · exact hg.bind fun b hb => hf.bind fun a ha => SafeRun.done (hr a b ha hb)
  · exact hf.bind fun a ha => hg.bind fun b hb => SafeRun.done (hr a b ha hb)

include H hE hD hsafe

theorem ChiSquared.safe (hexp : ∀ x, 0 ≤ o.exp x) (m : ℚ) :
    SafeRun (fun v : ℚ => 0 ≤ v) E (ChiSquared.generate o.toRealOps m (engineCompound o E n)) :=
  (Gamma.safe H hE hD hsafe n hexp _ 1 zero_le_one).bind fun v hv => SafeRun.done (fl_nonneg H (by linarith [hv.1]))

theorem Beta.safe (hexp : ∀ x, 0 ≤ o.exp x) (a b : ℚ) :
    SafeRun (fun v : Ieee ℚ => (∃ x, v = .fin x ∧ 0 ≤ x ∧ x ≤ 1) ∨ v = .nan) E (Beta.generate o.toRealOps a b (engineCompound o E n)) := by
  refine (Gamma.safe H hE hD hsafe n hexp a 1 zero_le_one).bind fun x hx => (Gamma.safe H hE hD hsafe n hexp b 1 zero_le_one).bind fun y hy => SafeRun.done ?_
  have h1 : x ≤ o.fl (x + y) := by
    have := H.mono x (x + y) (by linarith [hy.1])
    rwa [H.exact x hx.2] at this
  unfold Ieee.div
  by_cases h : o.fl (x + y) = 0
  · have h0 : x = 0 := le_antisymm (by linarith) hx.1
    right
    simp only [if_pos h, Ieee.infOf]
    rw [h0, if_neg (lt_irrefl _), if_neg (lt_irrefl _)]
  · left
    simp only [if_neg h]
    have hp : 0 < o.fl (x + y) := lt_of_le_of_ne (by linarith [hx.1]) (Ne.symm h)
    refine ⟨_, rfl, fl_nonneg H (div_nonneg hx.1 hp.le), ?_⟩
    exact Triangle.fl_le H (Representable.one (by decide)) ((div_le_one hp).2 h1)

theorem FisherF.safe (hexp : ∀ x, 0 ≤ o.exp x) (order : Bool) (m k : ℚ) (hm : 0 < m) (hk : 0 < k) :
    SafeRun (fun v : Ieee ℚ => (∃ x, v = .fin x ∧ 0 ≤ x) ∨ v = .inf ∨ v = .nan) E (FisherF.generate o.toRealOps order m k (engineCompound o E n)) := by
  refine (ChiSquared.safe H hE hD hsafe n hexp m).both (ChiSquared.safe H hE hD hsafe n hexp k) fun x y hx hy => ?_
  have hn : ∀ z : ℚ, 0 < z → 0 ≤ ChiSquared.n o.toRealOps z := fun z hz =>
    fl_nonneg H (mul_nonneg (by norm_num) (fl_nonneg H (by linarith)))
  have hnum := fl_nonneg H (mul_nonneg hx (hn k hk))
  have hden := fl_nonneg H (mul_nonneg hy (hn m hm))
  unfold Ieee.div Ieee.infOf
  by_cases h : o.fl (y * ChiSquared.n o.toRealOps m) = 0
  · simp only [if_pos h]
    right
    split
    · exact Or.inl rfl
    · rw [if_neg (not_lt.2 hnum)]; exact Or.inr rfl
  · simp only [if_neg h]
    exact Or.inl ⟨_, rfl, fl_nonneg H (div_nonneg hnum hden)⟩

theorem StudentT.safe (hexp : ∀ x, 0 ≤ o.exp x) (order : Bool) (k : ℚ) :
    SafeRun (fun _ : Ieee ℚ => True) E (StudentT.generate o.toRealOps order k (engineCompound o E n)) := by
  have hnorm : SafeRun (fun _ : ℚ => True) E ((engineCompound o E n).toNumbers.normal o.toRealOps 0 1) :=
    (numbers_safe H hE hD hsafe n).2.2.bind fun v _ => SafeRun.done trivial
  exact hnorm.both (ChiSquared.safe H hE hD hsafe n hexp k) fun _ _ _ _ => trivial

end

/-! ## Numbers of `mt19937` -/

section
variable {o : TrigOps ℚ} (H : Rounding 53 o.fl) (n : Nat)

theorem unif_zero {o : RealOps ℚ} (H : Rounding 53 o.fl) (n : Nat) (rest : List Int) : (engineNumbers o engMt n).unif (0 :: rest) = .done 0 rest := by
  have h0 : o.fl 0 = 0 := H.exact _ (Representable.zero _)
  change (RealDist.uniform01 o.fl engMt (0 :: rest)).run = _
  have h1 : subTy engMt.ty engMt.max engMt.min = some 4294967295 := by decide
  have h2 : subTy engMt.ty 0 engMt.min = some 0 := by decide
  unfold RealDist.uniform01
  rw [h1, h2]
  simp only [Int.cast_zero, h0, zero_mul]
  rw [if_pos (by norm_num)]
  rfl

theorem pair_word {o : RealOps ℚ} (H : Rounding 53 o.fl) (n : Nat) {rest : List Int} (hO : Outputs engMt rest) (k : Nat) (hk : k < 2 ^ 29) :
    (engineSource o engMt n).pair (0 :: (k : Int) :: rest) = .done ((k : ℚ) / 2 ^ 29, 0) rest := by
  have hO' : Outputs engMt (0 :: (k : Int) :: rest) := by
    intro x hx
    rcases List.mem_cons.1 hx with rfl | hx
    · decide
    · rcases List.mem_cons.1 hx with rfl | hx
      · change (0 : Int) ≤ (k : Int) ∧ (k : Int) ≤ 4294967295
        omega
      · exact hO x hx
  obtain ⟨m1, m2, m3, m4, m5⟩ := engineBits_facts engMt_ok
  change (intFloatPair o.fl engMt 53 8 (0 :: (k : Int) :: rest)).run = _
  rw [intFloatPair_eq H (by decide) engMt_ok m1 m2 m3 m4 m5 (w := 8) (by decide) (by decide) (by decide +kernel) _ hO']
  have e : engineBits engMt = 32 := by decide +kernel
  rw [e]
  have hp : pairNat engMt 32 (8 % 32) (tailWidths 32 (53 - (32 - 8 % 32))) (8 / 32) 0 (0 :: (k : Int) :: rest) = .done (k * 2 ^ 24, 0) rest := by
    have h1 : dig engMt (k : Int) = k := by simp [dig, engMt]
    have h2 : dg engMt 32 ((k : Int) :: rest) = .done k rest := by rw [dg, h1, if_pos (by omega)]
    change ((dg engMt 32 ((k : Int) :: rest)).bind fun u xs => Draw.done (0 + u % 2 ^ 29 * 2 ^ 24) xs).bind (fun N xs => Draw.done (N, 0) xs) = _
    rw [h2]
    change Draw.done ((0 + k % 2 ^ 29 * 2 ^ 24 : Nat), (0 : Nat)) rest = _
    rw [Nat.mod_eq_of_lt hk, zero_add]
  rw [hp]
  change Run.done (fracOf o.fl 53 24 (k * 2 ^ 24), 0) rest = _
  rw [fracOf, if_pos (by decide)]
  congr 2
  push_cast
  ring

theorem tables : Exponential.tableX[0]? = some 869711747013104971400000 ∧ Exponential.tableX[1]? = some 769711747013104971400000 := by decide +kernel

/-- The first abscissa. -/
def edge (o : RealOps ℚ) : ℚ := o.fl (869711747013104971400000 / 10 ^ 23)

theorem edge_repr {o : RealOps ℚ} (H : Rounding 53 o.fl) : Representable 53 (edge o) := H.repr _

theorem edge_bounds {o : RealOps ℚ} (H : Rounding 53 o.fl) : 8 ≤ edge o ∧ edge o ≤ 9 := by
  have r8 : Representable 53 (8 : ℚ) := by simpa using Representable.natCast (digits := 53) (N := 8) (by norm_num)
  have r9 : Representable 53 (9 : ℚ) := by simpa using Representable.natCast (digits := 53) (N := 9) (by norm_num)
  constructor
  · have := H.mono 8 (869711747013104971400000 / 10 ^ 23) (by norm_num)
    rwa [H.exact _ r8] at this
  · have := H.mono (869711747013104971400000 / 10 ^ 23) 9 (by norm_num)
    rwa [H.exact _ r9] at this

theorem expo_word {o : RealOps ℚ} (H : Rounding 53 o.fl) (n : Nat) {rest : List Int} (hO : Outputs engMt rest) (k : Nat) (hk : k ≤ 2 ^ 28) :
    (engineNumbers o engMt (n + 1)).expo (0 :: (k : Int) :: rest) = .done (o.fl ((k : ℚ) / 2 ^ 29 * edge o)) rest := by
  have r7 : Representable 53 (7 : ℚ) := by simpa using Representable.natCast (digits := 53) (N := 7) (by norm_num)
  obtain ⟨b1, b2⟩ := edge_bounds H
  have hk' : (k : ℚ) / 2 ^ 29 ≤ 1 / 2 := by
    have : (k : ℚ) ≤ 2 ^ 28 := by exact_mod_cast hk
    rw [div_le_div_iff₀ (by positivity) (by norm_num)]
    linarith
  have hlt : o.fl ((k : ℚ) / 2 ^ 29 * edge o) < o.fl (769711747013104971400000 / 10 ^ 23) := by
    have h1 := H.mono ((k : ℚ) / 2 ^ 29 * edge o) 5 (by nlinarith)
    have r5 : Representable 53 (5 : ℚ) := by simpa using Representable.natCast (digits := 53) (N := 5) (by norm_num)
    have h2 := H.mono 7 (769711747013104971400000 / 10 ^ 23) (by norm_num)
    rw [H.exact _ r5] at h1
    rw [H.exact _ r7] at h2
    linarith
  have e0 : entry o Exponential.tableX 0 = some (edge o) := by rw [entry, tables.1]; rfl
  have e1 : entry o Exponential.tableX 1 = some (o.fl (769711747013104971400000 / 10 ^ 23)) := by rw [entry, tables.2]; rfl
  have hp := pair_word H (n + 1) hO k (by omega)
  change Exponential.unit o { pair := fun xs => (RealDist.intFloatPair o.fl engMt 53 8 xs).run, unif := fun xs => (RealDist.uniform01 o.fl engMt xs).run, expo := fun _ => .ub }
    (n + 1) 0 (0 :: (k : Int) :: rest) = _
  change (intFloatPair o.fl engMt 53 8 (0 :: (k : Int) :: rest)).run = _ at hp
  unfold Exponential.unit Exponential.iter
  simp only [hp, Run.bind, e0, e1, if_pos hlt]
  rw [zero_add, H.exact _ (H.repr _)]

/-- Half of a number is a number. -/
theorem Representable.half {x : ℚ} (h : Representable 53 x) (k : Nat) : Representable 53 (x / 2 ^ k) := by
  obtain ⟨m, e, h1, h2⟩ := h
  refine ⟨m, e - k, h1, ?_⟩
  rw [h2, zpow_sub₀ (by norm_num), zpow_natCast, mul_div_assoc]

theorem expo_half {o : RealOps ℚ} (H : Rounding 53 o.fl) (n : Nat) {rest : List Int} (hO : Outputs engMt rest) :
    (engineNumbers o engMt (n + 1)).expo (0 :: 268435456 :: rest) = .done (edge o / 2) rest := by
  have h := expo_word H n hO 268435456 (by norm_num)
  have e : ((268435456 : Nat) : ℚ) / 2 ^ 29 * edge o = edge o / 2 ^ 1 := by push_cast; ring
  rw [e, H.exact _ (Representable.half (edge_repr H) 1), pow_one] at h
  exact h

theorem expo_quarter {o : RealOps ℚ} (H : Rounding 53 o.fl) (n : Nat) {rest : List Int} (hO : Outputs engMt rest) :
    (engineNumbers o engMt (n + 1)).expo (0 :: 134217728 :: rest) = .done (edge o / 4) rest := by
  have h := expo_word H n hO 134217728 (by norm_num)
  have e : ((134217728 : Nat) : ℚ) / 2 ^ 29 * edge o = edge o / 2 ^ 2 := by push_cast; ring
  rw [e, H.exact _ (Representable.half (edge_repr H) 2)] at h
  norm_num at h ⊢
  exact h

theorem expo_zero {o : RealOps ℚ} (H : Rounding 53 o.fl) (n : Nat) {rest : List Int} (hO : Outputs engMt rest) :
    (engineNumbers o engMt (n + 1)).expo (0 :: 0 :: rest) = .done 0 rest := by
  have h := expo_word H n hO 0 (by norm_num)
  rw [show ((0 : Nat) : ℚ) / 2 ^ 29 * edge o = 0 by simp, H.exact _ (Representable.zero _)] at h
  exact h

/-- The shape one. -/
theorem gamma_one (H : Rounding 53 o.fl) {s s' : List Int} {y b : ℚ} (h : (engineNumbers o.toRealOps engMt n).expo s = .done y s') (hy : Representable 53 y) :
    (engineCompound o engMt n).gamma 1 b s = .done (o.fl (y * b)) s' := by
  change Gamma.generate o (Gamma.init o.toRealOps 1 b) (engineNumbers o.toRealOps engMt n) n s = _
  unfold Gamma.generate Gamma.expo
  rw [if_pos (show (Gamma.init o.toRealOps 1 b).alpha = 1 from rfl), h]
  change Run.done (o.fl (o.fl (y / 1) * b)) s' = _
  rw [div_one, H.exact _ hy]

/-- For a small shape the exponential function underflows: the value is zero. -/
theorem gamma_zero (H : Rounding 53 o.fl) (h0 : ∀ x, x ≤ -746 → o.exp x = 0) (h1 : o.exp 0 = 1) (he : 0 < o.exp 1) {a : ℚ} (b : ℚ) (ha : 0 < a) (ha' : a ≤ 1 / 256)
    {rest : List Int} (hO : Outputs engMt rest) :
    (engineCompound o engMt (n + 1)).gamma a b (0 :: 0 :: 268435456 :: rest) = .done 0 rest := by
  have r5 : Representable 53 (-1024 : ℚ) := ⟨-1024, 0, by norm_num, by norm_num⟩
  obtain ⟨b1, b2⟩ := edge_bounds (o := o.toRealOps) H
  have hz : o.fl 0 = 0 := H.exact _ (Representable.zero _)
  have hr : Representable 53 (edge o.toRealOps / 2) := by simpa using Representable.half (edge_repr (o := o.toRealOps) H) 1
  have hex' : Gamma.expo o.toRealOps (engineNumbers o.toRealOps engMt (n + 1)) (0 :: 268435456 :: rest) = .done (edge o.toRealOps / 2) rest := by
    unfold Gamma.expo
    rw [expo_half H n hO]
    change Run.done (o.fl (_ / 1)) rest = _
    rw [div_one, H.exact _ hr]
  have hp : 0 < (Gamma.init o.toRealOps a b).p := fl_pos' o.toRealOps H (div_pos he (fl_pos' o.toRealOps H (by linarith)))
  have hpr : o.fl (Gamma.init o.toRealOps a b).p = (Gamma.init o.toRealOps a b).p := H.exact _ (H.repr _)
  have hx : o.exp (o.fl (-(edge o.toRealOps / 2) / a)) = 0 := by
    refine h0 _ ?_
    have h2 : -(edge o.toRealOps / 2) / a ≤ -1024 := by
      rw [div_le_iff₀ ha]
      linarith
    have := H.mono _ _ h2
    rw [H.exact _ r5] at this
    linarith
  change Gamma.generate o (Gamma.init o.toRealOps a b) (engineNumbers o.toRealOps engMt (n + 1)) (n + 1) (0 :: 0 :: 268435456 :: rest) = _
  have hc : Gamma.candidate o.toRealOps (Gamma.init o.toRealOps a b) 0 (edge o.toRealOps / 2) = (0, (Gamma.init o.toRealOps a b).p) := by
    unfold Gamma.candidate
    rw [if_pos hp]
    change (o.exp (o.fl (-_ / a)), o.fl (_ * o.exp (-o.exp (o.fl (-_ / a))))) = _
    rw [hx, neg_zero, h1, mul_one, hpr]
  unfold Gamma.generate
  rw [if_neg (show ¬ (Gamma.init o.toRealOps a b).alpha = 1 from fun h => by change a = 1 at h; linarith),
    if_neg (show ¬ 1 < (Gamma.init o.toRealOps a b).alpha from fun h => by change 1 < a at h; linarith)]
  unfold Gamma.small
  rw [unif_zero (o := o.toRealOps) H]
  simp only [Run.bind, hex', hc]
  rw [if_neg (not_le.2 hp), zero_mul, hz]

end

end Boost.Random
