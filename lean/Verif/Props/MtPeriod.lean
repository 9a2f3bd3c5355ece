import Verif.Spec.MtPeriod
import Verif.Proofs.MtPeriod
import Verif.Proofs.MersennePrime
import Verif.Proofs.MtSquares.Mt11213bAll
import Verif.Proofs.MtSquares.Mt19937All
import Verif.Proofs.MtSquares.Mt19937x64All
import Verif.Props.MersenneTwister

/-!
# C135-C136: period and equidistribution of the Mersenne Twister
-/

namespace Boost.Random
open Spec Polynomial

variable {P : Mt.Params}

/-- The typedefs. -/
def MtTypedef (P : Mt.Params) : Prop := P = mt11213b ∨ P = mt19937 ∨ P = mt19937_64

theorem mt_typedef_valid (hP : MtTypedef P) : MtValid P := by
  rcases hP with rfl | rfl | rfl
  · exact mt11213b_valid
  · exact mt19937_valid
  · exact mt19937_64_valid

theorem mt_cert {n B : Nat} (h : mtBits P = n) (hr : Gf2N.Reach (mtChar P) B n 2) (hp : (2 ^ n - 1).Prime) :
    mtChar P ∣ X ^ 2 ^ mtBits P - X ∧ (2 ^ mtBits P - 1).Prime := by
  subst h
  have := hr.dvd
  rw [Gf2N.bitPoly_two] at this
  exact ⟨this, hp⟩

/-- What the kernel has computed. -/
theorem mt_typedef_cert (hP : MtTypedef P) : mtChar P ∣ X ^ 2 ^ mtBits P - X ∧ (2 ^ mtBits P - 1).Prime := by
  rcases hP with rfl | rfl | rfl
  · exact mt_cert (by decide) Gf2N.Mt11213b.all Gf2N.prime11213
  · exact mt_cert (by decide) Gf2N.Mt19937.all Gf2N.prime19937
  · exact mt_cert (by decide) Gf2N.Mt19937x64.all Gf2N.prime19937

/-- The words that a live engine returns, before the tempering. -/
theorem mt_words (hv : MtValid P) (st : BlockEng Nat) (h : MtLive P st) : ∃ W, IsMt P W ∧ (∀ k, W k < 2 ^ P.w) ∧ Mt.Norm P W ∧
    Returns (Mt.next P) st (fun j => Mt.temper P (W j)) ∧ (MtDegenerate P st ↔ ∀ t, W t = 0) := by
  obtain ⟨hs, hl⟩ := h
  have h1 := hv.m_lt; have h2 := hv.m_two
  obtain ⟨X, hX, bX, xX, nX⟩ : ∃ X, IsMt P X ∧ (∀ k, X k < 2 ^ P.w) ∧ (∀ j < P.n, st.x[j]? = some (X j)) ∧ (st.i = 0 → Mt.Norm P X) := by
    rcases hl with h | h
    · obtain ⟨X, a, b, c⟩ := Mt.exists_seq hv st.x hs.len hs.lt
      exact ⟨X, a, b, c, fun h0 => by omega⟩
    · obtain ⟨X, a, b, d, c⟩ := mt_norm hv h
      exact ⟨X, a, b, c, fun _ => d⟩
  have hn : Mt.Norm P fun k => X (k + st.i) := by
    by_cases h0 : st.i = 0
    · rw [h0]; exact nX h0
    · have := Mt.norm_of_pred hv (Mt.IsMt.shift hX (st.i - 1)) fun k => bX _
      refine cast ?_ this
      congr 1; funext k; congr 1; omega
  refine ⟨fun k => X (k + st.i), Mt.IsMt.shift hX st.i, fun k => bX _, hn, fun k => ?_, ?_⟩
  · obtain ⟨st', e, _⟩ := Mt.run_spec hv hX bX st.i st (BlockAt.init hs.len hs.i xX) k
    refine ⟨st', ?_⟩
    rw [e]
    congr 2
    refine List.map_congr_left fun j _ => ?_
    rw [Nat.add_comm]
  · constructor
    · rintro ⟨⟨v, e0, hvr⟩, hz⟩ t
      rw [xX 0 (by omega), Option.some.injEq] at e0
      have hz' : ∀ j, 1 ≤ j → j < P.n → X j = 0 := fun j hj hj' => by
        have := hz j hj hj'
        rw [xX j hj', Option.some.injEq] at this
        exact this
      have hw := Mt.window_next hv hX Mt.isMt_zero (by
        refine Prod.ext ?_ (funext fun j => ?_)
        · show X 0 / 2 ^ P.r = 0 / 2 ^ P.r
          rw [e0, Nat.div_eq_of_lt hvr, Nat.zero_div]
        · exact hz' _ (by omega) (by have := j.2; omega))
      by_cases h0 : st.i = 0
      · have := Mt.IsMt.back hv hX Mt.isMt_zero bX (fun _ => Nat.two_pow_pos _) (nX h0) (Mt.norm_zero hv) 1
          (fun k => by rw [Nat.add_comm 1 k]; exact hw k)
        exact this _
      · have := hw (t + st.i - 1)
        rw [show t + st.i - 1 + 1 = t + st.i by omega] at this
        exact this
    · intro h
      have hY := Mt.IsMt.back hv (Mt.IsMt.shift hX 1) Mt.isMt_zero (fun k => bX _) (fun _ => Nat.two_pow_pos _) (Mt.norm_of_pred hv hX bX) (Mt.norm_zero hv) st.i
        (fun k => by
          have := h (k + 1)
          show X (st.i + k + 1) = 0
          rw [← this]
          congr 1; omega)
      refine ⟨⟨X 0, xX 0 (by omega), ?_⟩, fun j hj hj' => by
        rw [xX j hj']
        have := hY (j - 1)
        rw [show j - 1 + 1 = j by omega] at this
        rw [this]⟩
      have e := hX 0
      have ym := hY (P.m - 1)
      have yn := hY (P.n - 1)
      rw [show P.m - 1 + 1 = P.m by omega] at ym
      rw [show P.n - 1 + 1 = P.n by omega] at yn
      rw [Nat.zero_add, Nat.zero_add, yn, ym, Nat.zero_xor] at e
      have := Mt.zero_of_mtA hv (Mt.join_lt hv (bX 0)) e.symm
      have e2 := Mt.join_div P.r (X 0) (X (0 + 1))
      rw [this, Nat.zero_div] at e2
      exact (Nat.div_eq_zero_iff_lt (Nat.two_pow_pos _)).1 e2.symm

/-- What the engine returns is determined by its state. -/
theorem Returns.unique {σ : Type} {next : σ → Option (Nat × σ)} {st : σ} {out out' : Nat → Nat} (h : Returns next st out) (h' : Returns next st out') :
    out = out' := by
  funext j
  obtain ⟨s, e⟩ := h (j + 1)
  obtain ⟨s', e'⟩ := h' (j + 1)
  rw [e, Option.some.injEq, Prod.mk.injEq] at e'
  have := congrArg (fun l => l[j]?) e'.1
  simpa using this

/-! ## C135: the period -/

/-- **C135.** `mt11213b`, `mt19937` and `mt19937_64` have the period `2 ^ (w n - r) - 1` from every state the engine can be in
except the degenerate ones: the sequence returned repeats after that many values, and after no number of values that
is not a multiple of it. -/
theorem c135_period (hP : MtTypedef P) (st : BlockEng Nat) (h : MtLive P st) (hd : ¬ MtDegenerate P st) :
    ∃ out, Returns (Mt.next P) st out ∧ HasPeriod out (mtPeriod P) := by
  have hv := mt_typedef_valid hP
  obtain ⟨hc, hp⟩ := mt_typedef_cert hP
  obtain ⟨W, hW, hb, hn, hr, hz⟩ := mt_words hv st h
  rw [hz] at hd
  push Not at hd
  refine ⟨_, hr, hp.pos, fun q => ?_⟩
  rw [mtPeriod, ← mtBits, ← Mt.period_iff hv hc hp hW hb hn hd q]
  exact ⟨fun h t => Mt.temper_inj hv (h t), fun h j => congrArg (Mt.temper P) (h j)⟩

/-- C135: the degenerate states return nothing but zeros. -/
theorem c135_degenerate (hv : MtValid P) (st : BlockEng Nat) (h : MtLive P st) :
    MtDegenerate P st ↔ Returns (Mt.next P) st fun _ => 0 := by
  obtain ⟨W, hW, hb, hn, hr, hz⟩ := mt_words hv st h
  rw [hz]
  constructor
  · intro h0
    have : (fun j => Mt.temper P (W j)) = fun _ => 0 := funext fun j => by rw [h0, Mt.temper_zero]
    rwa [this] at hr
  · intro h0 t
    exact Mt.temper_inj hv ((congrFun (Returns.unique hr h0) t).trans Mt.temper_zero.symm)

theorem mt_seeded_live (hv : MtValid P) (ws : List Nat) (hl : ws.length = P.n) (hw : ∀ v ∈ ws, v < 2 ^ P.w) :
    ∃ st, Mt.seedWords P ws = some st ∧ MtLive P st ∧ MtReachable P st ∧ ¬ MtDegenerate P st := by
  obtain ⟨st, e, hs, hr, hi, hk⟩ := c21_seed_words_never_stuck hv ws hl hw
  refine ⟨st, e, ⟨hs, Or.inr hr⟩, hr, fun hd => ?_⟩
  obtain ⟨vs, st', e', v, hvm, hv0⟩ := hk 0
  obtain ⟨st'', e''⟩ := (c135_degenerate hv st ⟨hs, Or.inr hr⟩).1 hd (0 + P.n)
  rw [e', Option.some.injEq, Prod.mk.injEq] at e''
  rw [List.drop_zero, e''.1, List.mem_map] at hvm
  obtain ⟨_, _, h0⟩ := hvm
  exact hv0 h0.symm

/-- **C135.** The period after `seed(seq)` or `seed(first, last)`, whatever words are stored. -/
theorem c135_seed_words (hP : MtTypedef P) (ws : List Nat) (hl : ws.length = P.n) (hw : ∀ v ∈ ws, v < 2 ^ P.w) :
    ∃ st out, Mt.seedWords P ws = some st ∧ Returns (Mt.next P) st out ∧ HasPeriod out (mtPeriod P) := by
  obtain ⟨st, e, hs, _, hd⟩ := mt_seeded_live (mt_typedef_valid hP) ws hl hw
  obtain ⟨out, h⟩ := c135_period hP st hs hd
  exact ⟨st, out, e, h⟩

theorem mt_seed_live (hv : MtValid P) (value : Nat) : ∃ st, Mt.seed P value = some st ∧ MtLive P st ∧ MtReachable P st ∧ ¬ MtDegenerate P st := by
  have hm := hv.m_lt
  obtain ⟨l, b⟩ := Mt.seedLoop_spec (P := P) (P.n - 1) 1 (value &&& Mt.maxv P)
  exact mt_seeded_live hv _ (by rw [List.length_cons, l]; omega) (by
    intro v hv
    rcases List.mem_cons.1 hv with rfl | h
    · rw [Mt.maxv_and]; exact Nat.mod_lt _ (Nat.two_pow_pos _)
    · exact b v h)

/-- **C135.** The period after `seed(value)`, for every value. -/
theorem c135_seed_value (hP : MtTypedef P) (value : Nat) :
    ∃ st out, Mt.seed P value = some st ∧ Returns (Mt.next P) st out ∧ HasPeriod out (mtPeriod P) := by
  obtain ⟨st, e, hs, _, hd⟩ := mt_seed_live (mt_typedef_valid hP) value
  obtain ⟨out, h⟩ := c135_period hP st hs hd
  exact ⟨st, out, e, h⟩

/-- The periods of the typedefs. -/
theorem c135_values : mtPeriod mt11213b = 2 ^ 11213 - 1 ∧ mtPeriod mt19937 = 2 ^ 19937 - 1 ∧ mtPeriod mt19937_64 = 2 ^ 19937 - 1 := by
  have h : ∀ {P : Mt.Params} {n : Nat}, P.w * P.n - P.r = n → mtPeriod P = 2 ^ n - 1 := fun h => by rw [mtPeriod, h]
  exact ⟨h (by decide), h (by decide), h (by decide)⟩

/-- A state that meets the hypotheses: the default one. -/
example : ∃ st, Mt.seed mt19937 5489 = some st ∧ MtLive mt19937 st ∧ MtReachable mt19937 st ∧ ¬ MtDegenerate mt19937 st := mt_seed_live mt19937_valid 5489
/-- A sequence with a period of 3. -/
example : HasPeriod (fun j => j % 3) 3 := ⟨by decide, fun q => by
  constructor
  · intro h; have := h 0; simp at this; omega
  · rintro ⟨m, rfl⟩ j; simp⟩

/-- **C135.** As `operator==` sees it: after `q` calls the engine is equal to what it was exactly if `q` is a multiple of the period. -/
theorem c135_eq (hP : MtTypedef P) (st : BlockEng Nat) (hs : MtShape P st) (hr : MtReachable P st) (hd : ¬ MtDegenerate P st) (q : Nat) :
    ∃ vs st' res, run (Mt.next P) q st = some (vs, st') ∧ Mt.eq P st' st = some res ∧ (res = true ↔ mtPeriod P ∣ q) := by
  have hv := mt_typedef_valid hP
  have live : ∀ q, ∃ vs st', run (Mt.next P) q st = some (vs, st') ∧ MtShape P st' ∧ MtReachable P st' := by
    intro q
    have main : ∀ q (s : BlockEng Nat), MtShape P s → MtReachable P s → ∃ vs s', run (Mt.next P) q s = some (vs, s') ∧ MtShape P s' ∧ MtReachable P s' := by
      intro q
      induction q with
      | zero => exact fun s a b => ⟨[], s, rfl, a, b⟩
      | succ q ih =>
        intro s a b
        obtain ⟨v, s1, e1, l1, r1⟩ := c22_live hv s ⟨a, Or.inr b⟩
        obtain ⟨vs, s2, e2, a2, b2⟩ := ih s1 l1.1 r1
        exact ⟨v :: vs, s2, by rw [run_succ_of e1, e2]; rfl, a2, b2⟩
    exact main q st hs hr
  obtain ⟨vs, st', e, hs', hr'⟩ := live q
  obtain ⟨res, er, hres⟩ := c22_eq hv st' st hs' hs hr' hr
  refine ⟨vs, st', res, e, er, hres.trans ?_⟩
  obtain ⟨out, ho, hper⟩ := c135_period hP st ⟨hs, Or.inr hr⟩ hd
  have ho' : Returns (Mt.next P) st' fun j => out (j + q) := by
    intro k
    obtain ⟨s2, e2⟩ := ho (q + k)
    rw [run_add, e, Option.bind_some] at e2
    obtain ⟨⟨ws, s3⟩, e3, e4⟩ := Option.map_eq_some_iff.1 e2
    refine ⟨s3, ?_⟩
    rw [e3]
    have e5 := congrArg (fun l => l.drop q) (Prod.mk.inj e4).1
    obtain ⟨s4, e6⟩ := ho q
    rw [e, Option.some.injEq, Prod.mk.injEq] at e6
    simp only [e6.1] at e5
    rw [List.drop_left' (by simp), List.range_add, List.map_append, List.drop_left' (by simp), List.map_map] at e5
    rw [e5]
    congr 2
    refine List.map_congr_left fun j _ => ?_
    show out (q + j) = _
    rw [Nat.add_comm]
  rw [← hper.2 q]
  constructor
  · intro h j
    have := h (j + 1)
    obtain ⟨s1, e1⟩ := ho' (j + 1)
    obtain ⟨s2, e2⟩ := ho (j + 1)
    rw [e1, e2, Option.map_some, Option.map_some, Option.some.injEq] at this
    have := congrArg (fun l => l[j]?) this
    simpa using this
  · intro h n
    obtain ⟨s1, e1⟩ := ho' n
    obtain ⟨s2, e2⟩ := ho n
    rw [e1, e2]
    simp only [Option.map_some, h]

/-! ## C136: equidistribution -/

/-- **C136.** In a whole period, taken from any state that is not degenerate, every sequence of `n - 1` values of `w` bits is
returned `2 ^ (w - r)` times, and the sequence of `n - 1` zeros once less: the engine is equidistributed in `n - 1`
dimensions to the full accuracy of its words. -/
theorem c136_equidistributed (hP : MtTypedef P) (st : BlockEng Nat) (h : MtLive P st) (hd : ¬ MtDegenerate P st) :
    ∃ out, Returns (Mt.next P) st out ∧ ∀ v : Fin (P.n - 1) → Nat, (∀ j, v j < 2 ^ P.w) →
      ((Finset.range (mtPeriod P)).filter fun t => ∀ j : Fin (P.n - 1), out (t + j) = v j).card + (if ∀ j, v j = 0 then 1 else 0) = 2 ^ (P.w - P.r) := by
  have hv := mt_typedef_valid hP
  obtain ⟨hc, hp⟩ := mt_typedef_cert hP
  obtain ⟨W, hW, hb, hn, hr, hz⟩ := mt_words hv st h
  rw [hz] at hd
  push Not at hd
  refine ⟨_, hr, fun v hvl => ?_⟩
  choose u hu using fun j => Mt.temper_surj hv (hvl j)
  have := Mt.count_words hv hc hp hW hb hn hd 0 u fun j => (hu j).1
  rw [mtPeriod, ← mtBits, ← this]
  congr 2
  · refine Finset.filter_congr fun t _ => forall_congr' fun j => ?_
    rw [Nat.zero_add, ← (hu j).2]
    exact ⟨fun h => Mt.temper_inj hv h, fun h => by rw [h]⟩
  · refine propext (forall_congr' fun j => ?_)
    rw [← (hu j).2]
    exact ⟨fun h => Mt.temper_inj hv (h.trans Mt.temper_zero.symm), fun h => by rw [h, Mt.temper_zero]⟩

/-- 623 dimensions, and each sequence of 623 words twice in a period. -/
example : mt19937.n - 1 = 623 ∧ 2 ^ (mt19937.w - mt19937.r) = 2 ∧ mt19937_64.n - 1 = 311 ∧ 2 ^ (mt19937_64.w - mt19937_64.r) = 2 ^ 33 ∧
    mt11213b.n - 1 = 350 ∧ 2 ^ (mt11213b.w - mt11213b.r) = 2 ^ 13 := by decide

/-- **C136.** All states that are not degenerate lie on one cycle: from any of them the engine comes to return what it returns
from any other. Two seeds choose two places of the same sequence. -/
theorem c136_one_cycle (hP : MtTypedef P) (a b : BlockEng Nat) (ha : MtLive P a) (hb : MtLive P b) (da : ¬ MtDegenerate P a) (db : ¬ MtDegenerate P b) :
    ∃ outA outB, Returns (Mt.next P) a outA ∧ Returns (Mt.next P) b outB ∧ ∃ t < mtPeriod P, ∀ j, outA (j + t) = outB j := by
  have hv := mt_typedef_valid hP
  obtain ⟨hc, hp⟩ := mt_typedef_cert hP
  obtain ⟨W, hW, bW, nW, rW, zW⟩ := mt_words hv a ha
  obtain ⟨V, hV, bV, nV, rV, zV⟩ := mt_words hv b hb
  rw [zW] at da
  rw [zV] at db
  push Not at da db
  refine ⟨_, _, rW, rV, ?_⟩
  have hm : Mt.window P V 0 ∈ (Finset.range (2 ^ mtBits P - 1)).image (Mt.window P W) := by
    have hpos := hp.pos
    rw [Mt.windows_image hv hc hp hW bW nW da, ← Mt.windows_image hv hc hp hV bV nV db]
    exact Finset.mem_image_of_mem _ (Finset.mem_range.2 hpos)
  obtain ⟨t, ht, e⟩ := Finset.mem_image.1 hm
  refine ⟨t, Finset.mem_range.1 ht, fun j => ?_⟩
  rw [Mt.window_seq hv hW hV bW bV nW nV e j]

end Boost.Random
