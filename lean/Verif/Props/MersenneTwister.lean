import Verif.Proofs.MtBack

/-!
# C20-C23: Mersenne Twister
-/

namespace Boost.Random
open Spec

variable {P : Mt.Params}

theorem mt11213b_valid : MtValid mt11213b := by constructor <;> decide
theorem mt19937_valid : MtValid mt19937 := by constructor <;> decide
theorem mt19937_64_valid : MtValid mt19937_64 := by constructor <;> decide

/-- C22: the parameters of the library's engines meet the hypotheses of the theorems below. -/
theorem c22_typedefs : MtValid mt11213b ∧ MtValid mt19937 ∧ MtValid mt19937_64 := ⟨mt11213b_valid, mt19937_valid, mt19937_64_valid⟩

/-- A small engine for concrete cases: 8-bit words, 5 of them. -/
def mtTiny : Mt.Params := ⟨8, 8, 5, 3, 3, 0xb7, 3, 0xff, 2, 0x9c, 4, 0xe0, 5, 69⟩
theorem mtTiny_valid : MtValid mtTiny := by constructor <;> decide

/-! ## C20: the recurrence -/

/-- **C20.** From every array, the words follow the recurrence of Matsumoto and Nishimura for ever: `k` calls
return the tempered `X(i), ..., X(i+k-1)`, where `X` starts with the array. The four unrolled loops never access
anything outside the array. -/
theorem c20_recurrence (hv : MtValid P) (st : BlockEng Nat) (h : MtShape P st) :
    ∃ X, IsMt P X ∧ (∀ j < P.n, st.x[j]? = some (X j)) ∧
      ∀ k, ∃ st', run (Mt.next P) k st = some ((List.range k).map fun j => mtTemper P (X (st.i + j)), st') ∧ MtShape P st' := by
  obtain ⟨X, hX, hb, hx⟩ := Mt.exists_seq hv st.x h.len h.lt
  refine ⟨X, hX, hx, fun k => ?_⟩
  obtain ⟨st', e, hi, B, _, hw⟩ := Mt.run_spec hv hX hb st.i st (BlockAt.init h.len h.i hx) k
  refine ⟨st', ?_, hw.len, fun v hv => ?_, hi⟩
  · rw [e]
    congr 2
    exact List.map_congr_left fun j _ => Mt.temper_eq hv (hb _)
  · obtain ⟨j, hj, rfl⟩ := List.mem_iff_getElem.1 hv
    have := hw.get j (by rw [← hw.len]; exact hj)
    rw [if_neg (by omega), List.getElem?_eq_getElem hj] at this
    rw [Option.some.injEq] at this
    rw [this]; exact hb _

example : MtShape mtTiny ⟨[1, 2, 3, 4, 250], 5⟩ := ⟨rfl, by decide, by decide⟩
example : (run (Mt.next mtTiny) 3 ⟨[1, 2, 3, 4, 250], 5⟩).map Prod.fst = some [17, 83, 190] := by decide

/-- C20: the tempering is a bijection of the `w`-bit words. -/
theorem c20_temper_bijective (hv : MtValid P) :
    (∀ x, x < 2 ^ P.w → Mt.temper P x < 2 ^ P.w) ∧ (∀ x y, Mt.temper P x = Mt.temper P y → x = y) ∧
      ∀ v, v < 2 ^ P.w → ∃ x < 2 ^ P.w, Mt.temper P x = v :=
  ⟨fun _ h => Mt.temper_lt hv h, fun _ _ h => Mt.temper_inj hv h, fun _ h => Mt.temper_surj hv h⟩

/-- C20: with `r = 0`, which the published algorithm allows (the matrix applies to the whole of `x(k)`), the code
tests the lowest bit of the wrong word, and the recurrence is not followed. -/
theorem c20_r_zero_false : ∃ (P : Mt.Params) (st : BlockEng Nat), P.r = 0 ∧ P = { mtTiny with r := 0 } ∧ MtShape P st ∧
    ∃ v x', Mt.twist P st.x = some (v :: x') ∧
      v ≠ (st.x.getD P.m 0) ^^^ mtA P.a (mtJoin P.r (st.x.getD 0 0) (st.x.getD 1 0)) :=
  ⟨{ mtTiny with r := 0 }, ⟨[1, 2, 3, 4, 250], 5⟩, rfl, rfl, ⟨rfl, by decide, by decide⟩, 4, _, by rfl, by decide⟩

/-! ## C21: range and seeding -/

/-- **C21.** Every value returned is between `min()` and `max()`. -/
theorem c21_range (hv : MtValid P) (st : BlockEng Nat) (h : MtShape P st) :
    ∃ v st', Mt.next P st = some (v, st') ∧ Mt.minv ≤ v ∧ v ≤ Mt.maxv P ∧ MtShape P st' := by
  obtain ⟨X, hX, hb, hx⟩ := Mt.exists_seq hv st.x h.len h.lt
  obtain ⟨st', e, hi, B, _, hw⟩ := Mt.next_spec hv hX hb st.i st (BlockAt.init h.len h.i hx)
  refine ⟨_, st', e, Nat.zero_le _, ?_, hw.len, fun v hv => ?_, hi⟩
  · have := Mt.temper_lt hv (hb st.i)
    unfold Mt.maxv; omega
  · obtain ⟨j, hj, rfl⟩ := List.mem_iff_getElem.1 hv
    have := hw.get j (by rw [← hw.len]; exact hj)
    rw [if_neg (by omega), List.getElem?_eq_getElem hj, Option.some.injEq] at this
    rw [this]; exact hb _

/-- What holds after seeding. -/
theorem mt_seeded (hv : MtValid P) (ws : List Nat) (hl : ws.length = P.n) (hw : ∀ v ∈ ws, v < 2 ^ P.w) :
    ∃ st, Mt.seedWords P ws = some st ∧ st.i = P.n ∧ MtShape P st ∧ MtReachable P st ∧ (∃ v ∈ st.x, v ≠ 0) ∧
      (∀ j, 1 ≤ j → st.x[j]? = ws[j]?) ∧ ((∃ v ∈ ws.drop 1, v ≠ 0) → ∃ v0 v1, ws[0]? = some v0 ∧ st.x[0]? = some v1 ∧
        v1 / 2 ^ P.r = v0 / 2 ^ P.r) := by
  obtain ⟨x', e, l', b', z', n', j', u'⟩ := Mt.normalize_spec hv ws hl hw
  refine ⟨⟨x', P.n⟩, by rw [Mt.seedWords, e]; rfl, rfl, ⟨l', b', le_rfl⟩, ?_, z', j', u'⟩
  obtain ⟨X, hX, hb, hx⟩ := Mt.exists_seq hv x' l' b'
  obtain ⟨W, _, w1, hW, bW, _⟩ := Mt.exists_pred hv hX hb (n' X hx) _ rfl
  exact ⟨W, hW, bW, fun j hj => by rw [w1]; exact hx j hj⟩

/-- The array of a reachable state and its sequence. -/
theorem mt_norm (hv : MtValid P) {st : BlockEng Nat} (hr : MtReachable P st) :
    ∃ X, IsMt P X ∧ (∀ k, X k < 2 ^ P.w) ∧ Mt.Norm P X ∧ ∀ j < P.n, st.x[j]? = some (X j) := by
  obtain ⟨W, hW, bW, hx⟩ := hr
  exact ⟨fun k => W (k + 1), Mt.IsMt.shift hW 1, fun k => bW _, Mt.norm_of_pred hv hW bW, hx⟩

/-- **C21.** Whatever words `seed(seq)` or `seed(first, last)` stores, the engine never returns `n` zeros in a row:
it is not in, and never reaches, the degenerate state. -/
theorem c21_seed_words_never_stuck (hv : MtValid P) (ws : List Nat) (hl : ws.length = P.n) (hw : ∀ v ∈ ws, v < 2 ^ P.w) :
    ∃ st, Mt.seedWords P ws = some st ∧ MtShape P st ∧ MtReachable P st ∧ st.i = P.n ∧
      ∀ k, ∃ vs st', run (Mt.next P) (k + P.n) st = some (vs, st') ∧ ∃ v ∈ vs.drop k, v ≠ 0 := by
  obtain ⟨st, e, hi, hs, hr, ⟨v, hvm, hv0⟩, _⟩ := mt_seeded hv ws hl hw
  refine ⟨st, e, hs, hr, hi, fun k => ?_⟩
  obtain ⟨X, hX, hb, hn, hx⟩ := mt_norm hv hr
  obtain ⟨st', e', _⟩ := Mt.run_spec hv hX hb st.i st (BlockAt.init hs.len hs.i hx) (k + P.n)
  refine ⟨_, st', e', ?_⟩
  obtain ⟨j, hj, hne⟩ := Mt.never_zero hv hX hb hn (by
    obtain ⟨j, hj, rfl⟩ := List.mem_iff_getElem.1 hvm
    have := hx j (by rw [← hs.len]; exact hj)
    rw [List.getElem?_eq_getElem hj, Option.some.injEq] at this
    exact ⟨j, by rw [← hs.len]; exact hj, by rw [← this]; exact hv0⟩) (st.i + k)
  refine ⟨Mt.temper P (X (st.i + (k + j))), ?_, ?_⟩
  · apply List.mem_of_getElem? (i := j)
    rw [List.getElem?_drop, List.getElem?_map, List.getElem?_range (by omega)]
    rfl
  · intro h
    rw [← Nat.add_assoc] at h
    exact hne (Mt.temper_inj hv (h.trans Mt.temper_zero.symm))

example : (Mt.seedWords mtTiny [7, 0, 0, 0, 0]).map (·.x) = some [128, 0, 0, 0, 0] := by decide

/-- **C21.** The same for `seed(value)`, for every value. -/
theorem c21_seed_value_never_stuck (hv : MtValid P) (value : Nat) :
    ∃ st, Mt.seed P value = some st ∧ MtShape P st ∧ MtReachable P st ∧ st.i = P.n ∧
      ∀ k, ∃ vs st', run (Mt.next P) (k + P.n) st = some (vs, st') ∧ ∃ v ∈ vs.drop k, v ≠ 0 := by
  have hm := hv.m_lt
  obtain ⟨l, b⟩ := Mt.seedLoop_spec (P := P) (P.n - 1) 1 (value &&& Mt.maxv P)
  exact c21_seed_words_never_stuck hv _ (by rw [List.length_cons, l]; omega) (by
    intro v hv
    rcases List.mem_cons.1 hv with rfl | h
    · rw [Mt.maxv_and]; exact Nat.mod_lt _ (Nat.two_pow_pos _)
    · exact b v h)

example : ((Mt.seed mtTiny 0).bind (run (Mt.next mtTiny) 6)).map Prod.fst = some [136, 21, 29, 127, 33, 0] := by decide

/-- The documented seeding recurrence. -/
def IsMtSeed (P : Mt.Params) (value : Nat) (Z : Nat → Nat) : Prop :=
  Z 0 = value % 2 ^ P.w ∧ ∀ i, Z (i + 1) = (i + 1 + P.f * (Z i ^^^ (Z i / 2 ^ (P.w - 2)))) % 2 ^ P.w

theorem mt_seedLoop_get (hv : MtValid P) {value : Nat} {Z : Nat → Nat} (hZ : IsMtSeed P value Z) (k : Nat) : ∀ i,
    Mt.seedLoop P k (i + 1) (Z i) = (List.range k).map fun j => Z (i + 1 + j) := by
  induction k with
  | zero => intro i; rfl
  | succ k ih =>
    intro i
    have e : (P.f * (Z i ^^^ (Z i >>> (P.w - 2))) + (i + 1)) % 2 ^ P.bits &&& Mt.maxv P = Z (i + 1) := by
      rw [Mt.maxv_and, hZ.2 i, Nat.mod_mod_of_dvd _ (Nat.pow_dvd_pow 2 hv.w_le), Nat.shiftRight_eq_div_pow, Nat.add_comm]
    rw [Mt.seedLoop, e, ih (i + 1), List.range_succ_eq_map, List.map_cons, List.map_map, Nat.add_zero]
    congr 1
    apply List.map_congr_left
    intro j _
    show Z (i + 1 + 1 + j) = Z (i + 1 + (j + 1))
    congr 1; omega

/-- C21: `seed(value)` stores the documented sequence: `x(0) = value mod 2^w`,
`x(i) = i + f * (x(i-1) xor x(i-1) >> (w-2)) mod 2^w` (then normalizes it). -/
theorem c21_seed_value (hv : MtValid P) (value : Nat) (Z : Nat → Nat) (hZ : IsMtSeed P value Z) :
    Mt.seed P value = Mt.seedWords P ((List.range P.n).map Z) := by
  have hm := hv.m_lt
  have e0 : value &&& Mt.maxv P = Z 0 := by rw [Mt.maxv_and, hZ.1]
  have : Z 0 :: Mt.seedLoop P (P.n - 1) 1 (Z 0) = (List.range P.n).map Z := by
    rw [mt_seedLoop_get hv hZ (P.n - 1) 0]
    obtain ⟨n, hn⟩ : ∃ n, P.n = n + 1 := ⟨P.n - 1, by omega⟩
    rw [hn, List.range_succ_eq_map, List.map_cons, List.map_map]
    congr 1
    apply List.map_congr_left
    intro j _
    show Z (0 + 1 + j) = Z (j + 1)
    congr 1; omega
  rw [Mt.seed, e0, this]
  rfl

/-- Such a sequence exists for every value. -/
example (P : Mt.Params) (value : Nat) : ∃ Z, IsMtSeed P value Z :=
  ⟨fun n => Nat.rec (value % 2 ^ P.w) (fun i z => (i + 1 + P.f * (z ^^^ (z / 2 ^ (P.w - 2)))) % 2 ^ P.w) n, rfl, fun _ => rfl⟩

/-- C21: every value from `min()` to `max()` is the first value returned after some seeding. -/
theorem c21_range_tight (hv : MtValid P) (v : Nat) (h : v ≤ Mt.maxv P) : ∃ ws : List Nat, ws.length = P.n ∧ (∀ u ∈ ws, u < 2 ^ P.w) ∧
    ∃ st st', Mt.seedWords P ws = some st ∧ Mt.next P st = some (v, st') := by
  have hm := hv.m_lt
  have h2 := hv.m_two
  have hr := hv.r_lt
  obtain ⟨y, hy, e⟩ := Mt.temper_surj hv (v := v) (by have := Nat.two_pow_pos P.w; unfold Mt.maxv at h; omega)
  let ws := ((List.replicate P.n 0).set 1 (2 ^ (P.w - 1))).set P.m y
  have hl : ws.length = P.n := by simp [ws]
  have hlt : ∀ u ∈ ws, u < 2 ^ P.w := by
    intro u hu
    rcases List.mem_or_eq_of_mem_set hu with h | rfl
    · rcases List.mem_or_eq_of_mem_set h with h | rfl
      · rw [List.eq_of_mem_replicate h]; exact Nat.two_pow_pos _
      · exact Nat.pow_lt_pow_right (by omega) (by omega)
    · exact hy
  have g0 : ws[0]? = some 0 := by
    rw [List.getElem?_set_ne (by omega), List.getElem?_set_ne (by omega), List.getElem?_replicate, if_pos (by omega)]
  have g1 : ws[1]? = some (2 ^ (P.w - 1)) := by
    rw [List.getElem?_set_ne (by omega), List.getElem?_set_self (by simp; omega)]
  have gm : ws[P.m]? = some y := List.getElem?_set_self (by simp; omega)
  refine ⟨ws, hl, hlt, ?_⟩
  obtain ⟨st, es, hi, hs, hr', _, hj, hu⟩ := mt_seeded hv ws hl hlt
  obtain ⟨v0, v1, e0, e1, e2⟩ := hu ⟨2 ^ (P.w - 1), by
    apply List.mem_of_getElem? (i := 0)
    rw [List.getElem?_drop]; exact g1, (Nat.two_pow_pos _).ne'⟩
  rw [g0, Option.some.injEq] at e0
  obtain ⟨X, hX, hb, hx⟩ := Mt.exists_seq hv st.x hs.len hs.lt
  obtain ⟨st', en, _⟩ := Mt.next_spec hv hX hb st.i st (BlockAt.init hs.len hs.i hx)
  refine ⟨st, st', es, ?_⟩
  rw [en, ← e]
  have x0 := hx 0 (by omega)
  have x1 := hx 1 (by omega)
  have xm := hx P.m hm
  rw [e1, Option.some.injEq] at x0
  rw [hj 1 le_rfl, g1, Option.some.injEq] at x1
  rw [hj P.m (by omega), gm, Option.some.injEq] at xm
  have := hX 0
  rw [Nat.zero_add, Nat.zero_add, Nat.zero_add, ← x1, ← xm, ← x0, mtJoin, e2, ← e0, Nat.zero_div, Nat.zero_mul,
    Nat.mod_eq_zero_of_dvd (Nat.pow_dvd_pow 2 (by omega))] at this
  rw [hi, this]
  simp [mtA]

/-! ## C22: equality -/

/-- The states an engine can be in: any array right after seeding or reading, or one the engine has itself produced. -/
def MtLive (P : Mt.Params) (st : BlockEng Nat) : Prop := MtShape P st ∧ (st.i = P.n ∨ MtReachable P st)

/-- C22: the states an engine can be in are closed under calls. -/
theorem c22_live (hv : MtValid P) (st : BlockEng Nat) (h : MtLive P st) :
    ∃ v st', Mt.next P st = some (v, st') ∧ MtLive P st' ∧ MtReachable P st' := by
  obtain ⟨hs, hl⟩ := h
  have hm := hv.m_lt
  obtain ⟨v, st', e, _, _, hs'⟩ := c21_range hv st hs
  refine ⟨v, st', e, ?_⟩
  suffices MtReachable P st' from ⟨⟨hs', Or.inr this⟩, this⟩
  obtain ⟨X, hX, hb, hx⟩ := Mt.exists_seq hv st.x hs.len hs.lt
  obtain ⟨st'', e', hi, B, ht, hw⟩ := Mt.next_spec hv hX hb st.i st (BlockAt.init hs.len hs.i hx)
  rw [e] at e'
  obtain rfl : st' = st'' := by simpa using congrArg (Option.map Prod.snd) e'
  by_cases hin : st.i = P.n
  · -- a new block
    have hB : 1 ≤ B := by
      by_contra hc
      obtain rfl : B = 0 := by omega
      omega
    have hBn : 1 ≤ B * P.n := Nat.mul_pos hB (by omega)
    refine ⟨fun k => X (B * P.n - 1 + k), ?_, fun k => hb _, fun j hj => ?_⟩
    · have := Mt.IsMt.shift hX (B * P.n - 1)
      simpa [Nat.add_comm] using this
    · rw [hw.get j hj, if_neg (by omega)]
      show _ = some (X (B * P.n - 1 + (j + 1)))
      rw [show B * P.n - 1 + (j + 1) = B * P.n + j by omega]
  · rcases hl with h | ⟨W, hW, bW, hx'⟩
    · exact absurd h hin
    · refine ⟨W, hW, bW, ?_⟩
      have : st'.x = st.x := by
        rw [Mt.next, if_neg hin] at e
        simp only [Option.bind_some, Option.map_eq_some_iff] at e
        obtain ⟨z, _, ez⟩ := e
        rw [← (Prod.mk.inj ez).2]
      rw [this]
      exact hx'

theorem mt_future (hv : MtValid P) {a b : BlockEng Nat} {X Y : Nat → Nat} (ha : MtShape P a) (hb : MtShape P b)
    (hX : IsMt P X) (bX : ∀ k, X k < 2 ^ P.w) (xX : ∀ j < P.n, a.x[j]? = some (X j))
    (hY : IsMt P Y) (bY : ∀ k, Y k < 2 ^ P.w) (xY : ∀ j < P.n, b.x[j]? = some (Y j)) :
    SameFuture (Mt.next P) a b ↔ ∀ k, X (a.i + k) = Y (b.i + k) := by
  constructor
  · intro h k
    obtain ⟨s1, e1, _⟩ := Mt.run_spec hv hX bX a.i a (BlockAt.init ha.len ha.i xX) (k + 1)
    obtain ⟨s2, e2, _⟩ := Mt.run_spec hv hY bY b.i b (BlockAt.init hb.len hb.i xY) (k + 1)
    have := h (k + 1)
    rw [e1, e2, Option.map_some, Option.map_some, Option.some.injEq] at this
    have := congrArg (fun l => l[k]?) this
    simp only [List.getElem?_map, List.getElem?_range (show k < k + 1 by omega), Option.map_some, Option.some.injEq] at this
    exact Mt.temper_inj hv this
  · intro h n
    obtain ⟨s1, e1, _⟩ := Mt.run_spec hv hX bX a.i a (BlockAt.init ha.len ha.i xX) n
    obtain ⟨s2, e2, _⟩ := Mt.run_spec hv hY bY b.i b (BlockAt.init hb.len hb.i xY) n
    rw [e1, e2]
    simp only [Option.map_some, h]

/-- The case `a.i <= b.i` of the comparison: sound if there is nothing to rewind or `a` is reachable, complete if
both are. -/
theorem mt_equalImp (hv : MtValid P) (a b : BlockEng Nat) (ha : MtLive P a) (hb : MtLive P b) (hab : a.i ≤ b.i) :
    ∃ res, Mt.equalImp P a b = some res ∧ (res = true → SameFuture (Mt.next P) a b) ∧
      (MtReachable P a → MtReachable P b → SameFuture (Mt.next P) a b → res = true) := by
  have hbi := hb.1.i
  by_cases hn : a.i = P.n ∧ ¬ MtReachable P a
  · -- same position
    have hoff : b.i - a.i = 0 := by omega
    obtain ⟨X, hX, bX, xX⟩ := Mt.exists_seq hv a.x ha.1.len ha.1.lt
    obtain ⟨Y, hY, bY, xY⟩ := Mt.exists_seq hv b.x hb.1.len hb.1.lt
    obtain ⟨res, e, he⟩ := Mt.equalImp_spec (a := a) (b := b) (W := X) (Y := Y) (back := []) ha.1.len hb.1.len (by omega)
      (by rw [hoff]; exact Mt.rewind_zero hv ha.1.len) (by rw [hoff]; rfl)
      (by intro j hj; rw [List.nil_append]; exact xX j (by omega)) xY
    refine ⟨res, e, fun hr => ?_, fun h => absurd h hn.2⟩
    rw [mt_future hv ha.1 hb.1 hX bX xX hY bY xY]
    intro k
    rw [Mt.IsMt.ext hv hX hY (he.1 hr), show a.i = b.i by omega]
  · have hra : MtReachable P a := by
      rcases ha.2 with h | h
      · by_contra hc; exact hn ⟨h, hc⟩
      · exact h
    obtain ⟨X, hX, bX, nX, xX⟩ := mt_norm hv hra
    obtain ⟨back, W, er, hl, hW, bW, nW, gW, sW⟩ := Mt.rewind_spec hv ha.1.len hX bX nX xX (z := b.i - a.i) (by omega)
    have hfut : ∀ {Y}, IsMt P Y → (∀ k, Y k < 2 ^ P.w) → (∀ j < P.n, b.x[j]? = some (Y j)) →
        (SameFuture (Mt.next P) a b ↔ ∀ k, W (b.i + k) = Y (b.i + k)) := by
      intro Y hY bY xY
      rw [mt_future hv ha.1 hb.1 hX bX xX hY bY xY]
      apply forall_congr'
      intro k
      rw [← sW (a.i + k), show b.i - a.i + (a.i + k) = b.i + k by omega]
    obtain ⟨Y, hY, bY, xY⟩ := Mt.exists_seq hv b.x hb.1.len hb.1.lt
    obtain ⟨res, e, he⟩ := Mt.equalImp_spec (W := W) (Y := Y) ha.1.len hb.1.len (by omega) er hl gW xY
    refine ⟨res, e, fun hr => ?_, fun _ hrb hf => ?_⟩
    · rw [hfut hY bY xY]
      intro k
      exact Mt.IsMt.ext hv hW hY (he.1 hr) _
    · obtain ⟨Y', hY', bY', nY', xY'⟩ := mt_norm hv hrb
      rw [hfut hY' bY' xY'] at hf
      have hall := Mt.IsMt.back hv hW hY' bW bY' nW nY' b.i hf
      rw [he]
      intro j hj
      have := xY j hj
      rw [xY' j hj, Option.some.injEq] at this
      rw [hall, this]

/-- **C22.** Engines that compare equal return the same values for ever, whatever their positions in the block; the
comparison never fails. -/
theorem c22_eq_sound (hv : MtValid P) (a b : BlockEng Nat) (ha : MtLive P a) (hb : MtLive P b) :
    ∃ res, Mt.eq P a b = some res ∧ (res = true → SameFuture (Mt.next P) a b) := by
  unfold Mt.eq
  split
  · obtain ⟨res, e, h, _⟩ := mt_equalImp hv a b ha hb (by omega)
    exact ⟨res, e, h⟩
  · obtain ⟨res, e, h, _⟩ := mt_equalImp hv b a hb ha (by omega)
    exact ⟨res, e, fun hr => SameFuture.symm (h hr)⟩

/-- **C22.** For engines whose arrays were produced by seeding or by the recurrence, `==` is true exactly if they
return the same values for ever. -/
theorem c22_eq (hv : MtValid P) (a b : BlockEng Nat) (ha : MtShape P a) (hb : MtShape P b) (ra : MtReachable P a)
    (rb : MtReachable P b) : ∃ res, Mt.eq P a b = some res ∧ (res = true ↔ SameFuture (Mt.next P) a b) := by
  unfold Mt.eq
  split
  · obtain ⟨res, e, h, h'⟩ := mt_equalImp hv a b ⟨ha, Or.inr ra⟩ ⟨hb, Or.inr rb⟩ (by omega)
    exact ⟨res, e, h, h' ra rb⟩
  · obtain ⟨res, e, h, h'⟩ := mt_equalImp hv b a ⟨hb, Or.inr rb⟩ ⟨ha, Or.inr ra⟩ (by omega)
    exact ⟨res, e, fun hr => SameFuture.symm (h hr), fun hf => h' rb ra (SameFuture.symm hf)⟩

/-- The hypotheses hold of an engine seeded, and of the same engine after a call. -/
example : ∃ a b : BlockEng Nat, Mt.seed mtTiny 1 = some a ∧ Mt.next mtTiny a = some (99, b) ∧ MtShape mtTiny a ∧
    MtShape mtTiny b ∧ MtReachable mtTiny a ∧ MtReachable mtTiny b ∧ a.i ≠ b.i := by
  obtain ⟨st, e, hs, hr, hi, _⟩ := c21_seed_value_never_stuck mtTiny_valid 1
  obtain ⟨v, st', e', hl, hr'⟩ := c22_live mtTiny_valid st ⟨hs, Or.inr hr⟩
  have e1 : (Mt.seed mtTiny 1).bind (Mt.next mtTiny) = some (v, st') := by rw [e]; exact e'
  have e2 : ((Mt.seed mtTiny 1).bind (Mt.next mtTiny)).map (fun p => (p.1, p.2.i)) = some (99, 1) := by decide
  rw [e1] at e2
  simp only [Option.map_some, Option.some.injEq, Prod.mk.injEq] at e2
  exact ⟨st, st', e, by rw [e', e2.1], hs, hl.1, hr, hr', by rw [hi, e2.2]; decide⟩

/-- C22: an array read from text is not normalized: with different redundant bits the engines compare different
although they return the same values for ever. -/
theorem c22_eq_unnormalized_false : ∃ a b : BlockEng Nat, MtLive mtTiny a ∧ MtLive mtTiny b ∧
    SameFuture (Mt.next mtTiny) a b ∧ Mt.eq mtTiny a b = some false := by
  refine ⟨⟨[0, 2, 3, 4, 250], 5⟩, ⟨[1, 2, 3, 4, 250], 5⟩, ⟨⟨rfl, by decide, by decide⟩, Or.inl rfl⟩,
    ⟨⟨rfl, by decide, by decide⟩, Or.inl rfl⟩, ?_, by decide⟩
  intro n
  cases n with
  | zero => rfl
  | succ n =>
    obtain ⟨v, s, e1, e2⟩ : ∃ v s, Mt.next mtTiny ⟨[0, 2, 3, 4, 250], 5⟩ = some (v, s) ∧
        Mt.next mtTiny ⟨[1, 2, 3, 4, 250], 5⟩ = some (v, s) := ⟨_, _, rfl, by decide⟩
    rw [run_succ_of e1, run_succ_of e2]

/-! ## C23: text -/

/-- **C23.** An engine written at any point of its life and read into any other continues with the same values and
compares equal to it; exactly the text written is consumed. -/
theorem c23_text (hv : MtValid P) (st other : BlockEng Nat) (h : MtLive P st) (ho : other.x.length = P.n) (rest : List Tok) :
    ∃ toks st', Mt.write P st = some toks ∧ toks.length = P.n ∧
      Mt.read P ⟨toks ++ rest, true⟩ other = (⟨rest, true⟩, st') ∧ MtLive P st' ∧
      SameFuture (Mt.next P) st st' ∧ Mt.eq P st st' = some true := by
  have hm := hv.m_lt
  have hsi := h.1.i
  have hw1 := hv.r_lt
  -- the words written
  obtain ⟨data, hwr, hlen, W, hW, bW, hg, hf, hres⟩ : ∃ data : List Nat, Mt.write P st = some (data.map fun v : Nat => Tok.num v) ∧
      data.length = P.n ∧ ∃ W, IsMt P W ∧ (∀ k, W k < 2 ^ P.w) ∧ (∀ j < P.n, data[j]? = some (W j)) ∧
        (∃ X, IsMt P X ∧ (∀ k, X k < 2 ^ P.w) ∧ (∀ j < P.n, st.x[j]? = some (X j)) ∧ ∀ k, X (st.i + k) = W (P.n + k)) ∧
        Mt.eq P st ⟨data, P.n⟩ = some true := by
    by_cases hi : st.i = P.n
    · obtain ⟨X, hX, bX, xX⟩ := Mt.exists_seq hv st.x h.1.len h.1.lt
      refine ⟨st.x, ?_, h.1.len, X, hX, bX, xX, ⟨X, hX, bX, xX, fun k => by rw [hi]⟩, ?_⟩
      · rw [Mt.write, if_neg (by simpa using hi), hi, List.take_of_length_le (by rw [h.1.len])]
        rfl
      · rw [Mt.eq, if_neg (by simp [hi])]
        obtain ⟨res, e, he⟩ := Mt.equalImp_spec (P := P) (a := ⟨st.x, P.n⟩) (b := st) (W := X) (Y := X) (back := []) h.1.len h.1.len
          (by show st.i - P.n ≤ _; omega) (by show Mt.rewind P st.x (st.i - P.n) = _; rw [hi, Nat.sub_self]; exact Mt.rewind_zero hv h.1.len)
          (by show 0 = st.i - P.n; omega)
          (by intro j hj; rw [List.nil_append]; exact xX j (by have : j < st.i - P.n + P.n := hj; omega)) xX
        rw [e, he.2 fun _ _ => rfl]
    · have hr : MtReachable P st := by
        rcases h.2 with h | h
        · exact absurd h hi
        · exact h
      obtain ⟨X, hX, bX, nX, xX⟩ := mt_norm hv hr
      obtain ⟨back, W, er, hl, hW, bW, nW, gW, sW⟩ := Mt.rewind_spec hv h.1.len hX bX nX xX (z := P.n - st.i) (by omega)
      have hdl : (back ++ st.x.take st.i).length = P.n := by
        rw [List.length_append, hl, List.length_take, h.1.len]; omega
      have hg : ∀ j < P.n, (back ++ st.x.take st.i)[j]? = some (W j) := by
        intro j hj
        rw [← gW j (by omega), show back ++ st.x.take st.i = (back ++ st.x).take P.n by
          rw [List.take_append, List.take_of_length_le (l := back) (by rw [hl]; omega), hl, show P.n - (P.n - st.i) = st.i by omega]]
        rw [List.getElem?_take, if_pos hj]
      refine ⟨back ++ st.x.take st.i, ?_, hdl, W, hW, bW, hg, ⟨X, hX, bX, xX, fun k => ?_⟩, ?_⟩
      · rw [Mt.write, if_pos hi, er]
        rfl
      · rw [← sW (st.i + k), show P.n - st.i + (st.i + k) = P.n + k by omega]
      · rw [Mt.eq, if_pos (by show st.i < P.n; omega)]
        obtain ⟨res, e, he⟩ := Mt.equalImp_spec (P := P) (a := st) (b := ⟨back ++ st.x.take st.i, P.n⟩) (W := W) (Y := W)
          h.1.len hdl (by show P.n - st.i ≤ _; omega) er hl gW hg
        rw [e, he.2 fun _ _ => rfl]
  have hlt : ∀ v ∈ data, v < 2 ^ P.w := by
    intro v hv
    obtain ⟨j, hj, rfl⟩ := List.mem_iff_getElem.1 hv
    have := hg j (by rw [← hlen]; exact hj)
    rw [List.getElem?_eq_getElem hj, Option.some.injEq] at this
    rw [this]; exact bW _
  have hshape : MtShape P ⟨data, P.n⟩ := ⟨hlen, hlt, le_rfl⟩
  refine ⟨_, ⟨data, P.n⟩, hwr, by rw [List.length_map, hlen], ?_, ⟨hshape, Or.inl rfl⟩, ?_, hres⟩
  · have hx : ∀ v ∈ data.map (fun v : Nat => (v : Int)), InTy ⟨P.bits, false⟩ v := by
      intro v hv'
      obtain ⟨u, hu, rfl⟩ := List.mem_map.1 hv'
      have h1 := hlt u hu
      have h2 := Mt.pow_le hv
      simp only [InTy]
      exact ⟨by omega, by exact_mod_cast lt_of_lt_of_le h1 h2⟩
    have hmm : data.map (fun v : Nat => Tok.num v) = (data.map (fun v : Nat => (v : Int))).map Tok.num := by
      rw [List.map_map]; rfl
    have hw2 := hv.w_le
    simp only [Mt.read]
    rw [hmm, readList_spec (show 1 ≤ P.bits by omega) _ _ (by simp [ho, hlen]) hx]
    simp [List.map_map, Function.comp_def]
  · obtain ⟨X, hX, bX, xX, hk⟩ := hf
    rw [mt_future hv h.1 hshape hX bX xX hW bW hg]
    exact hk

example : ∃ st : BlockEng Nat, MtLive mtTiny st ∧ st.i ≠ mtTiny.n := by
  obtain ⟨st, e, hs, hr, hi, _⟩ := c21_seed_value_never_stuck mtTiny_valid 1
  obtain ⟨v, st', e', hl, hr'⟩ := c22_live mtTiny_valid st ⟨hs, Or.inr hr⟩
  have e1 : (Mt.seed mtTiny 1).bind (Mt.next mtTiny) = some (v, st') := by rw [e]; exact e'
  have e2 : ((Mt.seed mtTiny 1).bind (Mt.next mtTiny)).map (fun p => p.2.i) = some 1 := by decide
  rw [e1] at e2
  simp only [Option.map_some, Option.some.injEq] at e2
  exact ⟨st', hl, by rw [e2]; decide⟩

/-- C23: reading does not protect against the degenerate state: this text makes an engine that returns only zeros. -/
theorem c23_degenerate_text_false : ∃ st : BlockEng Nat, MtLive mtTiny st ∧
    Mt.read mtTiny ⟨[1, 0, 0, 0, 0].map fun v : Nat => Tok.num v, true⟩ ⟨[9, 9, 9, 9, 9], 0⟩ = (⟨[], true⟩, st) ∧
    ∀ k, ∃ st', run (Mt.next mtTiny) k st = some (List.replicate k 0, st') := by
  refine ⟨⟨[1, 0, 0, 0, 0], 5⟩, ⟨⟨rfl, by decide, by decide⟩, Or.inl rfl⟩, by decide, fun k => ?_⟩
  have hX : IsMt mtTiny fun k => if k = 0 then 1 else 0 := by
    intro k
    have h1 : k + mtTiny.n ≠ 0 := by show k + 5 ≠ 0; omega
    have h2 : k + mtTiny.m ≠ 0 := by show k + 3 ≠ 0; omega
    show (if _ then _ else _) = (if _ then _ else _) ^^^ _
    rw [if_neg h1, if_neg h2]
    by_cases hk : k = 0
    · subst hk; decide
    · simp [hk, mtJoin, mtA]
  obtain ⟨st', e, _⟩ := Mt.run_spec mtTiny_valid hX (fun k => by split <;> decide) 5 ⟨[1, 0, 0, 0, 0], 5⟩
    (BlockAt.init rfl (by decide) (by decide)) k
  refine ⟨st', ?_⟩
  rw [e]
  congr 2
  rw [List.eq_replicate_iff]
  refine ⟨by simp, fun v hv => ?_⟩
  obtain ⟨j, _, rfl⟩ := List.mem_map.1 hv
  rw [if_neg (by omega), Mt.temper_zero]

end Boost.Random
