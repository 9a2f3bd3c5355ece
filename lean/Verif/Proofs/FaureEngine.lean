import Verif.Proofs.FaureTable
import Verif.Proofs.QrngRead

/-!
# Faure engine: `update` depends on the sequence number only
-/

namespace Boost.Random
namespace Faure
open Qrng Spec

section
variable (fl : ℚ → ℚ)

/-- The digits of `n` in base `b`, `h` of them, the lowest first. -/
def digs (b n h : Nat) : List ℚ := (List.range h).map fun j => fl ((n / b ^ j % b : Nat) : ℚ)

/-- One digit of the radical inverse. -/
def recipStep (b : Nat) (r v : ℚ) : ℚ := fl (fl (r + v) / fl b)

theorem digit_mod {b n t j : Nat} (h : j < t) : n % b ^ t / b ^ j % b = n / b ^ j % b := by
  obtain ⟨k, rfl⟩ : ∃ k, t = j + (k + 1) := ⟨t - j - 1, by omega⟩
  rw [Nat.pow_add, Nat.mod_mul_right_div_self, Nat.mod_mod_of_dvd]
  exact ⟨b ^ k, by rw [Nat.pow_succ, Nat.mul_comm]⟩

theorem digs_succ {b n t : Nat} (h : n < b ^ (t + 1)) : digs fl b n (t + 1) = digs fl b (n % b ^ t) t ++ [fl ((n / b ^ t : Nat) : ℚ)] := by
  unfold digs
  rw [List.range_succ, List.map_append, List.map_singleton]
  congr 1
  · apply List.map_congr_left
    intro j hj
    rw [digit_mod (List.mem_range.1 hj)]
  · rw [Nat.mod_eq_of_lt]
    rw [Nat.div_lt_iff_lt_mul]
    · rw [← Nat.pow_succ']; exact h
    · by_contra hc
      have : b ^ t = 0 := by omega
      rw [Nat.pow_succ, this] at h
      omega

theorem recipLoop_eq {b : Nat} (hb : 2 ≤ b) (t : Nat) : ∀ (fuel seq : Nat) (r : ℚ) (w : List ℚ), seq < b ^ (t + 1) → t + 1 ≤ fuel →
    recipLoop fl b fuel (b ^ t) seq r w = ((digs fl b seq (t + 1)).reverse.foldl (recipStep fl b) r, digs fl b seq (t + 1) ++ w) := by
  induction t with
  | zero =>
    intro fuel seq r w h hf
    obtain ⟨f, rfl⟩ : ∃ f, fuel = f + 1 := ⟨fuel - 1, by omega⟩
    rw [recipLoop, if_pos (by simp)]
    have hz : b ^ 0 / b = 0 := by rw [Nat.pow_zero]; exact Nat.div_eq_of_lt (by omega)
    have hl : ∀ f m r' w', recipLoop fl b f 0 m r' w' = (r', w') := by
      intro f m r' w'
      cases f with
      | zero => rfl
      | succ f => rw [recipLoop, if_neg (by simp)]
    simp only
    rw [hz, hl, digs_succ fl h]
    simp [digs, recipStep, Nat.mod_one]
  | succ t ih =>
    intro fuel seq r w h hf
    obtain ⟨f, rfl⟩ : ∃ f, fuel = f + 1 := ⟨fuel - 1, by omega⟩
    have hpos : 0 < b ^ (t + 1) := Nat.pow_pos (by omega)
    rw [recipLoop, if_pos (by omega)]
    simp only
    have hdiv : b ^ (t + 1) / b = b ^ t := by rw [Nat.pow_succ]; exact Nat.mul_div_cancel _ (by omega)
    have hv : (seq - seq % b ^ (t + 1)) / b ^ (t + 1) = seq / b ^ (t + 1) := (Nat.div_eq_sub_mod_div).symm
    rw [hdiv, hv, ih f (seq % b ^ (t + 1)) _ _ (Nat.mod_lt _ hpos) (by omega), digs_succ fl h, List.reverse_append, List.foldl_append, List.append_assoc]
    rfl

/-- The value of `compute_recip`. -/
def firstCoord (b n h : Nat) : ℚ := (digs fl b n h).reverse.foldl (recipStep fl b) 0

theorem digs_length (b n h : Nat) : (digs fl b n h).length = h := by unfold digs; simp

theorem computeRecip_eq {digits b n h : Nat} (hb : 2 ≤ b) (hn : n < b ^ (h + 1)) (hh : h ≤ digits) {ytemp : List ℚ} (hy : ytemp.length = h + 1) :
    computeRecip fl digits b (b ^ h) n ytemp = some (firstCoord fl b n (h + 1), digs fl b n (h + 1)) := by
  unfold computeRecip
  rw [recipLoop_eq fl hb h (digits + 1) n 0 [] hn (by omega)]
  simp only [List.append_nil]
  rw [if_pos (by rw [digs_length]; omega), digs_length, hy, Nat.sub_self, List.take_zero, List.nil_append]
  rfl

/-! ## The other coordinates exist -/

theorem ztemp_some {n : Nat} {c : List Nat} {f : Nat → Nat → Nat} (T : Tab n c f) {y : List ℚ} (hy : y.length = n) {i : Nat} (hi : i < n) :
    ∃ z, ztemp fl c y i n = some z := by
  unfold ztemp
  rw [List.getElem?_eq_getElem (by omega), T.getUpper (le_refl i) hi]
  simp only [Option.bind_some]
  obtain ⟨a, h, _⟩ := foldlM_inv (fun (z : ℚ) j => y[j]?.bind fun y => (getUpper c i j n).map fun u => fl (z + fl (y * u))) (fun _ _ => True) (n - (i + 1)) (i + 1)
    (fl (y[i] * (f i i : ℚ))) trivial (by
      intro k b hk hk' _
      rw [List.getElem?_eq_getElem (by omega), T.getUpper (by omega) (by omega)]
      exact ⟨_, rfl, trivial⟩)
  exact ⟨a, h⟩

theorem faureCoord_some {b n : Nat} {c : List Nat} {f : Nat → Nat → Nat} (T : Tab n c f) {y : List ℚ} (hy : y.length = n) :
    ∃ v y', faureCoord fl b c n y = some (v, y') ∧ y'.length = n := by
  unfold faureCoord
  rw [List.range_eq_range']
  obtain ⟨a, h1, h2⟩ := foldlM_inv (fun (s : ℚ × ℚ × List ℚ) i =>
    (ztemp fl c s.2.2 i n).map fun z => (fl (s.1 + fl (fmod z (fl b) / fl (s.2.1 * fl b))), fl (s.2.1 * fl b), s.2.2.set i (fmod z (fl b))))
    (fun _ s => s.2.2.length = n) n 0 (0, fl 1, y) hy (by
      intro k s _ hk hs
      obtain ⟨z, hz⟩ := ztemp_some fl T hs (i := k) (by omega)
      rw [hz]
      exact ⟨_, rfl, by simp only [List.length_set]; exact hs⟩)
  rw [h1]
  exact ⟨a.1, a.2.2, rfl, h2⟩

theorem faureCoords_some {b n : Nat} {c : List Nat} {f : Nat → Nat → Nat} (T : Tab n c f) (count : Nat) : ∀ {y : List ℚ}, y.length = n →
    ∃ vs y', faureCoords fl b c n count y = some (vs, y') ∧ vs.length = count ∧ y'.length = n := by
  induction count with
  | zero => intro y hy; exact ⟨[], y, rfl, rfl, hy⟩
  | succ k ih =>
    intro y hy
    obtain ⟨v, y', h1, h2⟩ := faureCoord_some fl (b := b) T hy
    obtain ⟨vs, y'', g1, g2, g3⟩ := ih h2
    refine ⟨v :: vs, y'', ?_, by simp [g2], g3⟩
    rw [faureCoords, h1]
    simp only [Option.bind_some, g1, Option.map_some]

/-! ## The cache -/

/-- The number of digits of `n`. -/
def len (b n : Nat) : Nat := Nat.log b n + 1

theorem lt_pow_len {b n : Nat} (hb : 2 ≤ b) : n < b ^ len b n := Nat.lt_pow_succ_log_self (by omega) n

/-- Point `n` of the sequence. -/
noncomputable def point (b dim n : Nat) : List ℚ :=
  match dim with
  | 0 => []
  | count + 1 => firstCoord fl b n (len b n) ::
    (((computeCoefficients b (len b n)).bind fun c => (faureCoords fl b c (len b n) count (digs fl b n (len b n))).map (·.1)).getD [])

theorem point_eq {b : Nat} (hb : 2 ≤ b) (count n : Nat) : ∃ c vs y', Tab (len b n) c (fun i j => j.choose i % b) ∧
    faureCoords fl b c (len b n) count (digs fl b n (len b n)) = some (vs, y') ∧ vs.length = count ∧
    point fl b (count + 1) n = firstCoord fl b n (len b n) :: vs := by
  obtain ⟨c, hc, T⟩ := computeCoefficients_spec hb (n := len b n) (by unfold len; omega)
  obtain ⟨vs, y', g1, g2, g3⟩ := faureCoords_some fl (b := b) T count (y := digs fl b n (len b n)) (digs_length fl b n _)
  refine ⟨c, vs, y', T, g1, g2, ?_⟩
  unfold point
  rw [hc]
  simp only [Option.bind_some]
  rw [g1]
  rfl

theorem point_length {b : Nat} (hb : 2 ≤ b) (dim n : Nat) : (point fl b dim n).length = dim := by
  cases dim with
  | zero => rfl
  | succ count =>
    obtain ⟨_, vs, _, _, _, g2, g3⟩ := point_eq fl hb count n
    rw [g3, List.length_cons, g2]

/-- The lattice of base `b`: there are no coefficients, or those for some number of digits. -/
structure CacheOk (b : Nat) (l : Binom) : Prop where
  base : l.base = b
  cache : l.coeff = [] ∨ ∃ h, 1 ≤ h ∧ computeCoefficients b h = some l.coeff ∧ l.ytemp.length = h ∧ l.pow = some (b ^ (h - 1))

theorem log_bounds {b n digits : Nat} (hb : 2 ≤ b) (hd : 1 ≤ digits) (hn : n < 2 ^ digits) : Nat.log b n ≤ digits ∧ Nat.log b n < 2 ^ digits ∧ b ^ Nat.log b n < 2 ^ digits := by
  have h1 : b ^ Nat.log b n < 2 ^ digits := by
    by_cases h0 : n = 0
    · subst h0
      rw [Nat.log_zero_right, Nat.pow_zero]
      exact Nat.one_lt_two_pow (by omega)
    · exact lt_of_le_of_lt (Nat.pow_log_le_self b h0) hn
  have h2 : Nat.log b n < digits := by
    have : 2 ^ Nat.log b n < 2 ^ digits := lt_of_le_of_lt (Nat.pow_le_pow_left hb _) h1
    exact (Nat.pow_lt_pow_iff_right (by decide)).1 this
  have h3 : digits < 2 ^ digits := Nat.lt_two_pow_self
  exact ⟨by omega, by omega, h1⟩

theorem binomUpdate_eq {digits b : Nat} (hd : 1 ≤ digits) (hb : 2 ≤ b) {l : Binom} (hl : CacheOk b l) {n dim : Nat} (hn : n < 2 ^ digits) (h0 : 0 < dim) :
    ∃ l', binomUpdate fl digits l n dim = some (point fl b dim n, l') ∧ CacheOk b l' := by
  obtain ⟨count, rfl⟩ : ∃ k, dim = k + 1 := ⟨dim - 1, by omega⟩
  obtain ⟨hlog1, hlog2, hlog3⟩ := log_bounds hb hd hn
  unfold binomUpdate
  simp only
  rw [hl.base, integerLog_eq hb digits n 0 hn, Nat.zero_add]
  obtain ⟨c, hc, T⟩ := computeCoefficients_spec hb (n := Nat.log b n + 1) (by omega)
  obtain ⟨l1, e1, e2, e3, e4, e5⟩ : ∃ l1 : Binom, (if l.coeff.length ≠ sizeHint (Nat.log b n + 1) then
      (computeCoefficients b (Nat.log b n + 1)).bind fun c => (integerPow (mulUnsigned digits) digits b (Nat.log b n)).map fun p =>
        (⟨b, c, l.ytemp.take (Nat.log b n + 1) ++ List.replicate (Nat.log b n + 1 - l.ytemp.length) 0, some p⟩ : Binom)
      else some l) = some l1 ∧ l1.base = b ∧ l1.coeff = c ∧ l1.pow = some (b ^ Nat.log b n) ∧ l1.ytemp.length = Nat.log b n + 1 := by
    by_cases hs : l.coeff.length ≠ sizeHint (Nat.log b n + 1)
    · rw [if_pos hs, hc, integerPow_eq hd hlog2 hlog3]
      refine ⟨_, rfl, rfl, rfl, rfl, ?_⟩
      simp
      omega
    · rw [if_neg hs]
      refine ⟨l, rfl, hl.base, ?_⟩
      rcases hl.cache with h | ⟨h, k1, k2, k3, k4⟩
      · exfalso
        rw [h] at hs
        apply hs
        have hp : sizeHint (Nat.log b n + 1) ≠ 0 := by
          unfold sizeHint
          have : 2 ≤ (Nat.log b n + 1) * (Nat.log b n + 1 + 1) := by nlinarith
          omega
        exact hp.symm
      · obtain ⟨c', hc', T'⟩ := computeCoefficients_spec hb k1
        rw [k2] at hc'
        have hcc := Option.some.inj hc'
        have hlen := T'.len
        rw [← hcc] at hlen
        have : h = Nat.log b n + 1 := sizeHint_inj (by rw [← hlen]; exact Classical.byContradiction fun hne => hs hne)
        subst this
        rw [hc] at k2
        exact ⟨(Option.some.inj k2).symm, by rw [k4]; simp, k3⟩
  rw [e1]
  simp only [Option.bind_some]
  rw [e4, e2, e3]
  simp only [Option.bind_some]
  rw [computeRecip_eq fl hb (lt_pow_len hb) hlog1 e5]
  simp only [Option.bind_some]
  obtain ⟨vs, y', g1, g2, g3⟩ := faureCoords_some fl (b := b) T count (y := digs fl b n (Nat.log b n + 1)) (digs_length fl b n _)
  rw [g1]
  have hpt : point fl b (count + 1) n = firstCoord fl b n (Nat.log b n + 1) :: vs := by
    unfold point len
    rw [hc]
    simp only [Option.bind_some]
    rw [g1]
    rfl
  refine ⟨{ l1 with ytemp := y' }, ?_, ⟨e2, Or.inr ⟨Nat.log b n + 1, by omega, ?_, g3, ?_⟩⟩⟩
  · rw [hpt, e2, e3, e4]; rfl
  · rw [hc]; simp only [e3]
  · simp only [e4, Nat.add_sub_cancel]

/-! ## The engine -/

/-- The base for a dimension, and what the cache holds. -/
def LOk (lowerBound : Nat → Res Nat) (dim : Nat) (l : Binom) : Prop := ∃ b, lowerBound dim = .ok b ∧ CacheOk b l

/-- The base for a dimension. -/
def baseOf (lowerBound : Nat → Res Nat) (dim : Nat) : Nat := match lowerBound dim with | .ok b => b | _ => 0

theorem LOk.cache {lowerBound : Nat → Res Nat} {dim : Nat} {l : Binom} (h : LOk lowerBound dim l) : CacheOk (baseOf lowerBound dim) l ∧ lowerBound dim = .ok (baseOf lowerBound dim) := by
  obtain ⟨b, h1, h2⟩ := h
  have : baseOf lowerBound dim = b := by unfold baseOf; rw [h1]
  rw [this]
  exact ⟨h2, h1⟩

/-- Dimension 0 is no dimension, and a base is at least two. -/
def TableOk (lowerBound : Nat → Res Nat) : Prop := ∀ dim b, lowerBound dim = .ok b → 0 < dim ∧ 2 ≤ b

variable {lowerBound : Nat → Res Nat} (hT : TableOk lowerBound) {digits : Nat} (hd : 1 ≤ digits)
include hT hd

theorem faureCompute_eq {dim : Nat} {l : Binom} {quasi : List ℚ} (hl : LOk lowerBound dim l) (hq : quasi.length = dim) {n : Nat} (hn : n < 2 ^ digits) :
    ∃ l', faureCompute fl digits l quasi n = .ok (l', point fl (baseOf lowerBound dim) dim n) ∧ LOk lowerBound dim l' := by
  obtain ⟨h1, h2⟩ := hl.cache
  obtain ⟨h3, h4⟩ := hT dim _ h2
  obtain ⟨l', g1, g2⟩ := binomUpdate_eq fl hd h4 h1 hn h3
  refine ⟨l', ?_, _, h2, g2⟩
  unfold faureCompute
  rw [hq, g1]

theorem faure_lawful (h64 : digits ≤ 64) : Lawful (faure fl digits lowerBound) (LOk lowerBound) (fun dim => point fl (baseOf lowerBound dim) dim) (2 ^ digits) where
  digits := h64
  last_pos := Nat.two_pow_pos _
  last_le := le_refl _
  len l dim i hl := point_length fl (hT dim _ hl.cache.2).2 dim i
  compute l dim i hl hi := faureCompute_eq fl hT hd hl (point_length fl (hT dim _ hl.cache.2).2 dim i) hi
  compute_end l dim i _ _ h := absurd h (Nat.lt_irrefl _)
  seed l dim quasi seq init hl hq _ hi := faureCompute_eq fl hT hd hl hq hi
  seed_end l dim quasi seq init _ _ h h' := absurd h' (Nat.not_lt.2 h)
  seed0 l dim quasi hl hq := faureCompute_eq fl hT hd hl hq (Nat.two_pow_pos digits)
  resize dim l h := by
    unfold faure binomResize at h
    simp only at h
    match hb : lowerBound dim with
    | .ok b => rw [hb] at h; injection h with h; subst h; exact ⟨b, hb, rfl, Or.inl rfl⟩
    | .throw => rw [hb] at h; exact absurd h (by simp [Res.bind])
    | .ub => rw [hb] at h; exact absurd h (by simp [Res.bind])
  resize_ok dim l h := by
    obtain ⟨b, h1, _⟩ := h
    exact ⟨⟨b, [], [], none⟩, by unfold faure binomResize; simp only [h1]; rfl⟩

end
end Faure
end Boost.Random
