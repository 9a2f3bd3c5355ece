import Verif.Proofs.MtJump
import Mathlib.Data.Nat.Periodic
import Mathlib.Data.Nat.Prime.Basic

/-!
# The period of the Mersenne Twister, from the powers of X modulo the characteristic polynomial
-/

namespace Boost.Random
namespace Mt
open Spec Polynomial

variable {P : Params}

theorem eq_of_joins {r : Nat} {x y x' y' z z' : Nat} (h1 : mtJoin r x y = mtJoin r x' y') (h2 : mtJoin r y z = mtJoin r y' z') : y = y' := by
  have a := congrArg (· % 2 ^ r) h1
  have b := congrArg (· / 2 ^ r) h2
  simp only [join_mod, join_div] at a b
  rw [← Nat.div_add_mod y (2 ^ r), ← Nat.div_add_mod y' (2 ^ r), a, b]

/-- If the characteristic polynomial divides `X ^ N - X ^ M`, the words repeat. -/
theorem words_repeat (hv : MtValid P) {W : Nat → Nat} (hW : IsMt P W) (hb : ∀ k, W k < 2 ^ P.w) {N M : Nat} (hd : mtChar P ∣ X ^ N - X ^ M) (t : Nat) :
    W (t + 1 + N) = W (t + 1 + M) := by
  have key : ∀ i t, joinBit P W i (t + N) = joinBit P W i (t + M) := by
    intro i t
    obtain ⟨g, hg⟩ := hd
    have h0 := char_annihilates hv hW hb
    have e0 : (fun t => gf ((W (t + 1)).testBit 0)) = joinBit P W 0 := funext fun t => (joinBit_zero hv t).symm
    rw [e0] at h0
    have : aeval shiftSeq ((X ^ N - X ^ M) * mtPoly P i) (joinBit P W 0) = 0 := by
      rw [hg, mul_assoc, mul_comm, map_mul, Module.End.mul_apply, h0, map_zero]
    rw [map_mul, Module.End.mul_apply, ← joinBit_eq hv hW, map_sub, LinearMap.sub_apply] at this
    have := congrFun this t
    rw [Pi.sub_apply, aeval_X_pow', aeval_X_pow'] at this
    exact sub_eq_zero.1 this
  have join : ∀ t, mtJoin P.r (W (t + N)) (W (t + N + 1)) = mtJoin P.r (W (t + M)) (W (t + M + 1)) :=
    fun t => Nat.eq_of_testBit_eq fun i => gf_inj (key i t)
  have a := join t
  have b := join (t + 1)
  rw [show t + 1 + N = t + N + 1 by omega, show t + 1 + M = t + M + 1 by omega] at b ⊢
  exact eq_of_joins a b

theorem mtA_zero (a : Nat) : mtA a 0 = 0 := by simp [mtA]

theorem zero_of_mtA (hv : MtValid P) {y : Nat} (hy : y < 2 ^ P.w) (h : mtA P.a y = 0) : y = 0 := by
  have e := untwist_mtA hv (y := 0) (Nat.two_pow_pos _)
  rw [mtA_zero] at e
  rw [← untwist_mtA hv hy, h, e]

/-- The degenerate sequence. -/
theorem isMt_zero : IsMt P fun _ => 0 := by intro k; simp [mtA, mtJoin]

theorem norm_zero (hv : MtValid P) : Norm P fun _ => 0 := norm_of_pred (W := fun _ => 0) hv isMt_zero fun _ => Nat.two_pow_pos _

/-- Only the degenerate sequence is constant. -/
theorem const_zero (hv : MtValid P) {W : Nat → Nat} (hW : IsMt P W) (hb : ∀ k, W k < 2 ^ P.w) (h : ∀ t, W (t + 1) = W t) (t : Nat) : W t = 0 := by
  have hc : ∀ t, W t = W 0 := fun t => by induction t with | zero => rfl | succ t ih => rw [h, ih]
  have e := hW 0
  rw [hc (0 + P.n), hc (0 + P.m), hc (0 + 1), join_self] at e
  rw [hc t]
  refine zero_of_mtA hv (hb 0) ?_
  have := congrArg (W 0 ^^^ ·) e
  simpa [← Nat.xor_assoc] using this.symm

theorem mtBits_pos (hv : MtValid P) : 2 ≤ mtBits P := by
  have := n_le_mtBits hv
  have := hv.m_two
  have := hv.m_lt
  omega

section
variable (hv : MtValid P) (hd : mtChar P ∣ X ^ 2 ^ mtBits P - X) (hp : (2 ^ mtBits P - 1).Prime)
  {W : Nat → Nat} (hW : IsMt P W) (hb : ∀ k, W k < 2 ^ P.w) (hn : Norm P W)
include hv hd hW hb hn

theorem periodic (t : Nat) : W (t + (2 ^ mtBits P - 1)) = W t := by
  have h4 : 2 ^ 2 ≤ 2 ^ mtBits P := Nat.pow_le_pow_right (by decide) (mtBits_pos hv)
  obtain ⟨p, e⟩ : ∃ p, 2 ^ mtBits P = p + 2 := ⟨2 ^ mtBits P - 2, by omega⟩
  have hN : Norm P fun t => W (t + (p + 1)) := by
    have := norm_of_pred hv (IsMt.shift hW p) fun k => hb _
    refine cast ?_ this
    congr 1; funext k; congr 1; omega
  have := IsMt.back hv (IsMt.shift hW (p + 1)) hW (fun k => hb _) hb hN hn 2 (fun k => ?_) t
  · rw [e]; exact this
  · have h := words_repeat hv hW hb (N := 2 ^ mtBits P) (M := 1) (by rw [pow_one]; exact hd) k
    rw [e] at h
    show W (2 + k + (p + 1)) = W (2 + k)
    rw [show 2 + k + (p + 1) = k + 1 + (p + 2) by omega, h, show k + 1 + 1 = 2 + k by omega]

theorem periodic_mul (t m : Nat) : W (t + (2 ^ mtBits P - 1) * m) = W t := by
  induction m with
  | zero => rfl
  | succ m ih => rw [Nat.mul_succ, ← Nat.add_assoc, periodic hv hd hW hb hn, ih]

include hp

/-- Exactly the multiples are periods. -/
theorem period_iff (hne : ∃ t, W t ≠ 0) (q : Nat) : (∀ t, W (t + q) = W t) ↔ 2 ^ mtBits P - 1 ∣ q := by
  constructor
  · intro h
    by_contra hc
    have hco : Nat.Coprime q (2 ^ mtBits P - 1) := ((Nat.Prime.coprime_iff_not_dvd hp).2 hc).symm
    obtain ⟨m, -, hm⟩ := Nat.exists_mul_mod_eq_one_of_coprime hco hp.one_lt
    have hmul : ∀ t m, W (t + q * m) = W t := fun t m => by
      induction m with
      | zero => rfl
      | succ m ih => rw [Nat.mul_succ, ← Nat.add_assoc, h, ih]
    obtain ⟨t, ht⟩ := hne
    refine ht (const_zero hv hW hb (fun t => ?_) t)
    have e := hmul t m
    rw [← Nat.div_add_mod (q * m) (2 ^ mtBits P - 1), hm, Nat.add_comm _ 1, ← Nat.add_assoc, periodic_mul hv hd hW hb hn] at e
    exact e
  · rintro ⟨m, rfl⟩ t
    exact periodic_mul hv hd hW hb hn t m

end

/-! ### Equidistribution -/

/-- The significant bits of `n` consecutive words. -/
def window (P : Params) (W : Nat → Nat) (t : Nat) : Nat × (Fin (P.n - 1) → Nat) := (W t / 2 ^ P.r, fun j => W (t + 1 + j))

/-- The windows determine the words that follow. -/
theorem window_next (hv : MtValid P) {W V : Nat → Nat} (hW : IsMt P W) (hV : IsMt P V) (h : window P W 0 = window P V 0) (k : Nat) : W (k + 1) = V (k + 1) := by
  have h1 := hv.m_lt
  have h2 := hv.m_two
  obtain ⟨e0, e1⟩ := Prod.mk.inj h
  have e2 : ∀ j, 1 ≤ j → j < P.n → W j = V j := fun j hj hj' => by
    have := congrFun e1 ⟨j - 1, by omega⟩
    simpa [show 0 + 1 + (j - 1) = j by omega] using this
  refine IsMt.ext hv (IsMt.shift hW 1) (IsMt.shift hV 1) (fun j hj => ?_) k
  by_cases hjn : j + 1 < P.n
  · exact e2 _ (by omega) hjn
  · have ew := hW 0
    have ev := hV 0
    rw [Nat.zero_add, Nat.zero_add] at ew ev
    show W (j + 1) = V (j + 1)
    rw [show j + 1 = P.n by omega, ew, ev, e2 P.m (by omega) h1, join_congr e0 (by rw [e2 (0 + 1) (by omega) (by omega)])]

/-- A sequence that has, somewhere, the window another one starts with contains that one. -/
theorem window_seq (hv : MtValid P) {W V : Nat → Nat} (hW : IsMt P W) (hV : IsMt P V) (bW : ∀ k, W k < 2 ^ P.w) (bV : ∀ k, V k < 2 ^ P.w)
    (nW : Norm P W) (nV : Norm P V) {t : Nat} (h : window P W t = window P V 0) (u : Nat) : W (u + t) = V u := by
  have hN : Norm P fun k => W (k + t) := by
    cases t with
    | zero => exact nW
    | succ t =>
      have := norm_of_pred hv (IsMt.shift hW t) fun k => bW _
      refine cast ?_ this
      congr 1; funext k; congr 1; omega
  have hw : window P (fun k => W (k + t)) 0 = window P W t := by
    unfold window
    refine Prod.ext (by simp) (funext fun j => ?_)
    show W (0 + 1 + j + t) = W (t + 1 + j)
    congr 1; omega
  refine IsMt.back hv (IsMt.shift hW t) hV (fun k => bW _) bV hN nV 1 (fun k => ?_) u
  have := window_next hv (IsMt.shift hW t) hV (by rw [hw, h]) k
  show W (1 + k + t) = V (1 + k)
  rw [Nat.add_comm 1 k]; exact this

section
variable (hv : MtValid P) (hd : mtChar P ∣ X ^ 2 ^ mtBits P - X) (hp : (2 ^ mtBits P - 1).Prime)
  {W : Nat → Nat} (hW : IsMt P W) (hb : ∀ k, W k < 2 ^ P.w) (hn : Norm P W)
include hv hW hb hn

/-- Shifted sequences with the same window are the same. -/
theorem window_inj {t t' : Nat} (h : window P W t = window P W t') (u : Nat) : W (u + t) = W (u + t') := by
  have hN : ∀ t, Norm P fun k => W (k + t) := fun t => by
    cases t with
    | zero => exact hn
    | succ t =>
      have := norm_of_pred hv (IsMt.shift hW t) fun k => hb _
      refine cast ?_ this
      congr 1; funext k; congr 1; omega
  have hw : ∀ t, window P (fun k => W (k + t)) 0 = window P W t := fun t => by
    unfold window
    refine Prod.ext (by simp) (funext fun j => ?_)
    show W (0 + 1 + j + t) = W (t + 1 + j)
    congr 1; omega
  refine IsMt.back hv (IsMt.shift hW t) (IsMt.shift hW t') (fun k => hb _) (fun k => hb _) (hN t) (hN t') 1 (fun k => ?_) u
  have := window_next hv (IsMt.shift hW t) (IsMt.shift hW t') (by rw [hw, hw, h]) k
  show W (1 + k + t) = W (1 + k + t')
  rw [Nat.add_comm 1 k]; exact this

theorem window_ne_zero (hne : ∃ t, W t ≠ 0) (t : Nat) : window P W t ≠ (0, fun _ => 0) := by
  intro h
  have hw : window P (fun k => W (k + t)) 0 = window P (fun _ => 0) 0 := by
    unfold window at h ⊢
    obtain ⟨e0, e1⟩ := Prod.mk.inj h
    refine Prod.ext (by simpa using e0) (funext fun j => ?_)
    have := congrFun e1 j
    show W (0 + 1 + j + t) = 0
    rw [← this]
    congr 1; omega
  have hz := window_next hv (IsMt.shift hW t) isMt_zero hw
  obtain ⟨s, hs⟩ := hne
  refine hs (IsMt.back hv hW isMt_zero hb (fun _ => Nat.two_pow_pos _) hn (norm_zero hv) (t + 1) (fun k => ?_) s)
  have := hz k
  rw [show t + 1 + k = k + 1 + t by omega]
  exact this

include hd hp

theorem window_injOn (hne : ∃ t, W t ≠ 0) : Set.InjOn (window P W) (Finset.range (2 ^ mtBits P - 1)) := by
  have main : ∀ t t', t < t' → t' < 2 ^ mtBits P - 1 → window P W t ≠ window P W t' := by
    intro t t' hlt hN h
    have hi := window_inj hv hW hb hn h
    have hs : ∀ u, W (u + (t' - t)) = W u := by
      intro u
      have e := hi (u + (2 ^ mtBits P - 1) * (t + 1) - t)
      have hle : t + 1 ≤ (2 ^ mtBits P - 1) * (t + 1) := Nat.le_mul_of_pos_left _ (by omega)
      rw [show u + (2 ^ mtBits P - 1) * (t + 1) - t + t = u + (2 ^ mtBits P - 1) * (t + 1) by omega,
        show u + (2 ^ mtBits P - 1) * (t + 1) - t + t' = u + (t' - t) + (2 ^ mtBits P - 1) * (t + 1) by omega,
        periodic_mul hv hd hW hb hn, periodic_mul hv hd hW hb hn] at e
      exact e.symm
    have := Nat.le_of_dvd (by omega) ((period_iff hv hd hp hW hb hn hne _).1 hs)
    omega
  intro t ht t' ht' h
  simp only [Finset.coe_range, Set.mem_Iio] at ht ht'
  rcases Nat.lt_trichotomy t t' with hlt | he | hlt
  · exact absurd h (main t t' hlt ht')
  · exact he
  · exact absurd h.symm (main t' t hlt ht)

/-- All possible windows. -/
def windows (P : Params) : Finset (Nat × (Fin (P.n - 1) → Nat)) :=
  Finset.range (2 ^ (P.w - P.r)) ×ˢ Fintype.piFinset fun _ => Finset.range (2 ^ P.w)

omit hd hp hv hW hb hn in
theorem card_windows (hv : MtValid P) : (windows P).card = 2 ^ mtBits P := by
  have h1 := hv.m_lt; have h2 := hv.m_two; have h3 := hv.r_lt
  rw [windows, Finset.card_product, Fintype.card_piFinset_const, Finset.card_range, Finset.card_range, ← pow_mul, ← pow_add]
  congr 1
  unfold mtBits
  obtain ⟨n, hn⟩ : ∃ n, P.n = n + 1 := ⟨P.n - 1, by omega⟩
  rw [hn, Nat.add_sub_cancel, Nat.mul_add]
  omega

theorem windows_image (hne : ∃ t, W t ≠ 0) : (Finset.range (2 ^ mtBits P - 1)).image (window P W) = (windows P).erase (0, fun _ => 0) := by
  have h3 := hv.r_lt
  apply Finset.eq_of_subset_of_card_le
  · intro x hx
    obtain ⟨t, -, rfl⟩ := Finset.mem_image.1 hx
    refine Finset.mem_erase.2 ⟨window_ne_zero hv hW hb hn hne t, ?_⟩
    rw [windows, Finset.mem_product, Fintype.mem_piFinset]
    refine ⟨Finset.mem_range.2 ?_, fun j => Finset.mem_range.2 (hb _)⟩
    show W t / 2 ^ P.r < _
    rw [Nat.div_lt_iff_lt_mul (Nat.two_pow_pos _), ← pow_add, Nat.sub_add_cancel h3.le]
    exact hb t
  · rw [Finset.card_image_of_injOn (window_injOn hv hd hp hW hb hn hne), Finset.card_range, Finset.card_erase_of_mem, card_windows hv]
    rw [windows, Finset.mem_product, Fintype.mem_piFinset]
    exact ⟨Finset.mem_range.2 (Nat.two_pow_pos _), fun j => Finset.mem_range.2 (Nat.two_pow_pos _)⟩

/-- How often `n - 1` given words follow one another in a period, wherever the period is taken to start. -/
theorem count_words (hne : ∃ t, W t ≠ 0) (i : Nat) (u : Fin (P.n - 1) → Nat) (hu : ∀ j, u j < 2 ^ P.w) :
    ((Finset.range (2 ^ mtBits P - 1)).filter fun t => ∀ j : Fin (P.n - 1), W (i + t + j) = u j).card + (if ∀ j, u j = 0 then 1 else 0) = 2 ^ (P.w - P.r) := by
  have hper : ∀ i, ((Finset.range (2 ^ mtBits P - 1)).filter fun t => ∀ j : Fin (P.n - 1), W (i + t + j) = u j).card =
      (2 ^ mtBits P - 1).count fun s => ∀ j : Fin (P.n - 1), W (s + j) = u j := by
    intro i
    have := Nat.filter_Ico_card_eq_of_periodic i (2 ^ mtBits P - 1) (fun s => ∀ j : Fin (P.n - 1), W (s + j) = u j) (fun s => by
      refine propext (forall_congr' fun j => ?_)
      rw [Nat.add_right_comm, periodic hv hd hW hb hn])
    rw [← this]
    refine Finset.card_bij (fun t _ => i + t) (fun t ht => ?_) (fun a _ b _ h => by omega) (fun s hs => ?_)
    · rw [Finset.mem_filter, Finset.mem_range] at ht
      rw [Finset.mem_filter, Finset.mem_Ico]
      exact ⟨by omega, ht.2⟩
    · rw [Finset.mem_filter, Finset.mem_Ico] at hs
      refine ⟨s - i, ?_, by omega⟩
      rw [Finset.mem_filter, Finset.mem_range]
      exact ⟨by omega, fun j => by rw [show i + (s - i) = s by omega]; exact hs.2 j⟩
  rw [hper i, ← hper 1]
  have e1 : ((Finset.range (2 ^ mtBits P - 1)).filter fun t => ∀ j : Fin (P.n - 1), W (1 + t + j) = u j).card =
      (((windows P).erase (0, fun _ => 0)).filter fun x => x.2 = u).card := by
    rw [← windows_image hv hd hp hW hb hn hne]
    rw [Finset.filter_image, Finset.card_image_of_injOn ((window_injOn hv hd hp hW hb hn hne).mono fun t ht => by
      rw [Finset.mem_coe] at ht ⊢; exact (Finset.mem_filter.1 ht).1)]
    congr 1
    refine Finset.filter_congr fun t _ => ?_
    rw [funext_iff]
    refine forall_congr' fun j => ?_
    show W (1 + t + j) = u j ↔ W (t + 1 + j) = u j
    rw [Nat.add_comm 1 t]
  have e2 : ((windows P).filter fun x => x.2 = u).card = 2 ^ (P.w - P.r) := by
    rw [show (windows P).filter (fun x => x.2 = u) = (Finset.range (2 ^ (P.w - P.r))).image fun a => (a, u) by
      ext ⟨a, b⟩
      rw [Finset.mem_filter, windows, Finset.mem_product, Fintype.mem_piFinset, Finset.mem_image]
      constructor
      · rintro ⟨⟨h1, h2⟩, rfl⟩
        exact ⟨a, h1, rfl⟩
      · rintro ⟨a', h1, h2⟩
        obtain ⟨rfl, rfl⟩ := Prod.mk.inj h2
        exact ⟨⟨h1, fun j => Finset.mem_range.2 (hu j)⟩, rfl⟩]
    rw [Finset.card_image_of_injective _ fun a b h => (Prod.mk.inj h).1, Finset.card_range]
  rw [e1, ← e2, Finset.filter_erase]
  by_cases hz : ∀ j, u j = 0
  · rw [if_pos hz, Finset.card_erase_of_mem]
    · have hpos : 0 < ((windows P).filter fun x => x.2 = u).card := by rw [e2]; exact Nat.two_pow_pos _
      omega
    · rw [Finset.mem_filter, windows, Finset.mem_product, Fintype.mem_piFinset]
      exact ⟨⟨Finset.mem_range.2 (Nat.two_pow_pos _), fun j => Finset.mem_range.2 (Nat.two_pow_pos _)⟩, funext fun j => (hz j).symm⟩
  · rw [if_neg hz, Nat.add_zero, Finset.erase_eq_of_notMem]
    rw [Finset.mem_filter, not_and]
    intro _ h
    exact hz fun j => (congrFun h j).symm

end

end Mt
end Boost.Random
