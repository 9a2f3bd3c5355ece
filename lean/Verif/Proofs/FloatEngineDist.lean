import Verif.Proofs.FloatEngine
import Verif.Proofs.NearPow
import Mathlib.Data.Nat.Digits.Defs

/-!
# The other distributions on an engine with floating-point results: proofs
-/

namespace Boost.Random
namespace FloatEngine
open Spec
open RealDist (fl_zero fl_nonneg fl_fl)

section
variable {p pb : Nat} {fl flb : ℚ → ℚ} (H : Rounding p fl) (Hb : Rounding pb flb) (hp : 1 ≤ p) (hpb : 1 ≤ pb)
include H Hb hp hpb

theorem unit_eq : fl (flb (1 - 0)) = 1 := by
  rw [sub_zero, Hb.exact 1 (Representable.one hpb), H.exact 1 (Representable.one hp)]

omit hp hpb H in
theorem value_eq {x : ℚ} (hx : Representable pb x) : flb (x - 0) = x := by rw [sub_zero, Hb.exact x hx]

theorem uniform01_cons {x : ℚ} (hx : Representable pb x) (xs : List ℚ) :
    uniform01 fl flb (x :: xs) = if fl x < 1 then .done (fl x) xs else uniform01 fl flb xs := by
  rw [uniform01]
  simp only [unit_eq H Hb hp hpb, value_eq Hb hx, fl_zero H, add_zero]
  rw [H.exact 1 (Representable.one hp), div_one, H.exact 1 (Representable.one hp), mul_one, fl_fl H]

theorem uniform01_in : ∀ xs, RealOutputs pb xs → RunsIn (uniform01 fl flb) xs fun v => 0 ≤ v ∧ v < 1 := by
  intro xs
  induction xs with
  | nil => intro _; exact ⟨by simp [uniform01], by simp [uniform01]⟩
  | cons x xs ih =>
    intro hO
    obtain ⟨a, b, c⟩ := hO x (by simp)
    obtain ⟨i1, i2⟩ := ih fun y hy => hO y (by simp [hy])
    unfold RunsIn
    rw [uniform01_cons H Hb hp hpb c]
    by_cases h : fl x < 1
    · rw [if_pos h]
      refine ⟨by simp, ?_⟩
      intro v rest e
      simp only [Run.done.injEq] at e
      obtain ⟨rfl, rfl⟩ := e
      exact ⟨⟨fl_nonneg H a, h⟩, List.suffix_cons _ _⟩
    · rw [if_neg h]
      exact ⟨i1, fun v rest e => ⟨(i2 v rest e).1, (i2 v rest e).2.trans (List.suffix_cons _ _)⟩⟩

/-- A value of the result type is passed on unchanged. -/
theorem uniform01_exact {x : ℚ} (hx : Representable pb x) (hx' : Representable p x) (h : x < 1) (xs : List ℚ) :
    uniform01 fl flb (x :: xs) = .done x xs := by
  rw [uniform01_cons H Hb hp hpb hx, H.exact x hx', if_pos h]

theorem uniformReal_cons {x lo hi : ℚ} (hx : Representable pb x) (xs : List ℚ) : uniformReal fl flb lo hi (x :: xs) =
    if fl (fl (fl x * fl (hi - lo)) + lo) < hi then .done (fl (fl (fl x * fl (hi - lo)) + lo)) xs else uniformReal fl flb lo hi xs := by
  rw [uniformReal]
  simp only [unit_eq H Hb hp hpb, value_eq Hb hx, div_one, fl_fl H]

theorem uniformReal_in {lo hi : ℚ} (hlh : lo ≤ hi) (hlo : Representable p lo) :
    ∀ xs, RealOutputs pb xs → RunsIn (uniformReal fl flb lo hi) xs fun v => lo ≤ v ∧ v < hi := by
  intro xs
  induction xs with
  | nil => intro _; exact ⟨by simp [uniformReal], by simp [uniformReal]⟩
  | cons x xs ih =>
    intro hO
    obtain ⟨a, b, c⟩ := hO x (by simp)
    obtain ⟨i1, i2⟩ := ih fun y hy => hO y (by simp [hy])
    unfold RunsIn
    rw [uniformReal_cons H Hb hp hpb c]
    have hge : lo ≤ fl (fl (fl x * fl (hi - lo)) + lo) := by
      have h1 : 0 ≤ fl (fl x * fl (hi - lo)) := fl_nonneg H (mul_nonneg (fl_nonneg H a) (fl_nonneg H (by linarith)))
      have := H.mono lo (fl (fl x * fl (hi - lo)) + lo) (by linarith)
      rwa [H.exact lo hlo] at this
    by_cases h : fl (fl (fl x * fl (hi - lo)) + lo) < hi
    · rw [if_pos h]
      refine ⟨by simp, ?_⟩
      intro v rest e
      simp only [Run.done.injEq] at e
      obtain ⟨rfl, rfl⟩ := e
      exact ⟨⟨hge, h⟩, List.suffix_cons _ _⟩
    · rw [if_neg h]
      exact ⟨i1, fun v rest e => ⟨(i2 v rest e).1, (i2 v rest e).2.trans (List.suffix_cons _ _)⟩⟩

theorem uniformReal_zero {lo hi : ℚ} (hlh : lo < hi) (hlo : Representable p lo) (xs : List ℚ) :
    uniformReal fl flb lo hi (0 :: xs) = .done lo xs := by
  rw [uniformReal_cons H Hb hp hpb (Representable.zero _), fl_zero H, zero_mul, fl_zero H, zero_add, H.exact lo hlo, if_pos hlh]

theorem bernoulli_cons {q x : ℚ} (hq : q ≠ 0) (hqr : Representable p q) (hx : Representable pb x) (xs : List ℚ) :
    bernoulli fl flb q (x :: xs) = .done (decide (fl x ≤ q)) xs := by
  unfold bernoulli
  rw [if_neg hq]
  simp only [unit_eq H Hb hp hpb, value_eq Hb hx, mul_one, H.exact q hqr]

end

/-! ## `uniform_smallint` -/

section
variable {pb : Nat} {flb : ℚ → ℚ} (N : Nearest pb flb) (hpb : 1 ≤ pb)
include N hpb

/-- The number of values of the distribution, as computed, is at most the number of values of the unsigned type. -/
theorem size_le {W range : Nat} (hr : range < 2 ^ W) : flb (flb range + 1) ≤ 2 ^ W := by
  have H := Nearest.rounding N
  have hrq : (range : ℚ) + 1 ≤ 2 ^ W := by exact_mod_cast hr
  have hW : flb (2 ^ W) = 2 ^ W := H.exact _ (Representable.two_pow hpb W)
  rcases Nat.lt_or_ge pb W with hlt | hge
  · have h1 : flb range ≤ 2 ^ W := by
      rw [← hW]; exact H.mono _ _ (by linarith)
    refine le_trans (H.mono _ (2 ^ W + 1) (by linarith)) ?_
    by_contra hc
    rw [not_le] at hc
    have hk : (0 : ℚ) < 2 ^ W := by positivity
    have hs := Representable.ge_succ_one hpb (Representable.div_two_pow (H.repr (2 ^ W + 1)) W) (by rw [one_lt_div hk]; exact hc)
    rw [le_div_iff₀ hk] at hs
    have e3 : (1 + 2 / 2 ^ pb) * 2 ^ W = (2 : ℚ) ^ W + 2 * (2 ^ W / 2 ^ pb) := by field_simp
    have e4 : (2 : ℚ) ≤ 2 ^ W / 2 ^ pb := by
      rw [le_div_iff₀ (by positivity), ← pow_succ']
      exact pow_le_pow_right₀ (by norm_num) hlt
    have hn := N.nearest (2 ^ W + 1) (2 ^ W) (Representable.two_pow hpb W)
    rw [show (2 : ℚ) ^ W + 1 - 2 ^ W = 1 by ring, abs_one, abs_le] at hn
    rw [e3] at hs
    linarith [hn.1]
  · have h1 : flb range = range := H.exact _ (Representable.natCast (lt_of_lt_of_le hr (Nat.pow_le_pow_right (by norm_num) hge)))
    rw [h1, ← hW]
    exact H.mono _ _ hrq

theorem product_lt {W range : Nat} (hr : range < 2 ^ W) {x : ℚ} (hx : 0 ≤ x ∧ x < 1 ∧ Representable pb x) :
    0 ≤ flb (x * flb (flb range + 1)) ∧ flb (x * flb (flb range + 1)) < 2 ^ W := by
  have H := Nearest.rounding N
  have hs := size_le N hpb hr
  have h0 : 0 ≤ flb (flb range + 1) := fl_nonneg H (add_nonneg (fl_nonneg H (by positivity)) zero_le_one)
  refine ⟨fl_nonneg H (mul_nonneg hx.1 h0), ?_⟩
  rcases hs.lt_or_eq with h | h
  · refine lt_of_le_of_lt ?_ h
    conv_rhs => rw [← H.exact _ (H.repr (flb range + 1))]
    exact H.mono _ _ (mul_le_of_le_one_left h0 hx.2.1.le)
  · rw [h, H.exact _ (Representable.mul_two_pow hx.2.2 W)]
    exact mul_lt_of_lt_one_left (by positivity) hx.2.1

theorem smallint_eq {T : IntTy} {mn mx : Int} (hP : ParamOK T mn mx) {x : ℚ} (hx : 0 ≤ x ∧ x < 1 ∧ Representable pb x) (xs : List ℚ) :
    smallint flb T mn mx (x :: xs) =
      .done (min mx (mn + ⌊flb (x * flb (flb ((mx - mn).toNat : Nat) + 1))⌋)) xs := by
  have H := Nearest.rounding N
  have hle := hP.le
  have hd := inTy_diff hP.bits hP.min_ty hP.max_ty
  have hlt : (mx - mn).toNat < 2 ^ T.bits := by
    have hz : ((2 ^ T.bits : Nat) : Int) = 2 ^ T.bits := by push_cast; rfl
    rw [← hz] at hd
    omega
  obtain ⟨y0, y1⟩ := product_lt N hpb hlt hx
  have hf0 : 0 ≤ ⌊flb (x * flb (flb ((mx - mn).toNat : Nat) + 1))⌋ := Int.floor_nonneg.2 y0
  unfold smallint
  rw [subtractT_spec hP.bits hP.max_ty hP.min_ty hle]
  simp only
  rw [uniform01_exact H H hpb hpb hx.2.2 hx.2.2 hx.2.1]
  simp only [Run.bind]
  unfold toUnsigned
  rw [if_pos ⟨lt_of_lt_of_le (by norm_num) y0, y1⟩]
  simp only
  obtain ⟨f, hf⟩ : ∃ f : Nat, (f : Int) = ⌊flb (x * flb (flb ((mx - mn).toNat : Nat) + 1))⌋ :=
    ⟨_, Int.toNat_of_nonneg hf0⟩
  rw [← hf, Int.toNat_natCast]
  by_cases h : f > (mx - mn).toNat
  · rw [if_pos h, min_eq_left (by omega)]
  · rw [if_neg h, addT_spec hP.bits (by omega) hP.min_ty
      (inTy_of_between hP.min_ty hP.max_ty (by omega) (by omega)), min_eq_right (by omega)]

theorem smallint_exact {T : IntTy} {mn mx : Int} (hP : ParamOK T mn mx) {eb : Nat} (heb : eb ≤ pb) (hn : mx - mn + 1 ≤ 2 ^ (pb - eb)) (k : Nat)
    (hk : k < 2 ^ eb) (xs : List ℚ) :
    smallint flb T mn mx ((k : ℚ) / 2 ^ eb :: xs) = .done (mn + (k * ((mx - mn).toNat + 1) / 2 ^ eb : Nat)) xs := by
  have H := Nearest.rounding N
  have hle := hP.le
  have hpe : (0 : ℚ) < 2 ^ eb := by positivity
  obtain ⟨r, hr⟩ : ∃ r : Nat, (r : Int) = mx - mn := ⟨(mx - mn).toNat, by omega⟩
  have hrt : (mx - mn).toNat = r := by omega
  have hrn : r + 1 ≤ 2 ^ (pb - eb) := by
    have hz : ((2 ^ (pb - eb) : Nat) : Int) = 2 ^ (pb - eb) := by push_cast; rfl
    rw [← hz] at hn
    omega
  have hsplit : 2 ^ pb = 2 ^ eb * 2 ^ (pb - eb) := by rw [← pow_add]; congr 1; omega
  have hprod : k * (r + 1) < 2 ^ pb := by
    rw [hsplit]
    exact lt_of_lt_of_le ((Nat.mul_lt_mul_right (Nat.succ_pos r)).2 hk) (Nat.mul_le_mul_left _ hrn)
  have hr1 : flb (r : ℚ) = r := by
    apply H.exact _ (Representable.natCast _)
    calc r < r + 1 := Nat.lt_succ_self _
      _ ≤ 2 ^ (pb - eb) := hrn
      _ ≤ 2 ^ pb := Nat.pow_le_pow_right (by norm_num) (by omega)
  have hr2 : flb ((r : ℚ) + 1) = (r : ℚ) + 1 := by
    apply H.exact
    by_cases h : r + 1 < 2 ^ pb
    · exact_mod_cast Representable.natCast h
    · have : r + 1 = 2 ^ pb := le_antisymm (hrn.trans (Nat.pow_le_pow_right (by norm_num) (by omega))) (by omega)
      rw [show ((r : ℚ) + 1) = 2 ^ pb by exact_mod_cast this]
      exact Representable.two_pow hpb pb
  have hx : 0 ≤ (k : ℚ) / 2 ^ eb ∧ (k : ℚ) / 2 ^ eb < 1 ∧ Representable pb ((k : ℚ) / 2 ^ eb) :=
    GridOutputs.real heb (xs := [(k : ℚ) / 2 ^ eb]) (by intro x hx; rw [List.mem_singleton] at hx; exact ⟨k, hk, hx⟩) _ (List.mem_singleton.2 rfl)
  rw [smallint_eq N hpb hP hx, hrt, hr1, hr2,
    show (k : ℚ) / 2 ^ eb * ((r : ℚ) + 1) = ((k * (r + 1) : Nat) : ℚ) / 2 ^ eb by push_cast; ring,
    H.exact _ (Representable.scaled hprod eb)]
  have hfl : ⌊((k * (r + 1) : Nat) : ℚ) / 2 ^ eb⌋ = ((k * (r + 1) / 2 ^ eb : Nat) : Int) := by
    have := Rat.floor_intCast_div_natCast (k * (r + 1) : Nat) (2 ^ eb)
    push_cast at this ⊢
    exact this
  have hq : k * (r + 1) / 2 ^ eb < r + 1 := by
    rw [Nat.div_lt_iff_lt_mul (Nat.two_pow_pos _), Nat.mul_comm]
    exact (Nat.mul_lt_mul_left (Nat.succ_pos r)).2 hk
  rw [hfl, min_eq_right (by omega)]

end

/-- The number of `k < M` whose share `k n / M` is `i`. -/
theorem card_share (M n i : Nat) (hM : 0 < M) (hn : 0 < n) (hi : i < n) :
    ((List.range M).countP fun k => decide (k * n / M = i)) = ((i + 1) * M + (n - 1)) / n - (i * M + (n - 1)) / n := by
  have key : ∀ a k : Nat, (a + (n - 1)) / n ≤ k ↔ a ≤ k * n := by
    intro a k
    rw [← Nat.lt_succ_iff, Nat.div_lt_iff_lt_mul hn, Nat.succ_mul]
    omega
  have h1 : ∀ k, (k * n / M = i) ↔ ((i * M + (n - 1)) / n ≤ k ∧ k < ((i + 1) * M + (n - 1)) / n) := by
    intro k
    rw [Nat.div_eq_iff hM, key, ← not_le, key]
    rw [Nat.add_mul]
    omega
  have hle : ((i + 1) * M + (n - 1)) / n ≤ M := by
    rw [key, Nat.mul_comm M n]
    exact Nat.mul_le_mul_right M hi
  have gen : ∀ A B m, B ≤ m → ((List.range m).countP fun k => decide (A ≤ k ∧ k < B)) = B - A := by
    intro A B m
    induction m with
    | zero => intro h; simp; omega
    | succ m ih =>
      intro h
      rw [List.range_succ, List.countP_append]
      rcases Nat.lt_or_ge m B with hlt | hge
      · have hB : B = m + 1 := by omega
        subst hB
        have : ((List.range m).countP fun k => decide (A ≤ k ∧ k < m + 1)) = m - A := by
          clear ih
          have h2 : ∀ m' ≤ m, ((List.range m').countP fun k => decide (A ≤ k ∧ k < m + 1)) = m' - A := by
            intro m'
            induction m' with
            | zero => intro _; simp
            | succ m' ih =>
              intro h'
              rw [List.range_succ, List.countP_append, ih (by omega)]
              simp only [List.countP_cons, List.countP_nil]
              split <;> rename_i hh <;> simp at hh <;> omega
          exact h2 m le_rfl
        rw [this]
        simp only [List.countP_cons, List.countP_nil]
        split <;> rename_i hh <;> simp at hh <;> omega
      · rw [ih hge]
        simp only [List.countP_cons, List.countP_nil]
        rw [if_neg (by simp; omega)]
        rfl
  rw [← gen _ _ M hle]
  apply List.countP_congr
  intro k _
  simp only [decide_eq_true_eq]
  exact h1 k

theorem card_share_cases (M n i : Nat) (hM : 0 < M) (hn : 0 < n) (hi : i < n) :
    ((List.range M).countP fun k => decide (k * n / M = i)) = M / n ∨ ((List.range M).countP fun k => decide (k * n / M = i)) = M / n + 1 := by
  rw [card_share M n i hM hn hi, show (i + 1) * M + (n - 1) = (i * M + (n - 1)) + M by ring, Nat.add_div hn]
  generalize (i * M + (n - 1)) / n = A
  generalize M / n = B
  split <;> omega

end FloatEngine
end Boost.Random
