import Verif.Model.IndependentBits
import Verif.Spec.IndependentBits
import Verif.Proofs.SeedImpl
import Verif.Proofs.UniformCount

namespace Boost.Random
namespace IndependentBits
open Spec

/-! ## Parameters -/

theorem calcParams_spec (W w n R : Nat) (hn : 1 ≤ n) (hnw : n ≤ w) (hR : 1 ≤ R) (hRW : R ≤ 2 ^ W) (hw0 : w / n ≤ W)
    (hw1 : w % n ≠ 0 → w / n + 1 ≤ W) :
    ∃ p, calcParams W w n (R - 1) = some p ∧ p.w0 = w / n ∧ p.n0 = n - w % n ∧ p.mask0 = 2 ^ (w / n) - 1 ∧
      p.y0 = (R / 2 ^ (w / n) * 2 ^ (w / n)) % 2 ^ W ∧
      (w % n ≠ 0 → p.mask1 = 2 ^ (w / n + 1) - 1 ∧ p.y1 = (R / 2 ^ (w / n + 1) * 2 ^ (w / n + 1)) % 2 ^ W) := by
  unfold calcParams
  rw [if_neg (by omega)]
  have hw01 : 1 ≤ w / n := (Nat.one_le_div_iff (by omega)).2 hnw
  have hmask := SeedImpl.genMask_eq W (w / n) hw01 hw0
  unfold SeedImpl.genMask at hmask
  have hy : ∀ b, b ≤ W → (R - 1 + 1) % 2 ^ W &&& ((2 ^ W - 1) ^^^ (2 ^ b - 1)) = (R / 2 ^ b * 2 ^ b) % 2 ^ W := by
    intro b hb
    rw [Nat.sub_add_cancel hR]
    rcases Nat.lt_or_eq_of_le hRW with h | h
    · rw [Nat.mod_eq_of_lt h, SeedImpl.and_not_mask h hb, Nat.mod_eq_of_lt]
      exact lt_of_le_of_lt (Nat.div_mul_le_self _ _) h
    · rw [h, Nat.mod_self, Nat.zero_and, Nat.div_mul_cancel (Nat.pow_dvd_pow 2 hb), Nat.mod_self]
  refine ⟨_, rfl, rfl, rfl, hmask, ?_, fun hmod => ?_⟩
  · simp only
    rw [hmask]
    exact hy _ hw0
  · have h1 := hw1 hmod
    have hm1 : ((2 ^ (w / n) - 1) <<< 1) % 2 ^ W ||| 1 = 2 ^ (w / n + 1) - 1 := by
      have hp := Nat.two_pow_pos (w / n)
      have hle : 2 ^ (w / n + 1) ≤ 2 ^ W := Nat.pow_le_pow_right (by norm_num) h1
      rw [pow_succ] at hle
      rw [Nat.shiftLeft_eq, pow_one, Nat.mod_eq_of_lt (by omega)]
      have := Nat.two_pow_add_eq_or_of_lt (i := 1) (b := 1) (by norm_num) (2 ^ (w / n) - 1)
      rw [pow_one, Nat.mul_comm] at this
      rw [← this, pow_succ]; omega
    simp only
    rw [hmask, hm1]
    exact ⟨rfl, hy _ h1⟩

theorem baseBits_spec (W R : Nat) (hW : 1 ≤ W) (hR : 2 ≤ R) (hRW : R ≤ 2 ^ W) : baseBits W (R - 1) = Nat.log2 R := by
  unfold baseBits
  rw [Nat.sub_add_cancel (by omega)]
  rcases Nat.lt_or_eq_of_le hRW with h | h
  · rw [if_neg (by omega), Nat.mod_eq_of_lt h, integerLog2_eq W R (by omega) h]
  · rw [if_pos (by omega), h, Nat.log2_two_pow]

theorem ceil_le (w m n : Nat) (hm : 1 ≤ m) (hn : (w + m - 1) / m ≤ n) (hn1 : 1 ≤ n) : w ≤ n * m := by
  have h1 := Nat.div_add_mod (w + m - 1) m
  have h2 := Nat.mod_lt (w + m - 1) (show 0 < m by omega)
  have h3 : m * ((w + m - 1) / m) ≤ m * n := Nat.mul_le_mul_left m hn
  rw [Nat.mul_comm n m]
  omega

theorem div_bounds (w m n : Nat) (hn : 1 ≤ n) (h : w ≤ n * m) : w / n ≤ m ∧ (w % n ≠ 0 → w / n + 1 ≤ m) := by
  have h1 := Nat.div_add_mod w n
  refine ⟨(Nat.div_le_iff_le_mul_add_pred (by omega)).2 (by omega), fun h0 => ?_⟩
  by_contra hcon
  have : n * m ≤ n * (w / n) := Nat.mul_le_mul_left n (by omega)
  omega

/-- In the case left out by the theorems the base has three values and more than two bits are wanted. -/
theorem ibCount_le (R w : Nat) (hR : 2 ≤ R) (hw : 1 ≤ w) (hex : ¬ (R = 3 ∧ 3 ≤ w)) : ibCount R w ≤ w := by
  have hm : 1 ≤ Nat.log2 R := (Nat.le_log2 (by omega)).2 (by omega)
  have hlo : 2 ^ Nat.log2 R ≤ R := Nat.log2_self_le (by omega)
  have hhi : R < 2 ^ (Nat.log2 R + 1) := Nat.lt_log2_self
  unfold ibCount
  simp only
  set m := Nat.log2 R with hmd
  have hceil : (w + m - 1) / m ≤ w := by
    rw [Nat.div_le_iff_le_mul_add_pred (by omega)]
    have : w ≤ m * w := Nat.le_mul_of_pos_left w (by omega)
    omega
  have hceil1 : 1 ≤ (w + m - 1) / m := (Nat.one_le_div_iff (by omega)).2 (by omega)
  split_ifs with hcond
  · exact hceil
  · by_contra hcon
    have heq : (w + m - 1) / m = w := by omega
    rw [heq, Nat.div_self (by omega), pow_one] at hcond
    rcases Nat.lt_or_ge 1 m with h1 | h1
    · -- then w = 1
      have hw1 : w = 1 := by
        by_contra hw1
        have : (w + m - 1) / m < w := by
          rw [Nat.div_lt_iff_lt_mul (by omega)]
          obtain ⟨a, rfl⟩ := Nat.exists_eq_add_of_le (show 2 ≤ w by omega)
          obtain ⟨c, hc⟩ := Nat.exists_eq_add_of_le (show 2 ≤ m by omega)
          rw [hc]
          ring_nf; omega
        omega
      subst hw1
      have : 4 ≤ R := le_trans (by
        calc 4 = 2 ^ 2 := by norm_num
          _ ≤ 2 ^ m := Nat.pow_le_pow_right (by norm_num) h1) hlo
      simp only [Nat.div_one] at hcond
      omega
    · have hm1 : m = 1 := by omega
      rw [hm1] at hlo hhi
      norm_num at hlo hhi
      have hR23 : R = 2 ∨ R = 3 := by omega
      rcases hR23 with rfl | rfl
      · norm_num at hcond
      · have : w = 1 ∨ w = 2 := by omega
        rcases this with rfl | rfl <;> norm_num at hcond

theorem ibCount_ge (R w : Nat) : (w + Nat.log2 R - 1) / Nat.log2 R ≤ ibCount R w := by
  unfold ibCount; simp only; split <;> omega

theorem log2_le {W R : Nat} (hR : 2 ≤ R) (hRW : R ≤ 2 ^ W) : Nat.log2 R ≤ W := by
  have : 2 ^ Nat.log2 R ≤ 2 ^ W := le_trans (Nat.log2_self_le (by omega)) hRW
  exact (Nat.pow_le_pow_iff_right (by norm_num)).1 this

theorem choose_spec (W w R : Nat) (hW : 1 ≤ W) (hR : 2 ≤ R) (hRW : R ≤ 2 ^ W) (hw : 1 ≤ w) :
    (ibCount R w ≤ w → ∃ p, choose W w (R - 1) = some (ibCount R w, p) ∧ calcParams W w (ibCount R w) (R - 1) = some p) ∧
    (w < ibCount R w → choose W w (R - 1) = none) := by
  have hm : 1 ≤ Nat.log2 R := (Nat.le_log2 (by omega)).2 (by omega)
  have hmW := log2_le hR hRW
  have hceil : (w + Nat.log2 R - 1) / Nat.log2 R ≤ w := by
    rw [Nat.div_le_iff_le_mul_add_pred (by omega)]
    have : w ≤ Nat.log2 R * w := Nat.le_mul_of_pos_left w (by omega)
    omega
  have hceil1 : 1 ≤ (w + Nat.log2 R - 1) / Nat.log2 R := (Nat.one_le_div_iff (by omega)).2 (by omega)
  have hle := ceil_le w _ _ hm (le_refl _) hceil1
  obtain ⟨b1, b2⟩ := div_bounds w _ _ hceil1 hle
  obtain ⟨p, hp, -, -, -, hy0, -⟩ := calcParams_spec W w _ R hceil1 hceil (by omega) hRW (by omega) (fun h => by have := b2 h; omega)
  have hcond : (R - 1 + 2 ^ W - p.y0 + 1) % 2 ^ W > p.y0 / ((w + Nat.log2 R - 1) / Nat.log2 R) ↔
      ¬ (R - 2 ^ (w / ((w + Nat.log2 R - 1) / Nat.log2 R)) * (R / 2 ^ (w / ((w + Nat.log2 R - 1) / Nat.log2 R))) ≤
        2 ^ (w / ((w + Nat.log2 R - 1) / Nat.log2 R)) * (R / 2 ^ (w / ((w + Nat.log2 R - 1) / Nat.log2 R))) /
          ((w + Nat.log2 R - 1) / Nat.log2 R)) := by
    rw [hy0]
    generalize (w + Nat.log2 R - 1) / Nat.log2 R = n at b1 hceil1
    rw [Nat.mul_comm (2 ^ (w / n))]
    have hyR := Nat.div_mul_le_self R (2 ^ (w / n))
    rcases Nat.lt_or_eq_of_le hRW with h | h
    · rw [Nat.mod_eq_of_lt (lt_of_le_of_lt hyR h)]
      rw [show R - 1 + 2 ^ W - R / 2 ^ (w / n) * 2 ^ (w / n) + 1 = R - R / 2 ^ (w / n) * 2 ^ (w / n) + 2 ^ W by omega,
        Nat.add_mod_right, Nat.mod_eq_of_lt (by omega)]
      omega
    · have hd : 2 ^ W / 2 ^ (w / n) * 2 ^ (w / n) = 2 ^ W := Nat.div_mul_cancel (Nat.pow_dvd_pow 2 (by omega))
      have hp2 := Nat.two_pow_pos W
      rw [h, hd, Nat.mod_self, Nat.sub_self, Nat.zero_div,
        show 2 ^ W - 1 + 2 ^ W - 0 + 1 = 2 ^ W + 2 ^ W by omega, Nat.add_mod_right, Nat.mod_self]
      simp
  unfold choose
  simp only
  rw [baseBits_spec W R hW hR hRW, if_neg (by omega), hp]
  simp only [Option.bind_some]
  have hcnt : ibCount R w = if (R - 1 + 2 ^ W - p.y0 + 1) % 2 ^ W > p.y0 / ((w + Nat.log2 R - 1) / Nat.log2 R)
      then (w + Nat.log2 R - 1) / Nat.log2 R + 1 else (w + Nat.log2 R - 1) / Nat.log2 R := by
    unfold ibCount
    simp only
    by_cases hc : (R - 1 + 2 ^ W - p.y0 + 1) % 2 ^ W > p.y0 / ((w + Nat.log2 R - 1) / Nat.log2 R)
    · rw [if_pos hc, if_neg (hcond.1 hc)]
    · rw [if_neg hc, if_pos (by by_contra hx; exact hc (hcond.2 hx))]
  by_cases hc : (R - 1 + 2 ^ W - p.y0 + 1) % 2 ^ W > p.y0 / ((w + Nat.log2 R - 1) / Nat.log2 R)
  · rw [if_pos hc] at hcnt
    rw [if_pos hc, hcnt]
    refine ⟨fun h => ?_, fun h => ?_⟩
    · have hle' := ceil_le w _ _ hm (Nat.le_succ _) (Nat.succ_le_succ (Nat.zero_le _))
      obtain ⟨c1, c2⟩ := div_bounds w _ _ (Nat.succ_le_succ (Nat.zero_le _)) hle'
      obtain ⟨p', hp', -⟩ := calcParams_spec W w _ R (Nat.succ_le_succ (Nat.zero_le _)) h (by omega) hRW
        (le_trans c1 hmW) (fun h => le_trans (c2 h) hmW)
      exact ⟨p', by rw [hp']; rfl, hp'⟩
    · have : calcParams W w ((w + Nat.log2 R - 1) / Nat.log2 R + 1) (R - 1) = none := by
        unfold calcParams; rw [if_pos (Or.inr h)]
      rw [this]; rfl
  · rw [if_neg hc] at hcnt
    rw [if_neg hc, hcnt]
    exact ⟨fun _ => ⟨p, rfl, hp⟩, fun h => by omega⟩

/-! ## The loops -/

theorem ibRun_append (E : EngInfo) : ∀ (xs : List Int) (ss ts : List (Nat × Nat)) (S : Nat),
    ibRun E xs (ss ++ ts) S = match ibRun E xs ss S with
      | .done S' xs' => ibRun E xs' ts S'
      | .more => .more
      | .ub => .ub
  | xs, [], ts, S => by cases xs <;> simp [ibRun]
  | [], _ :: _, _, _ => by simp [ibRun]
  | x :: xs, (y, b) :: ss, ts, S => by
    simp only [List.cons_append, ibRun]
    split
    · exact ibRun_append E xs ss ts _
    · have := ibRun_append E xs ((y, b) :: ss) ts S
      rw [List.cons_append] at this
      exact this

theorem ibRun_nil (E : EngInfo) (xs : List Int) (S : Nat) : ibRun E xs [] S = .done S xs := by
  cases xs <;> simp [ibRun]

/-- A round of the model, for a bound `Y` given as `Y mod 2^W`. -/
theorem pick_spec {E : EngInfo} (hE : EngOK E) (Y b : Nat) (hY : 1 ≤ Y) (hYW : Y ≤ 2 ^ E.ty.bits) :
    ∀ (xs : List Int) (S : Nat), Outputs E xs →
    ibRun E xs [(Y, b)] S = match pick E (Y % 2 ^ E.ty.bits) (2 ^ b - 1) xs with
      | .done u xs' => .done (2 ^ b * S + u) xs'
      | .more => .more
      | .ub => .ub
  | [], S, _ => by simp [ibRun, pick]
  | x :: xs, S, hO => by
    have hx : E.min ≤ x ∧ x ≤ E.max := hO x (by simp)
    have hlim : (Y % 2 ^ E.ty.bits + 2 ^ E.ty.bits - 1) % 2 ^ E.ty.bits = Y - 1 := by
      have hp := Nat.two_pow_pos E.ty.bits
      rcases Nat.lt_or_eq_of_le hYW with h | h
      · rw [Nat.mod_eq_of_lt h, show Y + 2 ^ E.ty.bits - 1 = Y - 1 + 2 ^ E.ty.bits by omega, Nat.add_mod_right,
          Nat.mod_eq_of_lt (by omega)]
      · rw [h, Nat.mod_self, Nat.zero_add, Nat.mod_eq_of_lt (by omega)]
    unfold pick
    rw [EngInfo.diff_eq hE hx]
    simp only [hlim]
    have hd : dig E x = (x - E.min).toNat := rfl
    simp only [ibRun]
    by_cases h : (x - E.min).toNat < Y
    · rw [if_pos h, if_neg (by rw [hd]; omega), Nat.and_two_pow_sub_one_eq_mod, hd]
    · rw [if_neg h, if_pos (by rw [hd]; omega)]
      exact pick_spec hE Y b hY hYW xs S (fun z hz => hO z (by simp [hz]))

theorem pick_rest (E : EngInfo) (y mask : Nat) : ∀ (xs : List Int) (u : Nat) (xs' : List Int),
    pick E y mask xs = .done u xs' → ∃ pre, xs = pre ++ xs' ∧ 1 ≤ pre.length ∧ ∃ v, u = v &&& mask
  | [], u, xs', h => by simp [pick] at h
  | x :: xs, u, xs', h => by
    unfold pick at h
    cases hd : E.diff x with
    | none => simp [hd] at h
    | some v =>
      simp only [hd] at h
      split at h
      · obtain ⟨pre, e, hl, hv⟩ := pick_rest E y mask xs u xs' h
        exact ⟨x :: pre, by rw [e]; rfl, by simp, hv⟩
      · simp only [Draw.done.injEq] at h
        exact ⟨[x], by rw [h.2]; rfl, by simp, v, h.1.symm⟩

theorem rounds_spec {E : EngInfo} (hE : EngOK E) (D b Y : Nat) (hY : 1 ≤ Y) (hYW : Y ≤ 2 ^ E.ty.bits) (hb : b < D) :
    ∀ (k a S : Nat) (xs : List Int), Outputs E xs → S < 2 ^ a → a + k * b ≤ D →
    rounds E D b (Y % 2 ^ E.ty.bits) (2 ^ b - 1) k S xs = ibRun E xs (List.replicate k (Y, b)) S
  | 0, a, S, xs, _, _, _ => by simp [rounds, ibRun_nil]
  | k + 1, a, S, xs, hO, hS, hD => by
    have hD' : a + b + k * b ≤ D := by rw [Nat.succ_mul] at hD; omega
    rw [List.replicate_succ, show (Y, b) :: List.replicate k (Y, b) = [(Y, b)] ++ List.replicate k (Y, b) from rfl,
      ibRun_append, pick_spec hE Y b hY hYW xs S hO]
    unfold rounds
    cases hp : pick E (Y % 2 ^ E.ty.bits) (2 ^ b - 1) xs with
    | more => rfl
    | ub => rfl
    | done u xs' =>
      simp only
      rw [if_pos hb]
      obtain ⟨pre, e, _, v, hv⟩ := pick_rest E _ _ xs u xs' hp
      have hu : u < 2 ^ b := by
        rw [hv, Nat.and_two_pow_sub_one_eq_mod]; exact Nat.mod_lt _ (Nat.two_pow_pos _)
      have hlt : 2 ^ b * S + u < 2 ^ (a + b) := by
        rw [pow_add, Nat.mul_comm (2 ^ a)]
        calc 2 ^ b * S + u < 2 ^ b * S + 2 ^ b := by omega
          _ = 2 ^ b * (S + 1) := by ring
          _ ≤ 2 ^ b * 2 ^ a := Nat.mul_le_mul_left _ hS
      have hltD : 2 ^ b * S + u < 2 ^ D := lt_of_lt_of_le hlt (Nat.pow_le_pow_right (by norm_num) (by omega))
      rw [Nat.shiftLeft_eq, Nat.mul_comm S, Nat.mod_eq_of_lt (show 2 ^ b * S < 2 ^ D by omega), Nat.mod_eq_of_lt hltD]
      exact rounds_spec hE D b Y hY hYW hb k (a + b) _ xs' (fun z hz => hO z (by rw [e]; simp [hz])) hlt hD'

/-- The rounds keep the values unread and produce the wanted number of bits. -/
theorem ibRun_bound (E : EngInfo) : ∀ (xs : List Int) (ss : List (Nat × Nat)) (a S : Nat) (v : Nat) (rest : List Int),
    S < 2 ^ a → ibRun E xs ss S = .done v rest → v < 2 ^ (a + (ss.map Prod.snd).sum) ∧ ∃ pre, xs = pre ++ rest
  | xs, [], a, S, v, rest, hS, h => by
    rw [ibRun_nil] at h
    simp only [Draw.done.injEq] at h
    obtain ⟨rfl, rfl⟩ := h
    exact ⟨by simpa using hS, [], rfl⟩
  | [], _ :: _, _, _, _, _, _, h => by simp [ibRun] at h
  | x :: xs, (y, b) :: ss, a, S, v, rest, hS, h => by
    simp only [ibRun] at h
    split at h
    · have hlt : 2 ^ b * S + (x - E.min).toNat % 2 ^ b < 2 ^ (a + b) := by
        have hm := Nat.mod_lt (x - E.min).toNat (Nat.two_pow_pos b)
        rw [pow_add, Nat.mul_comm (2 ^ a)]
        calc 2 ^ b * S + (x - E.min).toNat % 2 ^ b < 2 ^ b * S + 2 ^ b := by omega
          _ = 2 ^ b * (S + 1) := by ring
          _ ≤ 2 ^ b * 2 ^ a := Nat.mul_le_mul_left _ hS
      obtain ⟨h1, pre, h2⟩ := ibRun_bound E xs ss (a + b) _ v rest hlt h
      refine ⟨?_, x :: pre, by rw [h2]; rfl⟩
      rw [List.map_cons, List.sum_cons, ← Nat.add_assoc]
      exact h1
    · obtain ⟨h1, pre, h2⟩ := ibRun_bound E xs ((y, b) :: ss) a S v rest hS h
      exact ⟨h1, x :: pre, by rw [h2]; rfl⟩

theorem ibRun_no_ub (E : EngInfo) : ∀ (xs : List Int) (ss : List (Nat × Nat)) (S : Nat), ibRun E xs ss S ≠ .ub
  | xs, [], S => by rw [ibRun_nil]; simp
  | [], _ :: _, _ => by simp [ibRun]
  | x :: xs, (y, b) :: ss, S => by
    simp only [ibRun]
    split
    · exact ibRun_no_ub E xs ss _
    · exact ibRun_no_ub E xs ((y, b) :: ss) S

theorem stages_bits (R w n : Nat) (hn : 1 ≤ n) : ((ibStages R w n).map Prod.snd).sum = w := by
  unfold ibStages
  have hm := Nat.mod_lt w (show 0 < n by omega)
  have hd := Nat.div_add_mod w n
  simp only [List.map_append, List.map_replicate, List.sum_append, List.sum_replicate, smul_eq_mul]
  rw [Nat.mul_add, Nat.mul_one]
  have : (n - w % n) * (w / n) + w % n * (w / n) = n * (w / n) := by
    rw [← Nat.add_mul]; congr 1; omega
  omega

theorem next_spec {E : EngInfo} (hE : EngOK E) (D w : Nat) (hw : 1 ≤ w) (hwD : w ≤ D) (hex : ¬ (E.b = 3 ∧ 3 ≤ w))
    (xs : List Int) (hO : Outputs E xs) :
    next E D w xs = ibRun E xs (ibStages E.b w (ibCount E.b w)) 0 := by
  have hb2 := UniformInt.EngInfo.b_ge hE
  have hbW := EngInfo.b_le hE
  have hnw := ibCount_le E.b w hb2 hw hex
  have hm : 1 ≤ Nat.log2 E.b := (Nat.le_log2 (by omega)).2 (by omega)
  have hn1 : 1 ≤ ibCount E.b w := le_trans ((Nat.one_le_div_iff (by omega)).2 (by omega)) (ibCount_ge E.b w)
  have hle := ceil_le w _ _ hm (ibCount_ge E.b w) hn1
  obtain ⟨c1, c2⟩ := div_bounds w _ _ hn1 hle
  have hmW := log2_le hb2 hbW
  obtain ⟨p, hp, hc⟩ := (choose_spec E.ty.bits w E.b hE.bits hb2 hbW hw).1 hnw
  obtain ⟨p', hp', e1, e2, e3, e4, e5⟩ := calcParams_spec E.ty.bits w (ibCount E.b w) E.b hn1 hnw (by omega) hbW
    (le_trans c1 hmW) (fun h => le_trans (c2 h) hmW)
  rw [hc, Option.some.injEq] at hp'
  subst hp'
  have hlo : 2 ^ Nat.log2 E.b ≤ E.b := Nat.log2_self_le (by omega)
  have hpos : ∀ b, b ≤ Nat.log2 E.b → 1 ≤ E.b / 2 ^ b * 2 ^ b ∧ E.b / 2 ^ b * 2 ^ b ≤ 2 ^ E.ty.bits := by
    intro b hb
    have h1 : 2 ^ b ≤ E.b := le_trans (Nat.pow_le_pow_right (by norm_num) hb) hlo
    exact ⟨Nat.mul_pos (Nat.div_pos h1 (Nat.two_pow_pos _)) (Nat.two_pow_pos _),
      le_trans (Nat.div_mul_le_self _ _) hbW⟩
  unfold next
  rw [EngInfo.brange_eq hE]
  simp only [hp]
  obtain ⟨q1, q2⟩ := hpos _ c1
  have hdm := Nat.div_add_mod w (ibCount E.b w)
  have hml := Nat.mod_lt w (show 0 < ibCount E.b w by omega)
  have hw01 : 1 ≤ w / ibCount E.b w := (Nat.one_le_div_iff (by omega)).2 hnw
  by_cases h1 : ibCount E.b w = 1
  · rw [if_pos h1]
    rw [h1] at e3 e4 q1 q2 ⊢
    have hst : ibStages E.b w 1 = [(E.b / 2 ^ (w / 1) * 2 ^ (w / 1), w / 1)] := by
      unfold ibStages
      rw [Nat.mod_one, Nat.mul_comm]
      rfl
    rw [hst, pick_spec hE _ _ q1 q2 xs 0 hO, e3, e4]
    cases hpk : pick E (E.b / 2 ^ (w / 1) * 2 ^ (w / 1) % 2 ^ E.ty.bits) (2 ^ (w / 1) - 1) xs with
    | more => rfl
    | ub => rfl
    | done u xs' =>
      simp only
      obtain ⟨_, _, _, v, hv⟩ := pick_rest E _ _ xs u xs' hpk
      have hu : u < 2 ^ D := by
        rw [hv, Nat.and_two_pow_sub_one_eq_mod]
        refine lt_of_lt_of_le (Nat.mod_lt _ (Nat.two_pow_pos _)) (Nat.pow_le_pow_right (by norm_num) ?_)
        rw [Nat.div_one]; exact hwD
      rw [Nat.mod_eq_of_lt hu, Nat.mul_zero, Nat.zero_add]
  · rw [if_neg h1, e1, e2, e3, e4]
    set n := ibCount E.b w with hn
    have hnw0 : 2 * (w / n) ≤ w := by
      calc 2 * (w / n) ≤ n * (w / n) := Nat.mul_le_mul_right _ (by omega)
        _ ≤ w := by omega
    have hsum : (n - w % n) * (w / n) + w % n * (w / n + 1) = w := by
      have := stages_bits E.b w n hn1
      unfold ibStages at this
      simpa [List.sum_replicate] using this
    rw [rounds_spec hE D _ _ q1 q2 (by omega) (n - w % n) 0 0 xs hO (by norm_num) (by omega)]
    unfold ibStages
    rw [ibRun_append, Nat.mul_comm (2 ^ (w / n))]
    cases hr : ibRun E xs (List.replicate (n - w % n) (E.b / 2 ^ (w / n) * 2 ^ (w / n), w / n)) 0 with
    | more => rfl
    | ub => rfl
    | done S xs' =>
      simp only
      rw [show n - (n - w % n) = w % n by omega]
      by_cases h0 : w % n = 0
      · rw [h0]
        simp [rounds, ibRun_nil]
      · obtain ⟨f1, f2⟩ := e5 h0
        obtain ⟨r1, r2⟩ := hpos _ (c2 h0)
        obtain ⟨hS, pre, hpre⟩ := ibRun_bound E xs _ 0 0 S xs' (by norm_num) hr
        rw [List.map_replicate, List.sum_replicate, smul_eq_mul, Nat.zero_add] at hS
        change S < 2 ^ ((n - w % n) * (w / n)) at hS
        have hlt : w / n + 1 < D := by
          have : n * (w / n) ≥ 2 * (w / n) := Nat.mul_le_mul_right _ (by omega)
          omega
        rw [f1, f2, rounds_spec hE D _ _ r1 r2 hlt (w % n) _ S xs'
          (fun z hz => hO z (by rw [hpre]; simp [hz])) hS (by omega), Nat.mul_comm (2 ^ (w / n + 1))]

/-! ## Counting -/

open Finset in
/-- The number of tuples of base values of length `N` that make the rounds produce a given result. -/
def ibTuples (R : Nat) : Nat → List (Nat × Nat) → Nat
  | 0, [] => 1
  | 0, _ :: _ => 0
  | _ + 1, [] => 0
  | N + 1, (y, b) :: ss => y / 2 ^ b * ibTuples R N ss + (R - y) * ibTuples R N ((y, b) :: ss)

open Finset in
theorem sum_pick (f : Nat → Nat) (c : Nat) (y b R : Nat) (hd : 2 ^ b ∣ y) (hy : y ≤ R) :
    ∑ d ∈ range R, (if d < y then f (d % 2 ^ b) else c) = y / 2 ^ b * (∑ r ∈ range (2 ^ b), f r) + (R - y) * c := by
  obtain ⟨t, rfl⟩ := Nat.exists_eq_add_of_le hy
  rw [sum_range_add]
  congr 1
  · obtain ⟨k, rfl⟩ := hd
    rw [Nat.mul_div_cancel_left _ (Nat.two_pow_pos _), ← sum_digits, sum_comm]
    have hk : k * ∑ r ∈ range (2 ^ b), f r = ∑ _j ∈ range k, ∑ r ∈ range (2 ^ b), f r := by
      rw [sum_const, card_range, smul_eq_mul]
    rw [hk]
    apply sum_congr rfl
    intro j hj
    apply sum_congr rfl
    intro r hr
    have h1 := mem_range.1 hj
    have h2 := mem_range.1 hr
    have : r + j * 2 ^ b < 2 ^ b * k := by
      calc r + j * 2 ^ b < (j + 1) * 2 ^ b := by rw [Nat.add_mul]; omega
        _ ≤ k * 2 ^ b := Nat.mul_le_mul_right _ h1
        _ = _ := Nat.mul_comm _ _
    rw [if_pos this, Nat.add_mul_mod_self_right, Nat.mod_eq_of_lt h2]
  · have hk : t * c = ∑ _j ∈ range t, c := by rw [sum_const, card_range, smul_eq_mul]
    rw [Nat.add_sub_cancel_left, hk]
    apply sum_congr rfl
    intro d _
    rw [if_neg (by omega)]

open Finset in
theorem cnt_ibRun (E : EngInfo) : ∀ (N : Nat) (ss : List (Nat × Nat)) (S v : Nat),
    (∀ s ∈ ss, 2 ^ s.2 ∣ s.1 ∧ s.1 ≤ E.b) →
    cnt E (fun xs => ibRun E xs ss S) N v =
      if v / 2 ^ (ss.map Prod.snd).sum = S then ibTuples E.b N ss else 0
  | 0, [], S, v, _ => by
    simp only [cnt, ibRun_nil, List.map_nil, List.sum_nil, pow_zero, Nat.div_one, ibTuples, Draw.done.injEq, and_true]
    by_cases h : S = v
    · rw [if_pos h, if_pos h.symm]
    · rw [if_neg h, if_neg (Ne.symm h)]
  | 0, _ :: _, S, v, _ => by simp [cnt, ibRun, ibTuples]
  | N + 1, [], S, v, _ => by
    have : (fun xs => ibRun E xs [] S) = fun xs => Draw.done S xs := by funext xs; exact ibRun_nil E xs S
    rw [this, cnt_done]
    simp [ibTuples]
  | N + 1, (y, b) :: ss, S, v, hs => by
    obtain ⟨hd, hy⟩ := hs (y, b) (by simp)
    simp only [cnt]
    have hstep : ∀ d : Nat, cnt E (fun xs => ibRun E ((E.min + (d : Int)) :: xs) ((y, b) :: ss) S) N v =
        if d < y then (if v / 2 ^ (ss.map Prod.snd).sum = 2 ^ b * S + d % 2 ^ b then ibTuples E.b N ss else 0)
        else (if v / 2 ^ (((y, b) :: ss).map Prod.snd).sum = S then ibTuples E.b N ((y, b) :: ss) else 0) := by
      intro d
      simp only [ibRun]
      rw [show (E.min + (d : Int) - E.min).toNat = d by omega]
      by_cases hdy : d < y
      · simp only [hdy, if_true]
        exact cnt_ibRun E N ss _ v (fun s h => hs s (by simp [h]))
      · simp only [hdy, if_false]
        exact cnt_ibRun E N ((y, b) :: ss) S v hs
    simp only [hstep]
    rw [sum_pick (fun r => if v / 2 ^ (ss.map Prod.snd).sum = 2 ^ b * S + r then ibTuples E.b N ss else 0) _ y b E.b hd hy]
    set B := (ss.map Prod.snd).sum with hB
    have hBB : v / 2 ^ (((y, b) :: ss).map Prod.snd).sum = v / 2 ^ B / 2 ^ b := by
      rw [List.map_cons, List.sum_cons, ← hB, Nat.add_comm, pow_add, Nat.div_div_eq_div_mul]
    rw [hBB]
    generalize v / 2 ^ B = q
    have hsum : ∑ r ∈ range (2 ^ b), (if q = 2 ^ b * S + r then ibTuples E.b N ss else 0) =
        if q / 2 ^ b = S then ibTuples E.b N ss else 0 := by
      have hp := Nat.two_pow_pos b
      by_cases hq : q / 2 ^ b = S
      · rw [if_pos hq]
        rw [sum_eq_single (q % 2 ^ b)]
        · rw [if_pos]
          rw [← hq]; exact (Nat.div_add_mod q (2 ^ b)).symm
        · intro r hr hne
          rw [if_neg]
          intro hc
          apply hne
          rw [hc, Nat.mul_add_mod, Nat.mod_eq_of_lt (mem_range.1 hr)]
        · intro h
          exact absurd (mem_range.2 (Nat.mod_lt q hp)) h
      · rw [if_neg hq]
        apply sum_eq_zero
        intro r hr
        rw [if_neg]
        intro hc
        apply hq
        rw [hc, Nat.mul_add_div hp, Nat.div_eq_of_lt (mem_range.1 hr), Nat.add_zero]
    rw [hsum]
    simp only [ibTuples]
    by_cases hq : q / 2 ^ b = S
    · simp only [hq, if_true]
    · simp only [hq, if_false, Nat.mul_zero, Nat.add_zero]

theorem stages_ok (R w n : Nat) : ∀ s ∈ ibStages R w n, 2 ^ s.2 ∣ s.1 ∧ s.1 ≤ R := by
  intro s hs
  unfold ibStages at hs
  rw [List.mem_append] at hs
  rcases hs with h | h
  · rw [List.eq_of_mem_replicate h]
    exact ⟨Nat.dvd_mul_right _ _, Nat.mul_div_le _ _⟩
  · rw [List.eq_of_mem_replicate h]
    exact ⟨Nat.dvd_mul_right _ _, Nat.mul_div_le _ _⟩

theorem ibTuples_pos (R : Nat) : ∀ ss : List (Nat × Nat), (∀ s ∈ ss, 2 ^ s.2 ≤ s.1) → 0 < ibTuples R ss.length ss
  | [], _ => by simp [ibTuples]
  | (y, b) :: ss, h => by
    have h1 := h (y, b) (by simp)
    have h2 := ibTuples_pos R ss (fun s hs => h s (by simp [hs]))
    simp only [List.length_cons, ibTuples]
    have h3 : 0 < y / 2 ^ b := Nat.div_pos h1 (Nat.two_pow_pos _)
    have := Nat.mul_pos h3 h2
    omega

end IndependentBits
end Boost.Random
