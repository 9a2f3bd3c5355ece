import Verif.Spec.Lcg
import Verif.Proofs.ConstMod
import Mathlib.Data.ZMod.Basic
import Mathlib.Tactic.LinearCombination

namespace Boost.Random
open Spec

/-- Geometric sum `1 + y + ... + y^(n-1)`. -/
def gs {R : Type*} [CommRing R] (y : R) : Nat → R
  | 0 => 0
  | n + 1 => 1 + y * gs y n

section gs
variable {R : Type*} [CommRing R] (y : R)

theorem gs_mul (n : Nat) : (y - 1) * gs y n = y ^ n - 1 := by
  induction n with
  | zero => simp [gs]
  | succ n ih => simp only [gs, pow_succ]; linear_combination y * ih

theorem gs_two_mul (n : Nat) : gs y (2 * n) = (1 + y) * gs (y * y) n := by
  induction n with
  | zero => simp [gs]
  | succ n ih =>
    rw [show 2 * (n + 1) = 2 * n + 1 + 1 by ring]
    simp only [gs, ih]; ring

theorem gs_add (m n : Nat) : gs y (m + n) = gs y m + y ^ m * gs y n := by
  induction m with
  | zero => simp [gs]
  | succ m ih =>
    rw [show m + 1 + n = m + n + 1 by ring]
    simp only [gs, ih, pow_succ]; ring

end gs

theorem lcg_iterate_zmod (a c M : Nat) (n x : Nat) :
    (((lcgStep a c M)^[n] x : ℕ) : ZMod M) = (a : ZMod M) ^ n * x + c * gs (a : ZMod M) n := by
  induction n generalizing x with
  | zero => simp [gs]
  | succ n ih =>
    rw [Function.iterate_succ_apply, ih]
    simp only [lcgStep, ZMod.natCast_mod, gs, pow_succ]
    push_cast; 
    have h := gs_mul (a : ZMod M) n
    linear_combination (-(c : ZMod M)) * h

theorem lcg_iterate_lt (a c M : Nat) (hM : 0 < M) (n x : Nat) (hx : x < M) :
    (lcgStep a c M)^[n] x < M := by
  cases n with
  | zero => exact hx
  | succ n => rw [Function.iterate_succ_apply']; exact Nat.mod_lt _ hM

theorem eq_of_zmod {M a b : Nat} (ha : a < M) (hb : b < M) (h : (a : ZMod M) = (b : ZMod M)) :
    a = b := by
  have := (ZMod.natCast_eq_natCast_iff' a b M).1 h
  rwa [Nat.mod_eq_of_lt ha, Nat.mod_eq_of_lt hb] at this

namespace Lcg
variable {E : Lcg}

theorem next_spec (h : LcgValid E) (x : Nat) (hx : x < modulus E.T E.m) :
    E.next x = some (lcgStep E.a E.c (modulus E.T E.m) x) :=
  ConstMod.multAdd_spec E.T E.m h.ty h.m_fits h.wide E.a x E.c h.a_lt hx h.c_lt

theorem calls_spec (h : LcgValid E) (n x : Nat) (hx : x < modulus E.T E.m) :
    calls E.next n x = some ((lcgStep E.a E.c (modulus E.T E.m))^[n] x) := by
  induction n generalizing x with
  | zero => rfl
  | succ n ih =>
    rw [calls, next_spec h x hx, Option.bind_some,
      ih _ (show lcgStep _ _ _ _ < _ from Nat.mod_lt _ (ConstMod.modulus_pos _ _))]
    rfl

section
variable (h : LcgValid E)
include h

local notation "M" => modulus E.T E.m

theorem mult_some (a x : Nat) (ha : a < M) (hx : x < M) :
    ∃ r, ConstMod.mult E.T E.m a x = some r ∧ r < M ∧ (r : ZMod M) = a * x := by
  refine ⟨_, ConstMod.mult_spec E.T E.m h.ty h.m_fits h.wide a x ha hx,
    Nat.mod_lt _ (ConstMod.modulus_pos _ _), ?_⟩
  rw [ZMod.natCast_mod]; push_cast; rfl

theorem add_some (a x : Nat) (ha : a < M) (hx : x < M) :
    ∃ r, ConstMod.add E.T E.m a x = some r ∧ r < M ∧ (r : ZMod M) = a + x := by
  refine ⟨_, ConstMod.add_spec E.T E.m h.ty h.m_fits a x ha hx,
    Nat.mod_lt _ (ConstMod.modulus_pos _ _), ?_⟩
  rw [ZMod.natCast_mod]; push_cast; rfl

theorem multAdd_some (a x c : Nat) (ha : a < M) (hx : x < M) (hc : c < M) :
    ∃ r, ConstMod.multAdd E.T E.m a x c = some r ∧ r < M ∧ (r : ZMod M) = a * x + c := by
  refine ⟨_, ConstMod.multAdd_spec E.T E.m h.ty h.m_fits h.wide a x c ha hx hc,
    Nat.mod_lt _ (ConstMod.modulus_pos _ _), ?_⟩
  rw [ZMod.natCast_mod]; push_cast; rfl

theorem discardLoop_spec (g : Nat) (hg : g < M) (e : Nat) :
    ∀ u k : Nat, u < M → k < M →
      ∃ r, E.discardLoop g u k e = some r ∧ r < M ∧
        (r : ZMod M) = u + (1 + g * u) * k * gs (1 + (g : ZMod M) * k) e := by
  induction e using Nat.strong_induction_on with
  | _ e ih =>
    intro u k hu hk
    rw [discardLoop]
    split
    · next h0 => exact ⟨u, rfl, hu, by simp [h0, gs]⟩
    · next h0 =>
      obtain ⟨p1, hp1, hp1l, hp1v⟩ := mult_some h u k hu hk
      obtain ⟨s1, hs1, hs1l, hs1v⟩ := add_some h u k hu hk
      obtain ⟨u', hu', hu'l, hu'v⟩ := multAdd_some h g p1 s1 hg hp1l hs1l
      obtain ⟨p2, hp2, hp2l, hp2v⟩ := mult_some h k k hk hk
      obtain ⟨s2, hs2, hs2l, hs2v⟩ := add_some h k k hk hk
      obtain ⟨k', hk', hk'l, hk'v⟩ := multAdd_some h g p2 s2 hg hp2l hs2l
      have hk2 : (1 + (g : ZMod M) * k') = (1 + g * k) * (1 + g * k) := by
        rw [hk'v, hp2v, hs2v]; ring
      by_cases hodd : e % 2 = 1
      · simp only [hodd, if_true, hp1, hs1, hu', hp2, hs2, hk', Option.bind_eq_bind,
          Option.bind_some]
        obtain ⟨r, hr, hrl, hrv⟩ := ih (e / 2) (by omega) u' k' hu'l hk'l
        refine ⟨r, hr, hrl, ?_⟩
        rw [hrv, hk2]
        have he : e = 2 * (e / 2) + 1 := by omega
        conv_rhs => rw [he]
        simp only [gs]
        rw [gs_two_mul, hu'v, hk'v, hp1v, hs1v, hp2v, hs2v]
        ring
      · simp only [hodd, if_false, hp2, hs2, hk', Option.bind_eq_bind, Option.bind_some]
        obtain ⟨r, hr, hrl, hrv⟩ := ih (e / 2) (by omega) u k' hu hk'l
        refine ⟨r, hr, hrl, ?_⟩
        rw [hrv, hk2]
        have he : e = 2 * (e / 2) := by omega
        conv_rhs => rw [he]
        rw [gs_two_mul, hk'v, hp2v, hs2v]
        ring

theorem invert_some (x : Nat) (hx0 : 0 < x) (hx : x < M) :
    ∃ y, ConstMod.invert E.T E.m x = some y ∧ y < M ∧
      (y : ZMod M) * x = (Nat.gcd x M : ℕ) := by
  obtain ⟨y, h1, h2, h3⟩ := ConstMod.invert_spec E.T E.m h.ty h.m_fits h.m_zero x hx0 hx
  refine ⟨y, h1, h2, ?_⟩
  have := (ZMod.intCast_zmod_eq_zero_iff_dvd _ _).2 h3
  push_cast at this
  exact sub_eq_zero.1 this

theorem discard_spec (hd : DiscardOK E) (z x : Nat) (hx : x < M) :
    E.discard z x = some ((lcgStep E.a E.c M)^[z] x) := by
  obtain ⟨ha1, hcop, hpath⟩ := hd
  have hMpos := ConstMod.modulus_pos E.T E.m
  have haM := h.a_lt
  have hMle : M ≤ E.T.maxv + 1 := by
    unfold modulus; split
    · exact le_refl _
    · have := h.m_fits; omega
  have key : ∀ r : Nat, r < M → (r : ZMod M) = (E.a : ZMod M) ^ z * x + E.c * gs (E.a : ZMod M) z →
      r = (lcgStep E.a E.c M)^[z] x := by
    intro r hr hv
    apply eq_of_zmod hr (lcg_iterate_lt _ _ _ hMpos _ _ hx)
    rw [lcg_iterate_zmod, hv]
  have hbc : ((E.a - 1 : ℕ) : ZMod M) = (E.a : ZMod M) - 1 := by
    rw [Nat.cast_sub ha1.le]; simp
  obtain ⟨bInv, hbInv, hbInvl, hbInvv⟩ := invert_some h (E.a - 1) (by omega) (by omega)
  obtain ⟨g, hg, hgl, hgv⟩ := mult_some h (E.a - 1) bInv (by omega) hbInvl
  have hgcd_lt : Nat.gcd (E.a - 1) M < M :=
    lt_of_le_of_lt (Nat.gcd_le_left _ (by omega)) (by omega)
  have hgeq : g = Nat.gcd (E.a - 1) M := by
    apply eq_of_zmod hgl hgcd_lt
    rw [hgv, mul_comm, hbInvv]
  unfold discard
  rw [IntTy.sub_of_le E.T h.ty (by omega) ha1.le]
  simp only [Option.bind_eq_bind, Option.bind_some, hbInv, hg]
  split
  · next hg1 =>
    rw [ConstMod.pow_spec E.T E.m h.ty h.m_fits h.wide E.a z h.m_gt haM]
    obtain ⟨t, ht, htl, htv⟩ := mult_some h E.c bInv h.c_lt hbInvl
    simp only [Option.bind_some, ht]
    have hone : (bInv : ZMod M) * ((E.a : ZMod M) - 1) = 1 := by
      rw [← hbc, hbInvv, ← hgeq, hg1]; simp
    have hazl : E.a ^ z % M < M := Nat.mod_lt _ hMpos
    have hazv : ((E.a ^ z % M : ℕ) : ZMod M) = (E.a : ZMod M) ^ z := by
      rw [ZMod.natCast_mod]; push_cast; rfl
    -- the factor a_z - 1
    obtain ⟨az1, u, haz1, hu, hul, huv⟩ : ∃ az1 u, E.T.sub (E.a ^ z % M) 1 = some az1 ∧
        ConstMod.mult E.T E.m t az1 = some u ∧ u < M ∧
        (u : ZMod M) = t * ((E.a : ZMod M) ^ z - 1) := by
      rcases Nat.eq_zero_or_pos (E.a ^ z % M) with h0 | hpos
      · rcases hpath with hne | hca | ⟨hs, hk⟩
        · exact absurd (hgeq ▸ hg1) hne
        · exfalso
          have hc := Nat.Coprime.pow_left z hca
          have hdvd : M ∣ E.a ^ z := Nat.dvd_of_mod_eq_zero h0
          have := Nat.Coprime.eq_one_of_dvd hc.symm hdvd
          have := h.m_gt
          omega
        · -- unsigned and a power of two: the wrapped `-1` is reduced by the mask
          have hbits : M ∣ 2 ^ E.T.bits := by
            obtain ⟨k, hk⟩ := hk
            rw [hk]
            apply pow_dvd_pow
            by_contra hcon
            have h1 := IntTy.maxv_lt E.T h.ty
            have h2 : (2:ℕ) ^ (E.T.bits + 1) ≤ 2 ^ k := Nat.pow_le_pow_right (by norm_num) (by omega)
            have h3 : 0 < (2:ℕ) ^ E.T.bits := by positivity
            rw [pow_succ] at h2
            omega
          have hmask : ConstMod.isMask E.T E.m = true := by
            by_contra hc
            obtain ⟨h3, hnp⟩ := ConstMod.not_isMask E.T E.m h.ty h.m_fits (by simpa using hc)
            exact hnp (by rw [ConstMod.modulus_of_pos E.T E.m (by omega)] at hk; exact hk)
          refine ⟨2 ^ E.T.bits - 1, (t * (2 ^ E.T.bits - 1)) % M, ?_, ?_, Nat.mod_lt _ hMpos, ?_⟩
          · have h3 : 0 < (2:ℕ) ^ E.T.bits := by positivity
            simp only [IntTy.sub, hs, Bool.false_eq_true, if_false, h0, Nat.zero_add]
            rw [Nat.mod_eq_of_lt (by omega)]
          · unfold ConstMod.mult
            rw [hmask]
            simp only [if_true]
            refine ConstMod.masked_spec E.T E.m h.ty h.m_fits hmask _ fun hb => ?_
            have h15 := ConstMod.modulus_le15 E.T E.m h.ty h.m_fits hmask hb
            have h16 : (2:ℕ) ^ E.T.bits ≤ 2 ^ 16 := Nat.pow_le_pow_right (by norm_num) hb
            calc t * (2 ^ E.T.bits - 1) ≤ (2 ^ 15 - 1) * (2 ^ 16 - 1) := Nat.mul_le_mul (by omega) (by omega)
              _ < 2 ^ 31 := by norm_num
          · rw [ZMod.natCast_mod, ← hazv, h0]
            have h3 : 1 ≤ (2:ℕ) ^ E.T.bits := Nat.one_le_two_pow
            push_cast [Nat.cast_sub h3]
            have : ((2 : ZMod M) ^ E.T.bits) = 0 := by
              have := (ZMod.natCast_eq_zero_iff (2 ^ E.T.bits) M).2 hbits
              push_cast at this; exact this
            rw [this]
      · obtain ⟨u, hu, hul, huv⟩ := mult_some h t (E.a ^ z % M - 1) htl (by omega)
        refine ⟨E.a ^ z % M - 1, u, IntTy.sub_of_le E.T h.ty (by omega) hpos, hu, hul, ?_⟩
        rw [huv, Nat.cast_sub hpos, hazv]; simp
    simp only [haz1, Option.bind_some, hu]
    obtain ⟨r, hr, hrl, hrv⟩ := multAdd_some h (E.a ^ z % M) x u hazl hx hul
    rw [hr, key r hrl]
    rw [hrv, hazv, huv, htv, ← gs_mul]
    linear_combination (E.c : ZMod M) * gs (E.a : ZMod M) z * hone
  · next hg1 =>
    have hg0 : 0 < Nat.gcd (E.a - 1) M := Nat.gcd_pos_of_pos_right _ hMpos
    have hdiv : Nat.gcd (E.a - 1) M ∣ E.a - 1 := Nat.gcd_dvd_left _ _
    have hgk : Nat.gcd (E.a - 1) M * ((E.a - 1) / Nat.gcd (E.a - 1) M) = E.a - 1 :=
      Nat.mul_div_cancel' hdiv
    rw [hgeq, IntTy.div_of_pos E.T hg0]
    simp only [Option.bind_some]
    have hkpos : 0 < (E.a - 1) / Nat.gcd (E.a - 1) M :=
      Nat.div_pos (Nat.le_of_dvd (by omega) hdiv) hg0
    have hkl : (E.a - 1) / Nat.gcd (E.a - 1) M < M :=
      lt_of_le_of_lt (Nat.div_le_self _ _) (by omega)
    generalize (E.a - 1) / Nat.gcd (E.a - 1) M = k at *
    generalize Nat.gcd (E.a - 1) M = G at *
    have hgkz : 1 + (G : ZMod M) * k = E.a := by
      have : ((G * k : ℕ) : ZMod M) = ((E.a - 1 : ℕ) : ZMod M) := by rw [hgk]
      push_cast at this
      rw [this, hbc]; ring
    obtain ⟨w, hw, hwl, hwv⟩ := discardLoop_spec h G hgcd_lt z 0 k hMpos hkl
    rw [hgkz] at hwv
    obtain ⟨az, haz, hazl, hazv⟩ := multAdd_some h G w 1 hgcd_lt hwl h.m_gt
    obtain ⟨num, hnum, hnuml, hnumv⟩ := mult_some h E.c w h.c_lt hwl
    obtain ⟨bi, hbi, hbil, hbiv⟩ := invert_some h k hkpos hkl
    obtain ⟨u, hu, hul, huv⟩ := mult_some h bi num hbil hnuml
    obtain ⟨r, hr, hrl, hrv⟩ := multAdd_some h az x u hazl hx hul
    simp only [hw, Option.bind_some, haz, hnum, hbi, hu, hr]
    rw [key r hrl]
    have hbi1 : (E.c : ZMod M) * ((bi : ZMod M) * k) = E.c := by
      rcases hcop with h0 | hcop
      · rw [h0]; simp
      · rw [hbiv, hcop]; simp
    have hwv' : (w : ZMod M) = k * gs (E.a : ZMod M) z := by rw [hwv]; simp
    have hgsm := gs_mul (E.a : ZMod M) z
    rw [hrv, hazv, huv, hnumv, hwv']
    push_cast
    have hgk' : (G : ZMod M) * k = E.a - 1 := by rw [← hgkz]; ring
    linear_combination gs (E.a : ZMod M) z * hbi1 + (x : ZMod M) * hgsm
      + (x : ZMod M) * gs (E.a : ZMod M) z * hgk'

end

end Lcg
end Boost.Random
