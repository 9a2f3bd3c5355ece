import Verif.Proofs.Gf2Mod

/-!
# Powers of X modulo a polynomial; the class `polynomial`
-/

namespace Boost.Random
namespace Gf2
open Spec Polynomial

section
variable {B : Nat}

theorem low_take (hB : 0 < B) {x : List Nat} (hx : IsDigits B x) {k : Nat} (hk : k ≤ x.length) (hl : Low (B * k) (ofDigits B x)) :
    ofDigits B (x.take k) = ofDigits B x ∧ ofDigits B (x.drop k) = 0 := by
  have hd : ofDigits B (x.drop k) = 0 := by
    ext j
    have h := hl (B * k + j) (by omega)
    rw [ofDigits_take_drop x k hk, coeff_add, coeff_X_pow_mul', if_pos (by omega), Nat.add_sub_cancel_left] at h
    have ht := low_ofDigits hB (hx.take k) (B * k + j) (by rw [List.length_take, Nat.min_eq_left hk]; omega)
    rw [ht, zero_add] at h
    rw [h, coeff_zero]
  refine ⟨?_, hd⟩
  conv_rhs => rw [ofDigits_take_drop x k hk, hd]
  simp

theorem BlockFits.mono {len len' lo hi : Nat} (h : BlockFits B len lo hi) (hl : len ≤ len') : BlockFits B len' lo hi := fun h' => lt_of_lt_of_le (h h') hl

theorem allFit_of_fits {rb g len : Nat} (hF : Fits B rb g) (hl : 2 * (rb / B + 1) ≤ len) : ∀ (f k : Nat), AllFit B len rb g f (max (2 * rb + 1 - k * g) rb)
  | 0, _ => trivial
  | f + 1, k => by
    intro h
    have e : max (max (2 * rb + 1 - k * g) rb - g) rb = max (2 * rb + 1 - (k + 1) * g) rb := by
      rw [Nat.add_mul, Nat.one_mul]; omega
    rw [e]
    exact ⟨fun h' => lt_of_lt_of_le (hF k h h') hl, allFit_of_fits hF hl f (k + 1)⟩

theorem shiftLeft_one {x : List Nat} (hB : 0 < B) (hx : IsDigits B x) {n rb : Nat} (hn : n ≤ x.length) (hrb : rb < B * n) (hl : Low rb (ofDigits B x)) :
    ∃ o, shiftLeft B 1 n 0 x = some o ∧ o.length = x.length ∧ IsDigits B o ∧ ofDigits B o = X * ofDigits B x := by
  obtain ⟨o, e1, e2, e3, e4, top, e5, e6⟩ := shiftLeft_spec (B := B) (s := 1) (by omega) n 0 x (Nat.two_pow_pos _) hx hn
  obtain ⟨t1, t2⟩ := low_take hB hx hn (hl.mono (by omega))
  rw [t1, Nat.zero_shiftRight, ofNat_zero, add_zero, pow_one] at e6
  have hz : ofNat (top >>> (B - 1)) = 0 := by
    ext j
    have h := congrArg (fun p => p.coeff (B * n + j)) e6
    simp only [coeff_add] at h
    rw [coeff_X_pow_mul', if_pos (by omega), Nat.add_sub_cancel_left] at h
    have ht := low_ofDigits hB (e3.take n) (B * n + j) (by rw [List.length_take, e2, Nat.min_eq_left hn]; omega)
    have hr := (hl.X_mul 1) (B * n + j) (by omega)
    rw [pow_one] at hr
    rw [ht, zero_add, hr] at h
    rw [h, coeff_zero]
  rw [hz, mul_zero, add_zero] at e6
  refine ⟨o, e1, e2, e3, ?_⟩
  rw [ofDigits_take_drop o n (by omega), e4, t2, e6]
  simp

theorem coeff_zmod2 (p : (ZMod 2)[X]) (i : Nat) : p.coeff i = 0 ∨ p.coeff i = 1 := by
  generalize p.coeff i = a
  revert a
  decide

theorem modPowLoop_spec (hB : SqrOK B) {d : List Nat} (hd : IsDigits B d) {rb : Nat} (hdl : rb < B * d.length) (hlow : Low (rb + 1) (ofDigits B d))
    (htop : (ofDigits B d).coeff rb = 1) {m : SparseMod} (hm : IsSparse B m (ofDigits B d)) (hrb : m.remainderBits = rb) {g : Nat} (hg : m.blockBits = g)
    (hF : Fits B rb g) (e : Nat) : ∀ (i : Nat) (out : List Nat), IsDigits B out → 2 * (rb / B + 1) ≤ out.length → Low (rb + 1) (ofDigits B out) →
      ofDigits B d ∣ ofDigits B out + X ^ (e >>> i) →
      ∃ o, modPowLoop B e d (rb + 1) (rb / B + 1) m i out = some o ∧ o.length = out.length ∧ IsDigits B o ∧ (i ≠ 0 ∨ Low rb (ofDigits B out) → Low rb (ofDigits B o)) ∧
        ofDigits B d ∣ ofDigits B o + X ^ e
  | 0, out, ho, _, _, hc => ⟨out, by unfold modPowLoop; rfl, rfl, ho, fun h => h.resolve_left (by simp), by simpa using hc⟩
  | i + 1, out, ho, hlen, hl, hc => by
    have hB0 : 0 < B := hB.2.1
    obtain ⟨n, hn⟩ : ∃ n, n = rb / B + 1 := ⟨_, rfl⟩
    have hnB : rb < B * n := by
      rw [hn]
      exact Nat.lt_mul_div_succ rb hB0
    have hnd : n ≤ d.length := by
      rw [hn]
      exact Nat.succ_le_of_lt (Nat.div_lt_of_lt_mul hdl)
    rw [← hn] at hlen
    obtain ⟨t1, t2⟩ := low_take hB0 ho (show n ≤ out.length by omega) (hl.mono hnB)
    obtain ⟨o1, a1, a2, a3, a4, a5⟩ := sqrArray_spec hB n out (by omega) ho
    rw [t1] at a5
    have hv1 : ofDigits B o1 = ofDigits B out ^ 2 := by
      have hz := (low_take hB0 ho (show n * 2 ≤ out.length by omega) (hl.mono (le_trans hnB (Nat.mul_le_mul_left B (by omega))))).2
      rw [ofDigits_take_drop o1 (n * 2) (by omega), a4, hz, a5]
      simp
    have hl1 : Low (2 * rb + 1) (ofDigits B o1) := by rw [hv1]; exact hl.sq
    have hfit := allFit_of_fits hF (show 2 * (rb / B + 1) ≤ o1.length by rw [a2, ← hn]; exact hlen) (2 * (rb + 1)) 0
    rw [Nat.zero_mul, Nat.sub_zero, show max (2 * rb + 1) rb = 2 * rb + 1 by omega] at hfit
    have hcap : 2 * rb + 1 ≤ B * o1.length := by
      rw [a2]
      exact le_trans (show 2 * rb + 1 ≤ B * (2 * n) by rw [Nat.mul_left_comm]; omega) (Nat.mul_le_mul_left B hlen)
    obtain ⟨o2, b1, b2, b3, b4, b5⟩ := run_spec hB0 hm (2 * (rb + 1)) o1 (2 * rb + 1) a3 hcap (by omega) (by omega) hl1 (by rw [hrb, hg]; exact hfit)
    have b5 : Low rb (ofDigits B o2) := b5.mono (by omega)
    -- the square of the power
    have hsq : ofDigits B d ∣ ofDigits B o2 + X ^ (2 * (e >>> (i + 1))) := by
      have h1 : ofDigits B d ∣ (ofDigits B out + X ^ (e >>> (i + 1))) ^ 2 := dvd_pow hc (by omega)
      rw [add_sq, ← pow_mul, Nat.mul_comm (e >>> (i + 1))] at h1
      have h2 := dvd_add b4 h1
      rw [hv1] at h2
      have : ofDigits B o2 + ofDigits B out ^ 2 + (ofDigits B out ^ 2 + X ^ (2 * (e >>> (i + 1)))) = ofDigits B o2 + X ^ (2 * (e >>> (i + 1))) := by
        linear_combination add_self (ofDigits B out ^ 2)
      rwa [this] at h2
    have hshr : e >>> i = 2 * (e >>> (i + 1)) + (e.testBit i).toNat := by
      rw [Nat.shiftRight_succ, Nat.testBit_eq_decide_div_mod_eq, ← Nat.shiftRight_eq_div_pow]
      by_cases h : e >>> i % 2 = 1 <;> simp [h] <;> omega
    unfold modPowLoop
    rw [← hn, a1, Option.bind_some, show 2 * (rb + 1) - 1 = 2 * rb + 1 by omega, b1, Option.bind_some, Nat.add_sub_cancel]
    have l2 : o2.length = out.length := b2.trans a2
    suffices hs : ∃ o3, (if e.testBit i = true then
        (shiftLeft B 1 n 0 o2).bind fun out => out[rb / B]?.bind fun x => if x.testBit (rb % B) then add n out d out else some out
        else some o2) = some o3 ∧ o3.length = out.length ∧ IsDigits B o3 ∧ Low rb (ofDigits B o3) ∧ ofDigits B d ∣ ofDigits B o3 + X ^ (e >>> i) by
      obtain ⟨o3, s1, s2, s3, s4, s5⟩ := hs
      rw [s1, Option.bind_some]
      obtain ⟨o, r1, r2, r3, r4, r5⟩ := modPowLoop_spec hB hd hdl hlow htop hm hrb hg hF e i o3 s3 (by rw [s2, ← hn]; exact hlen) (s4.mono (by omega)) s5
      exact ⟨o, by rw [hn]; exact r1, r2.trans s2, r3, fun _ => r4 (Or.inr s4), r5⟩
    by_cases hbit : e.testBit i = true
    · rw [if_pos hbit]
      rw [hbit] at hshr
      obtain ⟨o3, c1, c2, c3, c4⟩ := shiftLeft_one hB0 b3 (show n ≤ o2.length by omega) hnB b5
      rw [c1, Option.bind_some, getElem?_getD (show rb / B < o3.length by omega), Option.bind_some]
      have hpow : ofDigits B d ∣ ofDigits B o3 + X ^ (e >>> i) := by
        rw [c4, hshr, Bool.toNat_true, pow_succ, show X * ofDigits B o2 + X ^ (2 * (e >>> (i + 1))) * X = X * (ofDigits B o2 + X ^ (2 * (e >>> (i + 1)))) by ring]
        exact Dvd.dvd.mul_left hsq X
      have hl3 : Low (rb + 1) (ofDigits B o3) := by rw [c4]; simpa using b5.X_mul 1
      by_cases ht : (o3.getD (rb / B) 0).testBit (rb % B) = true
      · rw [if_pos ht]
        obtain ⟨o4, d1, d2, d3, d4, -⟩ := add_self_spec' n d o3 hd c3 hnd (show n ≤ o3.length by omega)
        rw [(low_take hB0 hd hnd (hlow.mono hnB)).1] at d4
        refine ⟨o4, d1, by omega, d3, fun j hj => ?_, ?_⟩
        · rw [d4]
          rcases Nat.lt_or_eq_of_le hj with h | rfl
          · exact (hl3.add hlow) j h
          · rw [coeff_add, htop, (dbit_iff hB0 c3 rb).1 ht]
            decide
        · rw [d4, add_right_comm]
          exact dvd_add hpow (dvd_refl _)
      · rw [if_neg ht]
        refine ⟨o3, rfl, by omega, c3, fun j hj => ?_, hpow⟩
        rcases Nat.lt_or_eq_of_le hj with h | rfl
        · exact hl3 j h
        · exact (dbit_false_iff hB0 c3 rb).1 (by simpa [dbit] using ht)
    · rw [if_neg hbit]
      have hbit : e.testBit i = false := by simpa using hbit
      rw [hbit, Bool.toNat_false, Nat.add_zero] at hshr
      exact ⟨o2, rfl, l2, b3, b5, by rw [hshr]; exact hsq⟩

theorem modPowArray_spec (hB : SqrOK B) {d : List Nat} (hd : IsDigits B d) {rb : Nat} (hdl : rb < B * d.length) (hlow : Low (rb + 1) (ofDigits B d))
    (htop : (ofDigits B d).coeff rb = 1) {g : Nat} (hg : IsGap (ofDigits B d) rb g) (hF : Fits B rb g) (h1 : 1 ≤ rb) {e : Nat} (he : rb = 1 → e ≠ 1)
    {k : Nat} (hk : 2 * (rb / B + 1) ≤ k) :
    ∃ o, modPowArray B e d (rb + 1) (List.replicate k 0) = some o ∧ o.length = k ∧ IsDigits B o ∧ Low rb (ofDigits B o) ∧
      ofDigits B d ∣ ofDigits B o + X ^ e := by
  have hB0 : 0 < B := hB.2.1
  have hB2 : 2 ≤ B := by have := hB.1; omega
  have hn : (rb + 1 + B - 1) / B = rb / B + 1 := by
    rw [show rb + 1 + B - 1 = rb + B by omega, Nat.add_div_right _ hB0]
  unfold modPowArray
  simp only [hn]
  rw [if_pos ⟨Nat.le_add_left 1 _, by rw [List.length_replicate]; exact le_trans (Nat.le_mul_of_pos_left _ (by decide)) hk⟩, Nat.add_sub_cancel, List.drop_replicate]
  have hlen : ∀ a : Nat, (a :: List.replicate (rb / B) 0 ++ List.replicate (k - (rb / B + 1)) 0).length = k := by
    intro a; rw [List.length_append, List.length_cons, List.length_replicate, List.length_replicate]
    revert hk; generalize rb / B = t; intro hk; omega
  have hval : ∀ a : Nat, ofDigits B (a :: List.replicate (rb / B) 0 ++ List.replicate (k - (rb / B + 1)) 0) = ofNat a := by
    intro a
    rw [List.cons_append, ofDigits_cons, ofDigits_append, ofDigits_replicate_zero, ofDigits_replicate_zero]
    simp
  have hdig : ∀ a : Nat, a < 2 ^ B → IsDigits B (a :: List.replicate (rb / B) 0 ++ List.replicate (k - (rb / B + 1)) 0) := fun a ha =>
    (IsDigits.cons ha (IsDigits.zeros _)).append (IsDigits.zeros _)
  by_cases h0 : e = 0
  · subst h0
    rw [if_pos rfl]
    refine ⟨_, rfl, hlen 1, hdig 1 (Nat.one_lt_two_pow (by omega)), ?_, ?_⟩
    · rw [hval, show 1 = 2 ^ 0 from rfl, ofNat_two_pow]
      exact (Low.X_pow 0).mono (by omega)
    · rw [hval, show 1 = 2 ^ 0 from rfl, ofNat_two_pow, add_self]
      exact dvd_zero _
  · rw [if_neg h0]
    obtain ⟨m, m1, m2, m3, m4⟩ := make_spec hB0 hd hdl hlow htop
    rw [m1, Option.bind_some]
    have h2 : (2 : Nat) < 2 ^ B := lt_of_lt_of_le (by decide : 2 < 2 ^ 2) (Nat.pow_le_pow_right (by omega) hB2)
    have hv2 := hval 2
    have hv3 : ofNat (2 ^ 1) = X := by rw [ofNat_two_pow, pow_one]
    rw [show ofNat 2 = X from hv3] at hv2
    have hX : Low 2 (X : (ZMod 2)[X]) := by simpa using Low.X_pow 1
    have hlog : e >>> e.log2 = 1 := by
      rw [Nat.shiftRight_eq_div_pow]
      have h1 := Nat.log2_self_le h0
      have h2 := Nat.lt_log2_self (n := e)
      apply le_antisymm
      · rw [← Nat.lt_succ_iff, Nat.div_lt_iff_lt_mul (Nat.two_pow_pos _)]
        rw [pow_succ] at h2
        omega
      · exact (Nat.one_le_div_iff (Nat.two_pow_pos _)).2 h1
    obtain ⟨o, e1, e2, e3, e4, e5⟩ := modPowLoop_spec hB hd hdl hlow htop m2 m3 (m4 g hg) hF e e.log2
      (2 :: List.replicate (rb / B) 0 ++ List.replicate (k - (rb / B + 1)) 0) (hdig 2 h2) (by rw [hlen]; exact hk)
      (by rw [hv2]; exact hX.mono (by omega)) (by rw [hv2, hlog, pow_one, add_self]; exact dvd_zero _)
    refine ⟨o, e1, by rw [e2, hlen], e3, e4 ?_, e5⟩
    by_cases hr : rb = 1
    · left
      intro hl
      have := Nat.lt_log2_self (n := e)
      rw [hl] at this
      have := he hr
      omega
    · right
      rw [hv2]
      exact hX.mono (by omega)

/-! ## The class -/

theorem getD_take_zeros (s : List Nat) (len i : Nat) : (s.take len ++ List.replicate (len - s.length) 0).getD i 0 = if i < len then s.getD i 0 else 0 := by
  rw [List.getD_eq_getElem?_getD, List.getD_eq_getElem?_getD]
  by_cases h : i < (s.take len).length
  · rw [List.getElem?_append_left h]
    rw [List.length_take] at h
    rw [List.getElem?_take, if_pos (by omega), if_pos (by omega)]
  · rw [List.getElem?_append_right (by omega)]
    rw [List.length_take] at h
    have : ((List.replicate (len - s.length) 0)[i - (s.take len).length]?).getD 0 = 0 := by
      rw [List.getElem?_replicate]; split <;> rfl
    rw [this]
    split
    · rw [List.getElem?_eq_none (by omega)]; rfl
    · rfl

theorem resize_dbit (hB : 0 < B) {p : Poly} (hp : IsDigits B p.storage) (n : Nat) :
    (p.resize B n).size = n ∧ IsDigits B (p.resize B n).storage ∧ (p.resize B n).storage.length = (n + B - 1) / B ∧
      ∀ j, dbit B (p.resize B n).storage j = (decide (j < n) && dbit B p.storage j) := by
  obtain ⟨len, hlen⟩ : ∃ len, len = (n + B - 1) / B := ⟨_, rfl⟩
  obtain ⟨s, hs⟩ : ∃ s, s = p.storage.take len ++ List.replicate (len - p.storage.length) 0 := ⟨_, rfl⟩
  have hsl : s.length = len := by rw [hs, List.length_append, List.length_take, List.length_replicate]; omega
  have hsd : IsDigits B s := hs ▸ (hp.take len).append (IsDigits.zeros _)
  have hsg : ∀ i, s.getD i 0 = if i < len then p.storage.getD i 0 else 0 := fun i => hs ▸ getD_take_zeros _ _ _
  have hq := Nat.div_add_mod n B
  have hm := Nat.mod_lt n hB
  have hle : len = n / B + if n % B = 0 then 0 else 1 := by
    rw [hlen]
    split
    · next h =>
      rw [h] at hq
      rw [show n + B - 1 = B * (n / B) + (B - 1) by omega, Nat.mul_add_div hB, Nat.div_eq_of_lt (show B - 1 < B by omega)]
    · next h =>
      rw [show n + B - 1 = B * (n / B + 1) + (n % B - 1) by rw [Nat.mul_add]; omega, Nat.mul_add_div hB, Nat.div_eq_of_lt (show n % B - 1 < B by omega)]
  unfold Poly.resize
  simp only [← hlen, ← hs]
  by_cases h0 : n % B = 0
  · rw [if_neg (not_not.2 h0)]
    refine ⟨trivial, hsd, hsl, fun j => ?_⟩
    rw [dbit, hsg]
    rw [if_pos h0, Nat.add_zero] at hle
    have : j / B < len ↔ j < n := by
      rw [hle, Nat.div_lt_iff_lt_mul hB, Nat.mul_comm]; omega
    by_cases hj : j < n
    · rw [if_pos (this.2 hj), decide_eq_true hj, Bool.true_and]; rfl
    · rw [if_neg (fun h => hj (this.1 h)), decide_eq_false hj, Bool.false_and, Nat.zero_testBit]
  · rw [if_pos h0]
    rw [if_neg h0] at hle
    have hlt : s.getD (len - 1) 0 &&& (2 ^ (n % B) - 1) < 2 ^ B := by
      rw [Nat.and_two_pow_sub_one_eq_mod]
      exact lt_of_lt_of_le (Nat.mod_lt _ (Nat.two_pow_pos _)) (Nat.pow_le_pow_right (by omega) hm.le)
    refine ⟨trivial, hsd.set _ hlt, by rw [List.length_set, hsl], fun j => ?_⟩
    have hj := Nat.div_add_mod j B
    have hjm := Nat.mod_lt j hB
    rw [dbit, List.getD_eq_getElem?_getD]
    rcases Nat.lt_trichotomy (j / B) (n / B) with h | h | h
    · rw [List.getElem?_set_ne (by omega), ← List.getD_eq_getElem?_getD, hsg, if_pos (by omega), decide_eq_true, Bool.true_and, dbit]
      have := Nat.mul_le_mul_left B (show j / B + 1 ≤ n / B by omega)
      rw [Nat.mul_add, Nat.mul_one] at this
      clear hlt
      revert hj hq this
      generalize B * (j / B) = u
      generalize B * (n / B) = v
      intro hj hq this
      omega
    · rw [show len - 1 = j / B by rw [hle, h, Nat.add_sub_cancel], List.getElem?_set_self (by rw [hsl, hle, h]; exact Nat.lt_succ_self _), Option.getD_some, hsg,
        if_pos (by rw [hle, h]; exact Nat.lt_succ_self _), Nat.and_two_pow_sub_one_eq_mod,
        Nat.testBit_mod_two_pow, dbit]
      congr 1
      rw [decide_eq_decide]
      rw [h] at hj
      omega
    · rw [List.getElem?_set_ne (by rw [hle, Nat.add_sub_cancel]; exact Nat.ne_of_lt h), ← List.getD_eq_getElem?_getD, hsg,
        if_neg (by rw [hle]; exact Nat.not_lt.2 h), decide_eq_false, Bool.false_and, Nat.zero_testBit]
      have := Nat.mul_le_mul_left B (show n / B + 1 ≤ j / B by omega)
      rw [Nat.mul_add, Nat.mul_one] at this
      clear hlt
      revert hj hq this
      generalize B * (j / B) = u
      generalize B * (n / B) = v
      intro hj hq this
      omega

theorem ceil_enough (hB : 0 < B) (n : Nat) : n ≤ B * ((n + B - 1) / B) := by
  have h := Nat.div_add_mod (n + B - 1) B
  have := Nat.mod_lt (n + B - 1) hB
  omega

/-- `resize` cuts off the coefficients from `n` on. -/
theorem resize_spec (hB : 0 < B) {p : Poly} (hp : IsDigits B p.storage) (n : Nat) {q : (ZMod 2)[X]}
    (hq : ∀ j, q.coeff j = if j < n then (ofDigits B p.storage).coeff j else 0) :
    (p.resize B n).size = n ∧ (p.resize B n).storage.length = (n + B - 1) / B ∧ Represents B (p.resize B n).storage n q := by
  obtain ⟨h1, h2, h3, h4⟩ := resize_dbit hB hp n
  refine ⟨h1, h3, h2, by rw [h3]; exact ceil_enough hB n, fun j hj => by rw [hq, if_neg (by omega)], ?_⟩
  ext j
  rw [hq, coeff_dbit hB h2, h4, coeff_dbit hB hp]
  by_cases hj : j < n <;> simp [hj]

theorem getD_dbit_div (x : List Nat) (i : Nat) : (x.getD (i / B) 0).testBit (i % B) = dbit B x i := rfl

theorem div_lt_len {s : List Nat} {size i : Nat} (h : size ≤ B * s.length) (hi : i < size) : i / B < s.length :=
  Nat.div_lt_of_lt_mul (by omega)

theorem ensureBit_spec (hB : 0 < B) {p : Poly} {P : (ZMod 2)[X]} (hp : Represents B p.storage p.size P) (i : Nat) :
    (p.ensureBit B i).size = max p.size (i + 1) ∧ Represents B (p.ensureBit B i).storage (max p.size (i + 1)) P := by
  unfold Poly.ensureBit
  by_cases h : i ≥ p.size
  · rw [if_pos h]
    obtain ⟨h1, -, h2⟩ := resize_spec hB hp.digits (i + 1) (q := P) (fun j => by
      rw [hp.value]
      split
      · rfl
      · exact hp.below j (by omega))
    rw [show max p.size (i + 1) = i + 1 by omega]
    exact ⟨h1, h2⟩
  · rw [if_neg h, show max p.size (i + 1) = p.size by omega]
    exact ⟨rfl, hp⟩

theorem bool_coeff {P : (ZMod 2)[X]} {s : List Nat} {size : Nat} (hB : 0 < B) (hp : Represents B s size P) (i : Nat) : dbit B s i = decide (P.coeff i = 1) := by
  have := dbit_iff hB hp.digits i
  rw [hp.value] at this
  cases h : dbit B s i
  · rw [h] at this; simp at this; simp [this]
  · rw [h] at this; simp at this; simp [this]

theorem get_spec (hB : 0 < B) {p : Poly} {P : (ZMod 2)[X]} (hp : Represents B p.storage p.size P) (i : Nat) : p.get B i = some (decide (P.coeff i = 1)) := by
  unfold Poly.get
  by_cases h : i < p.size
  · rw [if_pos h, getElem?_getD (div_lt_len hp.enough h), Option.map_some, getD_dbit_div, bool_coeff hB hp]
  · rw [if_neg h, hp.below i (by omega)]
    rfl

theorem getMut_spec (hB : 0 < B) {p : Poly} {P : (ZMod 2)[X]} (hp : Represents B p.storage p.size P) (i : Nat) :
    ∃ p', p.getMut B i = some (decide (P.coeff i = 1), p') ∧ p'.size = max p.size (i + 1) ∧ Represents B p'.storage p'.size P := by
  obtain ⟨h1, h2⟩ := ensureBit_spec hB hp i
  unfold Poly.getMut
  simp only
  rw [getElem?_getD (div_lt_len h2.enough (by omega)), Option.map_some, getD_dbit_div, bool_coeff hB h2]
  exact ⟨_, rfl, h1, by rw [h1]; exact h2⟩

/-- Changing one digit. -/
theorem set_represents (hB : 0 < B) {s : List Nat} {size : Nat} {P Q : (ZMod 2)[X]} (hp : Represents B s size P) {i v : Nat} (hi : i < size) (hv : v < 2 ^ B)
    (hne : ∀ t, t < B → t ≠ i % B → v.testBit t = (s.getD (i / B) 0).testBit t)
    (hQ : ∀ j, Q.coeff j = if j = i then (if v.testBit (i % B) then 1 else 0) else P.coeff j) : Represents B (s.set (i / B) v) size Q := by
  have hl := div_lt_len hp.enough hi
  have hd := hp.digits.set (i / B) hv
  refine ⟨hd, by rw [List.length_set]; exact hp.enough, fun j hj => by rw [hQ, if_neg (by omega)]; exact hp.below j hj, ?_⟩
  ext j
  rw [hQ, coeff_dbit hB hd, dbit, List.getD_eq_getElem?_getD]
  by_cases hji : j = i
  · subst hji
    rw [List.getElem?_set_self hl, if_pos rfl, Option.getD_some]
  · rw [if_neg hji, ← hp.value, coeff_dbit hB hp.digits, dbit]
    by_cases hb : j / B = i / B
    · rw [hb, List.getElem?_set_self hl, Option.getD_some, hne _ (Nat.mod_lt _ hB)]
      intro hm
      apply hji
      rw [← Nat.div_add_mod j B, ← Nat.div_add_mod i B, hb, hm]
    · rw [List.getElem?_set_ne (Ne.symm hb), ← List.getD_eq_getElem?_getD]

theorem assign_spec (hB : 0 < B) {p : Poly} {P Q : (ZMod 2)[X]} (hp : Represents B p.storage p.size P) (i : Nat) (b : Bool)
    (hQ : ∀ j, Q.coeff j = if j = i then (if b then 1 else 0) else P.coeff j) :
    ∃ p', p.assign B i b = some p' ∧ p'.size = max p.size (i + 1) ∧ Represents B p'.storage p'.size Q := by
  obtain ⟨h1, h2⟩ := ensureBit_spec hB hp i
  have hm := Nat.mod_lt i hB
  have hlt := getD_lt h2.digits (i / B)
  unfold Poly.assign
  simp only
  rw [getElem?_getD (div_lt_len h2.enough (by omega)), Option.map_some]
  refine ⟨_, rfl, h1, ?_⟩
  simp only [h1]
  have hpw : 2 ^ (i % B) < 2 ^ B := Nat.pow_lt_pow_right (by omega) hm
  have hcompl : ∀ t, t < B → (2 ^ B - 1 - 2 ^ (i % B)).testBit t = !decide (i % B = t) := by
    intro t ht
    rw [show 2 ^ B - 1 - 2 ^ (i % B) = 2 ^ B - (2 ^ (i % B) + 1) by omega, Nat.testBit_two_pow_sub_succ hpw, Nat.testBit_two_pow, decide_eq_true ht, Bool.true_and]
  cases b
  · refine set_represents hB h2 (by omega) (lt_of_le_of_lt Nat.and_le_left hlt) (fun t ht hne => ?_) (fun j => ?_)
    · simp [hcompl t ht, Ne.symm hne]
    · rw [hQ]
      simp [hcompl _ hm]
  · refine set_represents hB h2 (by omega) (Nat.or_lt_two_pow hlt hpw) (fun t ht hne => ?_) (fun j => ?_)
    · simp [Ne.symm hne]
    · rw [hQ]
      simp

theorem flip_spec (hB : 0 < B) {p : Poly} {P : (ZMod 2)[X]} (hp : Represents B p.storage p.size P) (i : Nat) (b : Bool) :
    ∃ p', p.flip B i b = some p' ∧ p'.size = max p.size (i + 1) ∧ Represents B p'.storage p'.size (P + if b then X ^ i else 0) := by
  obtain ⟨h1, h2⟩ := ensureBit_spec hB hp i
  have hm := Nat.mod_lt i hB
  have hlt := getD_lt h2.digits (i / B)
  unfold Poly.flip
  simp only
  rw [getElem?_getD (div_lt_len h2.enough (by omega)), Option.map_some]
  refine ⟨_, rfl, h1, ?_⟩
  simp only [h1]
  have hpw : 2 ^ (i % B) < 2 ^ B := Nat.pow_lt_pow_right (by omega) hm
  have hc : (if dbit B (p.ensureBit B i).storage i = true then (1 : ZMod 2) else 0) = P.coeff i := by
    rw [← coeff_dbit hB h2.digits, h2.value]
  cases b
  · simp only [Bool.toNat_false, Nat.zero_shiftLeft, Nat.xor_zero, Bool.false_eq_true, if_false, add_zero]
    refine set_represents hB h2 (by omega) hlt (fun t _ _ => rfl) (fun j => ?_)
    rw [getD_dbit_div, hc]
    split
    · next h => rw [h]
    · rfl
  · simp only [Bool.toNat_true, Nat.shiftLeft_eq, Nat.one_mul, if_true]
    refine set_represents hB h2 (by omega) (Nat.xor_lt_two_pow hlt hpw) (fun t ht hne => ?_) (fun j => ?_)
    · simp [Nat.testBit_xor, Ne.symm hne]
    · rw [coeff_add, coeff_X_pow, Nat.testBit_xor, getD_dbit_div, Nat.testBit_two_pow_self, ite_xor, hc]
      split
      · next h => rw [h]; rfl
      · rw [add_zero]

theorem normalizeLoop_spec (hB : 0 < B) {P : (ZMod 2)[X]} : ∀ (f : Nat) (p : Poly), Represents B p.storage p.size P → p.size ≤ f →
    ∃ p', p.normalizeLoop B f = some p' ∧ Represents B p'.storage p'.size P ∧ (p'.size ≠ 0 → P.coeff (p'.size - 1) = 1)
  | 0, p, hp, hf => ⟨p, rfl, hp, fun h => absurd hf (by omega)⟩
  | f + 1, p, hp, hf => by
    unfold Poly.normalizeLoop
    by_cases h0 : p.size = 0
    · rw [if_neg (not_not.2 h0)]
      exact ⟨p, rfl, hp, fun h => absurd h0 h⟩
    · rw [if_pos h0]
      obtain ⟨p', e1, e2, e3⟩ := getMut_spec hB hp (p.size - 1)
      rw [e1, Option.bind_some]
      have hsz : p'.size = p.size := by omega
      rcases coeff_zmod2 P (p.size - 1) with hc | hc
      · simp only [hc, zero_ne_one, decide_false, Bool.false_eq_true, if_false]
        obtain ⟨r1, -, r2⟩ := resize_spec hB e3.digits (p'.size - 1) (q := P) (fun j => by
          rw [e3.value]
          split
          · rfl
          · next h =>
            rcases Nat.lt_or_ge j p'.size with h' | h'
            · rw [show j = p.size - 1 by omega, hc]
            · exact e3.below j h')
        exact normalizeLoop_spec hB f _ (by rw [r1]; exact r2) (by rw [r1]; omega)
      · simp only [hc, decide_true, if_true]
        exact ⟨p', rfl, e3, fun _ => by rw [hsz]; exact hc⟩

theorem normalize_spec (hB : 0 < B) {P : (ZMod 2)[X]} {p : Poly} (hp : Represents B p.storage p.size P) :
    ∃ p', p.normalize B = some p' ∧ Represents B p'.storage p'.size P ∧ (P = 0 → p'.size = 0) ∧ (P ≠ 0 → p'.size = P.natDegree + 1) := by
  obtain ⟨p', e1, e2, e3⟩ := normalizeLoop_spec hB p.size p hp le_rfl
  refine ⟨p', e1, e2, fun h => ?_, fun h => ?_⟩
  · by_contra hne
    have := e3 hne
    rw [h, coeff_zero] at this
    exact absurd this (by decide)
  · have hne : p'.size ≠ 0 := by
      intro h0
      apply h
      ext j
      rw [e2.below j (by omega), coeff_zero]
    have h1 := e3 hne
    have : P.natDegree = p'.size - 1 := by
      apply le_antisymm
      · exact natDegree_le_iff_coeff_eq_zero.2 fun j hj => e2.below j (by omega)
      · exact le_natDegree_of_ne_zero (by rw [h1]; decide)
    omega

theorem mul_poly_spec (hB : 0 < B) {p q : Poly} {P Q : (ZMod 2)[X]} (hp : Represents B p.storage p.size P) (hq : Represents B q.storage q.size Q)
    (h1 : p.size ≠ 0) (h2 : q.size ≠ 0) : ∃ r, p.mul B q = some r ∧ r.size = p.size + q.size ∧ Represents B r.storage r.size (P * Q) := by
  have hne : ∀ {s : List Nat} {n : Nat}, n ≤ B * s.length → n ≠ 0 → s ≠ [] := by
    intro s n hn h0 hs; rw [hs] at hn; simp at hn; exact h0 hn
  have n1 := hne hp.enough h1
  have n2 := hne hq.enough h2
  unfold Poly.mul
  rw [if_neg (by simp [n1, n2])]
  obtain ⟨o, e1, e2, e3, e4⟩ := multiply_spec p.storage q.storage (Or.inr n2) hp.digits hq.digits
  rw [e1]
  refine ⟨_, rfl, rfl, e3, ?_, ?_, ?_⟩
  · simp only [e2]
    have := hp.enough
    have := hq.enough
    rw [Nat.mul_add]
    omega
  · intro j hj
    simp only at hj
    have a : Low p.size P := hp.below
    have b : Low (q.size - 1 + 1) Q := by rw [Nat.sub_add_cancel (by omega)]; exact hq.below
    exact mul_low a b j (by omega)
  · rw [e4, hp.value, hq.value]

theorem modPow_spec (hB : SqrOK B) {p : Poly} {M : (ZMod 2)[X]} (hp : Represents B p.storage p.size M) (h1 : 1 ≤ M.natDegree) {e : Nat} (he : M.natDegree = 1 → e ≠ 1)
    {g : Nat} (hg : IsGap M M.natDegree g) (hF : Fits B M.natDegree g) :
    ∃ r, p.modPow B e = some r ∧ r.size = M.natDegree ∧ Represents B r.storage r.size (X ^ e %ₘ M) := by
  have hB0 : 0 < B := hB.2.1
  obtain ⟨d, e1, e2, -, e4⟩ := normalize_spec hB0 hp
  have hM : M ≠ 0 := by rintro rfl; simp at h1
  have hsz := e4 hM
  have hmon : M.coeff M.natDegree = 1 := by
    rcases coeff_zmod2 M M.natDegree with h | h
    · exact absurd (leadingCoeff_eq_zero.1 h) hM
    · exact h
  have hen := e2.enough
  unfold Poly.modPow
  rw [e1, Option.bind_some, if_neg (by rintro hs; rw [hs] at hen; simp at hen; omega), hsz]
  rw [hsz] at hen
  have hk : 2 * (M.natDegree / B + 1) ≤ d.storage.length * 2 := by
    have := Nat.div_lt_of_lt_mul (show M.natDegree < B * d.storage.length by omega)
    omega
  obtain ⟨o, f1, f2, f3, f4, f5⟩ := modPowArray_spec hB e2.digits (rb := M.natDegree) (by omega) (by rw [e2.value, ← hsz]; exact e2.below) (by rw [e2.value]; exact hmon)
    (g := g) (by rw [e2.value]; exact hg) hF h1 he hk
  rw [f1, Option.map_some, Nat.add_sub_cancel]
  rw [e2.value] at f5
  have hrem : X ^ e %ₘ M = ofDigits B o := by
    obtain ⟨c, hc⟩ := f5
    refine (div_modByMonic_unique c (ofDigits B o) hmon ⟨?_, ?_⟩).2
    · rw [← hc]
      linear_combination add_self (ofDigits B o)
    · rw [degree_eq_natDegree hM]
      exact Low.degree.1 f4
  obtain ⟨r1, -, r2⟩ := resize_spec hB0 (p := ⟨o, (M.natDegree + 1) * 2⟩) f3 M.natDegree (q := ofDigits B o) (fun j => by
    split
    · rfl
    · exact f4 j (by omega))
  refine ⟨_, rfl, r1, ?_⟩
  rw [r1, hrem]
  exact r2

/-- When the degree is in the lower half of its digit, everything fits. -/
theorem fits_of_low {rb g : Nat} (hB : 0 < B) (hg : 1 ≤ g) (h : 2 * (rb % B) < B) : Fits B rb g := by
  intro k hi lo h1 h2
  have hhi : hi ≤ 2 * rb + 1 := by simp only [hi]; omega
  have hlo : lo ≤ hi := by simp only [hi, lo, Nat.add_mul, Nat.one_mul]; omega
  clear_value hi lo
  have d1 := Nat.div_add_mod rb B
  have d2 := Nat.div_add_mod lo B
  have m2 := Nat.mod_lt lo hB
  have : (hi - lo + B - 1) / B < 2 * (rb / B + 1) - lo / B := by
    rw [Nat.div_lt_iff_lt_mul hB, Nat.sub_mul, Nat.mul_comm (lo / B), Nat.mul_assoc, Nat.add_mul, Nat.one_mul, Nat.mul_comm (rb / B)]
    omega
  exact Nat.add_lt_of_lt_sub' this

/-- When a block has at least a digit, only the first block matters. -/
theorem fits_of_first {rb g : Nat} (hB : 0 < B) (hg : B ≤ g)
    (h : let lo := max (2 * rb + 1 - g) rb
      lo % B ≠ 0 → lo / B + (2 * rb + 1 - lo + B - 1) / B < 2 * (rb / B + 1)) : Fits B rb g := by
  intro k hi lo h1 h2
  rcases Nat.eq_zero_or_pos k with rfl | hk
  · have e1 : hi = 2 * rb + 1 := by simp only [hi]; omega
    have e2 : lo = max (2 * rb + 1 - g) rb := by simp only [lo, Nat.zero_add, Nat.one_mul]
    rw [e1, e2]
    exact h (e2 ▸ h2)
  · have hkg : g ≤ k * g := Nat.le_mul_of_pos_left g hk
    have hhi : hi + B ≤ 2 * rb + 1 := by simp only [hi] at h1 ⊢; omega
    have hlo : lo ≤ hi := by simp only [hi, lo, Nat.add_mul, Nat.one_mul]; omega
    clear_value hi lo
    have d1 := Nat.div_add_mod rb B
    have m1 := Nat.mod_lt rb hB
    have d2 := Nat.div_add_mod lo B
    have m2 := Nat.mod_lt lo hB
    have : (hi - lo + B - 1) / B < 2 * (rb / B + 1) - lo / B := by
      rw [Nat.div_lt_iff_lt_mul hB, Nat.sub_mul, Nat.mul_comm (lo / B), Nat.mul_assoc, Nat.add_mul, Nat.one_mul, Nat.mul_comm (rb / B)]
      omega
    exact Nat.add_lt_of_lt_sub' this

end
end Gf2
end Boost.Random
