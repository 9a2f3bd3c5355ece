import Verif.Proofs.Gf2Pow

/-!
# C51: polynomials over GF(2)

`digit_t` is `unsigned long`, with `B` = 32 or 64 bits. `Spec.ofDigits B ds` is the polynomial of an array of digits.
-/

namespace Boost.Random
open Spec Gf2 Polynomial

/-! Concrete polynomials for the cases below. -/

theorem represents_ofNat {B n size : Nat} (h : n < 2 ^ size) (hs : size ≤ B) : Represents B [n] size (ofNat n) := by
  refine ⟨IsDigits.cons (lt_of_lt_of_le h (Nat.pow_le_pow_right (by omega) hs)) IsDigits.nil, by simpa using hs, fun j hj => coeff_ofNat_of_lt h hj, by simp⟩

theorem natDegree_ofNat {n d : Nat} (h1 : n < 2 ^ (d + 1)) (h2 : n.testBit d = true) : (ofNat n).natDegree = d := by
  apply le_antisymm
  · exact natDegree_le_iff_coeff_eq_zero.2 fun j hj => coeff_ofNat_of_lt h1 hj
  · exact le_natDegree_of_ne_zero (by rw [coeff_ofNat, if_pos h2]; decide)

/-! ## Products -/

/-- **C51.** Schoolbook multiplication of two arrays of `size` digits gives the `2*size` digits of the product. -/
theorem c51_simple (B : Nat) (l r : List Nat) (h : l.length = r.length) (hl : IsDigits B l) (hr : IsDigits B r) :
    ∃ o, multiplySimple B l.length l r = some o ∧ o.length = 2 * l.length ∧ IsDigits B o ∧ ofDigits B o = ofDigits B l * ofDigits B r := by
  obtain ⟨o, e1, e2, e3, e4⟩ := multiplySimple_spec l.length l r hl hr le_rfl (by omega)
  rw [List.take_length, h, List.take_length] at e4
  exact ⟨o, e1, e2, e3, e4⟩

example : (2 ^ 64 - 1 < 2 ^ 64 ∧ 7 < 2 ^ 64) ∧ multiplySimple 64 2 [2 ^ 64 - 1, 3] [7, 2 ^ 63] = some [0xfffffffffffffffd, 0x800000000000000b, 0xffffffffffffffff, 1] := by
  decide +kernel

/-- **C51.** Karatsuba multiplication of two arrays of `size` digits, of whatever size and depth of recursion, gives the `2*size` digits
of the product. -/
theorem c51_karatsuba (B : Nat) (l r : List Nat) (h : l.length = r.length) (hl : IsDigits B l) (hr : IsDigits B r) :
    ∃ o, karatsuba B (l.length + 1) l.length l r = some o ∧ o.length = 2 * l.length ∧ IsDigits B o ∧ ofDigits B o = ofDigits B l * ofDigits B r := by
  obtain ⟨o, e1, e2, e3, e4⟩ := karatsuba_spec (l.length + 1) l.length l r (by omega) hl hr le_rfl (by omega)
  rw [List.take_length, h, List.take_length] at e4
  exact ⟨o, e1, e2, e3, e4⟩

/-- A case that splits, into halves of 32 and 33 digits: `(1 + X^(64*64)) * X^(64*64)`. -/
example : karatsuba 64 66 65 (1 :: List.replicate 63 0 ++ [1]) (List.replicate 64 0 ++ [1]) =
    some (List.replicate 64 0 ++ [1] ++ List.replicate 63 0 ++ [1, 0]) := by decide +kernel

/-- **C51.** `multiply`: arrays of any two sizes. -/
theorem c51_multiply (B : Nat) (l r : List Nat) (hr0 : r ≠ []) (hl : IsDigits B l) (hr : IsDigits B r) :
    ∃ o, multiply B l l.length r r.length = some o ∧ o.length = l.length + r.length ∧ IsDigits B o ∧ ofDigits B o = ofDigits B l * ofDigits B r :=
  multiply_spec l r (Or.inr hr0) hl hr

example : multiply 64 [3] 1 [5, 0, 2 ^ 63, 1] 4 = some [15, 0, 2 ^ 63, 2, 0] := by decide +kernel

theorem multiplyAdd_empty (B : Nat) : ∀ (f : Nat) (l : List Nat) (ln : Nat) (o : List Nat), ln ≠ 0 → multiplyAdd B f l ln [] 0 o = none
  | 0, _, _, _, _ => rfl
  | f + 1, l, ln, o, h => by
    unfold multiplyAdd
    rw [if_pos h]
    simp only [Nat.not_lt_zero, if_false]
    cases (multiplyAddKaratsuba B 0 l [] o) with
    | none => rfl
    | some o => simp [onTail, multiplyAdd_empty B f l ln o h]

/-- C51 is false of an empty right factor: the loop of `multiply_add` never ends, however many rounds it is given. -/
theorem c51_empty_false (B f : Nat) (l o : List Nat) (hl : l ≠ []) : multiplyAdd B f l l.length [] 0 o = none :=
  multiplyAdd_empty B f l _ o (by simpa using hl)

example : ([1] : List Nat) ≠ [] := by decide

/-! ## Squares -/

/-- **C51.** `sqr` of a digit with at most half of its bits in use. -/
theorem c51_sqr_digit (B : Nat) (hB : B = 32 ∨ B = 64) (v : Nat) (hv : v < 2 ^ (B / 2)) : sqrDigit B v < 2 ^ B ∧ ofNat (sqrDigit B v) = ofNat v ^ 2 := by
  rcases hB with rfl | rfl
  · exact (sqrOK_32.2.2 v hv).symm
  · exact (sqrOK_64.2.2 v hv).symm

example : 0x8000000b < 2 ^ (64 / 2) ∧ sqrDigit 64 0x8000000b = 0x4000000000000045 := by decide +kernel

theorem sqrOK_of_bits {B : Nat} (hB : B = 32 ∨ B = 64) : SqrOK B := by
  rcases hB with rfl | rfl
  · exact sqrOK_32
  · exact sqrOK_64

/-- **C51.** `sqr(val, size)` squares the first `size` digits of an array of `2*size` digits, in place. -/
theorem c51_sqr (B : Nat) (hB : B = 32 ∨ B = 64) (l z : List Nat) (hz : z.length = l.length) (hl : IsDigits B l) (hz' : IsDigits B z) :
    ∃ o, sqrArray B l.length (l ++ z) = some o ∧ o.length = 2 * l.length ∧ IsDigits B o ∧ ofDigits B o = ofDigits B l ^ 2 := by
  obtain ⟨o, e1, e2, e3, -, e5⟩ := sqrArray_spec (sqrOK_of_bits hB) l.length (l ++ z) (by rw [List.length_append]; omega) (hl.append hz')
  rw [List.length_append] at e2
  rw [List.take_of_length_le (show o.length ≤ l.length * 2 by omega), List.take_left] at e5
  exact ⟨o, e1, by omega, e3, e5⟩

example : sqrArray 64 2 [2 ^ 63 + 1, 3, 9, 9] = some [1, 2 ^ 62, 5, 0] := by decide +kernel

/-! ## Remainders -/

/-- **C51** (partial). Reducing an array of `2*(rb/B + 1)` digits with at most `2*rb + 1` bits modulo a polynomial `M` of degree `rb`: what
remains has fewer than `rb` bits and differs by a multiple of `M`; nothing outside the array is accessed. Missing: the blocks have to
fit (`Fits`), see `c51_overrun_false`. -/
theorem c51_remainder_partial (B : Nat) (hB : 0 < B) (d x : List Nat) (M : (ZMod 2)[X]) (hd : Represents B d (M.natDegree + 1) M) (hM : M ≠ 0)
    (g : Nat) (hg : IsGap M M.natDegree g) (hF : Fits B M.natDegree g) (hx : IsDigits B x) (hlen : x.length = 2 * (M.natDegree / B + 1))
    (hlow : ∀ j, 2 * M.natDegree + 1 ≤ j → (ofDigits B x).coeff j = 0) :
    ∃ m o, SparseMod.make B d (M.natDegree + 1) = some m ∧ m.run B (2 * (M.natDegree + 1)) x (2 * M.natDegree + 1) = some o ∧
      o.length = x.length ∧ IsDigits B o ∧ ofDigits B o = ofDigits B x %ₘ M := by
  have hmon : M.coeff M.natDegree = 1 := by
    rcases coeff_zmod2 M M.natDegree with h | h
    · exact absurd (leadingCoeff_eq_zero.1 h) hM
    · exact h
  obtain ⟨m, m1, m2, m3, m4⟩ := make_spec hB hd.digits (rb := M.natDegree) (by have := hd.enough; omega) (by rw [hd.value]; exact hd.below) (by rw [hd.value]; exact hmon)
  have hfit := allFit_of_fits hF (show 2 * (M.natDegree / B + 1) ≤ x.length by rw [hlen]) (2 * (M.natDegree + 1)) 0
  rw [Nat.zero_mul, Nat.sub_zero, show max (2 * M.natDegree + 1) M.natDegree = 2 * M.natDegree + 1 by omega] at hfit
  have hcap : 2 * M.natDegree + 1 ≤ B * x.length := by
    rw [hlen, Nat.mul_left_comm]
    have := Nat.lt_mul_div_succ M.natDegree hB
    omega
  have hgap := m4 g (by rw [hd.value]; exact hg)
  obtain ⟨o, b1, b2, b3, b4, b5⟩ := run_spec hB m2 (2 * (M.natDegree + 1)) x (2 * M.natDegree + 1) hx hcap (by omega) (by omega) hlow (by rw [m3, hgap]; exact hfit)
  refine ⟨m, o, m1, b1, b2, b3, ?_⟩
  rw [hd.value] at b4
  obtain ⟨c, hc⟩ := b4
  refine ((div_modByMonic_unique c (ofDigits B o) hmon ⟨?_, ?_⟩).2).symm
  · rw [← hc]
    linear_combination add_self (ofDigits B o)
  · rw [degree_eq_natDegree hM]
    exact Low.degree.1 (b5.mono (by omega))

/-- The polynomial `X^8 + X^4 + X^3 + X + 1` in digits of 32 bits. -/
example : Represents 32 [0x11b] ((ofNat 0x11b).natDegree + 1) (ofNat 0x11b) ∧ IsGap (ofNat 0x11b) (ofNat 0x11b).natDegree 4 ∧ Fits 32 (ofNat 0x11b).natDegree 4 ∧
    (SparseMod.make 32 [0x11b] 9).bind (fun m => m.run 32 18 [0x1ffff, 0] 17) = some [107, 0] := by
  have hd : (ofNat 0x11b).natDegree = 8 := natDegree_ofNat (by decide) (by decide)
  rw [hd]
  refine ⟨represents_ofNat (by decide) (by decide), ⟨by decide, fun i h1 h2 => ?_, Or.inr ⟨by decide, by rw [coeff_ofNat]; decide⟩⟩,
    fits_of_low (by decide) (by decide) (by decide), by decide +kernel⟩
  rw [coeff_ofNat]
  have : i = 5 ∨ i = 6 ∨ i = 7 := by omega
  rcases this with rfl | rfl | rfl <;> decide

/-- **C51** (partial). `mod_pow_x(e, M)` is the remainder of `X^e` by `M`, for every exponent and every modulus of degree at least 1.
Missing: the blocks have to fit (`Fits`), see `c51_overrun_false`; and exponent 1 with a modulus of degree 1, see `c51_linear_false`. -/
theorem c51_mod_pow_partial (B : Nat) (hB : B = 32 ∨ B = 64) (p : Poly) (M : (ZMod 2)[X]) (hp : Represents B p.storage p.size M) (h1 : 1 ≤ M.natDegree)
    (e : Nat) (he : M.natDegree = 1 → e ≠ 1) (g : Nat) (hg : IsGap M M.natDegree g) (hF : Fits B M.natDegree g) :
    ∃ r, p.modPow B e = some r ∧ r.size = M.natDegree ∧ Represents B r.storage r.size (X ^ e %ₘ M) :=
  modPow_spec (sqrOK_of_bits hB) hp h1 he hg hF

theorem exists_gap (M : (ZMod 2)[X]) (h : 1 ≤ M.natDegree) : ∃ g, IsGap M M.natDegree g := by
  by_cases h0 : M.eraseLead = 0
  · refine ⟨M.natDegree + 1, by omega, fun i h1 _ => ?_, Or.inl rfl⟩
    rw [← eraseLead_coeff_of_ne i (by omega), h0, coeff_zero]
  · have hlt : M.eraseLead.natDegree < M.natDegree := by
      have := eraseLead_natDegree_lt_or_eraseLead_eq_zero M
      exact this.resolve_right h0
    refine ⟨M.natDegree - M.eraseLead.natDegree, by omega, fun i h1 h2 => ?_, Or.inr ⟨by omega, ?_⟩⟩
    · rw [← eraseLead_coeff_of_ne i (by omega)]
      exact coeff_eq_zero_of_natDegree_lt (by omega)
    · rw [show M.natDegree - (M.natDegree - M.eraseLead.natDegree) = M.eraseLead.natDegree by omega, ← eraseLead_coeff_of_ne _ (by omega)]
      rcases coeff_zmod2 M.eraseLead M.eraseLead.natDegree with h | h
      · exact absurd (leadingCoeff_eq_zero.1 h) h0
      · exact h

/-- C51 (partial): when the degree is in the lower half of its digit there is nothing else to ask of the modulus. -/
theorem c51_mod_pow_half_partial (B : Nat) (hB : B = 32 ∨ B = 64) (p : Poly) (M : (ZMod 2)[X]) (hp : Represents B p.storage p.size M) (h1 : 1 ≤ M.natDegree)
    (hhalf : 2 * (M.natDegree % B) < B) (e : Nat) (he : M.natDegree = 1 → e ≠ 1) :
    ∃ r, p.modPow B e = some r ∧ r.size = M.natDegree ∧ Represents B r.storage r.size (X ^ e %ₘ M) := by
  obtain ⟨g, hg⟩ := exists_gap M h1
  exact modPow_spec (sqrOK_of_bits hB) hp h1 he hg (fits_of_low (by omega) hg.pos hhalf)

/-- `X^(2^64 - 1)` modulo `X^8 + X^4 + X^3 + X + 1`, an irreducible polynomial of order 51: it is 1. -/
example : Represents 64 [0x11b] 9 (ofNat 0x11b) ∧ 1 ≤ (ofNat 0x11b).natDegree ∧ 2 * ((ofNat 0x11b).natDegree % 64) < 64 ∧
    Poly.modPow 64 100 ⟨[0x11b], 9⟩ = some ⟨[203], 8⟩ ∧ Poly.modPow 64 (2 ^ 64 - 1) ⟨[0x11b], 9⟩ = some ⟨[1], 8⟩ := by
  have hd : (ofNat 0x11b).natDegree = 8 := natDegree_ofNat (by decide) (by decide)
  rw [hd]
  exact ⟨represents_ofNat (by decide) (by decide), by decide, by decide, by decide +kernel, by decide +kernel⟩

/-- C51 is false of the modulus `X^63 + X + 1`, with 64-bit digits: `add_shifted_inplace` writes one digit past the end of the array.
The hypotheses of `c51_mod_pow_partial` other than `Fits` hold. -/
theorem c51_overrun_false : Represents 64 [2 ^ 63 + 3] 64 (ofNat (2 ^ 63 + 3)) ∧ (ofNat (2 ^ 63 + 3)).natDegree = 63 ∧ IsGap (ofNat (2 ^ 63 + 3)) 63 62 ∧
    ¬ Fits 64 63 62 ∧ Poly.modPow 64 5 ⟨[2 ^ 63 + 3], 64⟩ = none := by
  refine ⟨represents_ofNat (by decide) (by decide), natDegree_ofNat (by decide) (by decide +kernel), ⟨by decide, fun i h1 h2 => ?_, Or.inr ⟨by decide, by rw [coeff_ofNat]; decide +kernel⟩⟩,
    fun h => absurd (h 0 (by decide) (by decide)) (by decide), by decide +kernel⟩
  rw [coeff_ofNat, if_neg]
  have : ∀ i < 63, 1 < i → (2 ^ 63 + 3).testBit i = false := by decide +kernel
  rw [this i h1 (by omega)]
  simp

/-- C51 is false of exponent 1 and the modulus `X + 1`: the result is 0, the remainder of `X` is 1. -/
theorem c51_linear_false : Represents 64 [3] 2 (ofNat 3) ∧ (ofNat 3).natDegree = 1 ∧ Poly.modPow 64 1 ⟨[3], 2⟩ = some ⟨[0], 1⟩ ∧ (X : (ZMod 2)[X]) ^ 1 %ₘ ofNat 3 = 1 := by
  refine ⟨represents_ofNat (by decide) (by decide), natDegree_ofNat (by decide) (by decide), by decide +kernel, ?_⟩
  have h3 : ofNat 3 = X + 1 := by
    have := ofNat_xor (2 ^ 1) (2 ^ 0)
    rw [ofNat_two_pow, ofNat_two_pow] at this
    rw [show (X + 1 : (ZMod 2)[X]) = X ^ 1 + X ^ 0 by simp, ← this]
    rfl
  have hd : (X + 1 : (ZMod 2)[X]).natDegree = 1 := by rw [← h3]; exact natDegree_ofNat (by decide) (by decide)
  have hmon : (X + 1 : (ZMod 2)[X]).Monic := by unfold Monic leadingCoeff; rw [hd]; simp [coeff_X, coeff_one]
  rw [h3, pow_one]
  refine (div_modByMonic_unique 1 1 hmon ⟨?_, ?_⟩).2
  · linear_combination add_self (1 : (ZMod 2)[X])
  · rw [degree_eq_natDegree hmon.ne_zero, hd, degree_one]
    decide

/-! ## The class `polynomial` -/

/-- **C51.** The polynomial without coefficients is zero. -/
theorem c51_default (B : Nat) : Represents B Poly.empty.storage Poly.empty.size 0 :=
  ⟨IsDigits.nil, Nat.zero_le _, fun _ _ => coeff_zero _, rfl⟩

/-- **C51.** `p[i]` of a constant polynomial. -/
theorem c51_get (B : Nat) (hB : 0 < B) (p : Poly) (P : (ZMod 2)[X]) (hp : Represents B p.storage p.size P) (i : Nat) :
    p.get B i = some (decide (P.coeff i = 1)) := get_spec hB hp i

/-- **C51.** `p[i]` of a polynomial that is not constant: the same, and the polynomial may get larger but is still the same. -/
theorem c51_get_mut (B : Nat) (hB : 0 < B) (p : Poly) (P : (ZMod 2)[X]) (hp : Represents B p.storage p.size P) (i : Nat) :
    ∃ p', p.getMut B i = some (decide (P.coeff i = 1), p') ∧ p'.size = max p.size (i + 1) ∧ Represents B p'.storage p'.size P := getMut_spec hB hp i

/-- **C51.** `p[i] = b` changes coefficient `i` and no other. -/
theorem c51_assign (B : Nat) (hB : 0 < B) (p : Poly) (P Q : (ZMod 2)[X]) (hp : Represents B p.storage p.size P) (i : Nat) (b : Bool)
    (hQ : ∀ j, Q.coeff j = if j = i then (if b then 1 else 0) else P.coeff j) :
    ∃ p', p.assign B i b = some p' ∧ p'.size = max p.size (i + 1) ∧ Represents B p'.storage p'.size Q := assign_spec hB hp i b hQ

/-- **C51.** `p[i] ^= b` adds `b * X^i`. -/
theorem c51_flip (B : Nat) (hB : 0 < B) (p : Poly) (P : (ZMod 2)[X]) (hp : Represents B p.storage p.size P) (i : Nat) (b : Bool) :
    ∃ p', p.flip B i b = some p' ∧ p'.size = max p.size (i + 1) ∧ Represents B p'.storage p'.size (P + if b then X ^ i else 0) := flip_spec hB hp i b

/-- **C51.** `resize(n)` keeps the coefficients below `n`, and the storage has just the digits needed. -/
theorem c51_resize (B : Nat) (hB : 0 < B) (p : Poly) (P Q : (ZMod 2)[X]) (hp : Represents B p.storage p.size P) (n : Nat)
    (hQ : ∀ j, Q.coeff j = if j < n then P.coeff j else 0) :
    (p.resize B n).size = n ∧ (p.resize B n).storage.length = (n + B - 1) / B ∧ Represents B (p.resize B n).storage n Q :=
  resize_spec hB hp.digits n (fun j => by rw [hQ, hp.value])

/-- **C51.** `normalize()` makes the size the degree plus one (0 for the zero polynomial). -/
theorem c51_normalize (B : Nat) (hB : 0 < B) (p : Poly) (P : (ZMod 2)[X]) (hp : Represents B p.storage p.size P) :
    ∃ p', p.normalize B = some p' ∧ Represents B p'.storage p'.size P ∧ (P = 0 → p'.size = 0) ∧ (P ≠ 0 → p'.size = P.natDegree + 1) := normalize_spec hB hp

/-- **C51.** `operator*` of polynomials that have coefficients (the address of the first element of an empty vector is taken otherwise). -/
theorem c51_mul (B : Nat) (hB : 0 < B) (p q : Poly) (P Q : (ZMod 2)[X]) (hp : Represents B p.storage p.size P) (hq : Represents B q.storage q.size Q)
    (h1 : p.size ≠ 0) (h2 : q.size ≠ 0) : ∃ r, p.mul B q = some r ∧ r.size = p.size + q.size ∧ Represents B r.storage r.size (P * Q) :=
  mul_poly_spec hB hp hq h1 h2

example : Represents 64 [0b1011] 4 (ofNat 0b1011) ∧ Represents 64 [0b110] 5 (ofNat 0b110) ∧
    Poly.get 64 ⟨[0b1011], 4⟩ 3 = some true ∧ Poly.get 64 ⟨[0b1011], 4⟩ 200 = some false ∧
    Poly.getMut 64 ⟨[0b1011], 4⟩ 70 = some (false, ⟨[0b1011, 0], 71⟩) ∧
    Poly.assign 64 ⟨[0b1011], 4⟩ 70 true = some ⟨[0b1011, 64], 71⟩ ∧ Poly.assign 64 ⟨[0b1011], 4⟩ 1 false = some ⟨[0b1001], 4⟩ ∧
    Poly.flip 64 ⟨[0b1011], 4⟩ 1 true = some ⟨[0b1001], 4⟩ ∧ Poly.resize 64 ⟨[0b1011], 4⟩ 2 = ⟨[0b11], 2⟩ ∧
    Poly.normalize 64 ⟨[0b110, 0], 70⟩ = some ⟨[0b110], 3⟩ ∧ Poly.mul 64 ⟨[0b1011], 4⟩ ⟨[0b110], 5⟩ = some ⟨[0b111010, 0], 9⟩ :=
  ⟨represents_ofNat (by decide) (by decide), represents_ofNat (by decide) (by decide), by decide +kernel⟩

end Boost.Random
