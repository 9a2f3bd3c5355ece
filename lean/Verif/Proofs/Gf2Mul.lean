import Verif.Proofs.Gf2

/-!
# The products of digit arrays
-/

namespace Boost.Random
namespace Gf2
open Spec Polynomial

theorem ofNat_mod_succ (d n : Nat) : ofNat (d % 2 ^ (n + 1)) = ofNat (d % 2 ^ n) + if d.testBit n then X ^ n else 0 := by
  ext k
  rw [coeff_add, coeff_ofNat, coeff_ofNat, Nat.testBit_mod_two_pow, Nat.testBit_mod_two_pow]
  by_cases hk : k = n
  · subst hk
    by_cases ht : d.testBit k <;> simp [ht]
  · have e : (if d.testBit n = true then (X ^ n : (ZMod 2)[X]) else 0).coeff k = 0 := by
      split
      · rw [coeff_X_pow, if_neg hk]
      · simp
    rw [e, add_zero]
    have : (k < n + 1) ↔ k < n := by omega
    simp [this]

section
variable {B : Nat}

theorem simpleDigit_spec (size d i : Nat) (r o : List Nat) (hd : d < 2 ^ B) (hr : IsDigits B r) (ho : IsDigits B o) (h1 : size ≤ r.length) (h2 : i + size < o.length) :
    ∃ o', simpleDigit B size d r i o = some o' ∧ o'.length = o.length ∧ IsDigits B o' ∧
      ofDigits B o' = ofDigits B o + X ^ (B * i) * (ofNat d * ofDigits B (r.take size)) := by
  have key : ∀ n ≤ B, ∃ o', (List.range n).foldlM (fun out j => if d.testBit j then onTail i (fun o => addShiftedInplace B size r o j) out else some out) o = some o' ∧
      o'.length = o.length ∧ IsDigits B o' ∧ ofDigits B o' = ofDigits B o + X ^ (B * i) * (ofNat (d % 2 ^ n) * ofDigits B (r.take size)) := by
    intro n
    induction n with
    | zero => intro _; exact ⟨o, rfl, rfl, ho, by rw [pow_zero, Nat.mod_one]; simp⟩
    | succ n ih =>
      intro hn
      obtain ⟨o1, e1, e2, e3, e4⟩ := ih (by omega)
      rw [List.range_succ, List.foldlM_append, e1]
      simp only [Option.bind_eq_bind, Option.bind_some, List.foldlM_cons, List.foldlM_nil]
      rw [ofNat_mod_succ]
      by_cases ht : d.testBit n
      · rw [if_pos ht, if_pos ht]
        obtain ⟨o2, f1, f2, f3, f4⟩ := onTail_spec (k := i) (f := fun o => addShiftedInplace B size r o n) (by omega) e3
          (addShiftedInplace_spec (B := B) (s := n) (by omega) size r (o1.drop i) hr (e3.drop i) h1 (by rw [List.length_drop]; omega) (fun _ => by rw [List.length_drop]; omega))
        refine ⟨o2, by rw [f1]; rfl, by omega, f3, ?_⟩
        rw [f4, e4]; ring
      · rw [if_neg ht, if_neg ht]
        exact ⟨o1, rfl, e2, e3, by rw [e4]; ring⟩
  obtain ⟨o', e1, e2, e3, e4⟩ := key B le_rfl
  exact ⟨o', e1, e2, e3, by rw [e4, Nat.mod_eq_of_lt hd]⟩

theorem ofDigits_take_succ (l : List Nat) (n : Nat) (h : n < l.length) :
    ofDigits B (l.take (n + 1)) = ofDigits B (l.take n) + X ^ (B * n) * ofNat l[n] := by
  rw [List.take_succ_eq_append_getElem h, ofDigits_append, List.length_take, Nat.min_eq_left h.le]
  simp

/-- What a product is to give. -/
def IsProd (B size : Nat) (l r : List Nat) (o : Option (List Nat)) : Prop :=
  ∃ o', o = some o' ∧ o'.length = 2 * size ∧ IsDigits B o' ∧ ofDigits B o' = ofDigits B (l.take size) * ofDigits B (r.take size)

theorem multiplySimple_spec (size : Nat) (l r : List Nat) (hl : IsDigits B l) (hr : IsDigits B r) (h1 : size ≤ l.length) (h2 : size ≤ r.length) :
    IsProd B size l r (multiplySimple B size l r) := by
  have key : ∀ n ≤ size, ∃ o', (List.range n).foldlM (fun out i => l[i]?.bind fun d => simpleDigit B size d r i out) (List.replicate (2 * size) 0) = some o' ∧
      o'.length = 2 * size ∧ IsDigits B o' ∧ ofDigits B o' = ofDigits B (l.take n) * ofDigits B (r.take size) := by
    intro n
    induction n with
    | zero => intro _; exact ⟨_, rfl, by simp, IsDigits.zeros _, by rw [ofDigits_replicate_zero]; simp⟩
    | succ n ih =>
      intro hn
      obtain ⟨o1, e1, e2, e3, e4⟩ := ih (by omega)
      have hnl : n < l.length := by omega
      rw [List.range_succ, List.foldlM_append, e1]
      simp only [Option.bind_eq_bind, Option.bind_some, List.foldlM_cons, List.foldlM_nil]
      rw [List.getElem?_eq_getElem hnl]
      obtain ⟨o2, f1, f2, f3, f4⟩ := simpleDigit_spec size l[n] n r o1 (hl _ (List.getElem_mem hnl)) hr e3 h2 (by omega)
      refine ⟨o2, by simp only [Option.bind_some]; rw [f1]; rfl, by omega, f3, ?_⟩
      rw [f4, e4, ofDigits_take_succ l n hnl]; ring
  exact key size le_rfl

/-- The sum of the two halves: `local1`, `local2`. -/
theorem halves_spec {size : Nat} (hs : 64 ≤ size) (a b l : List Nat) (hl : IsDigits B l) (h : size ≤ l.length)
    (hab : (a = l ∧ b = l.drop (size / 2)) ∨ (a = l.drop (size / 2) ∧ b = l)) :
    ∃ o, ((add (size / 2) a b (List.replicate (size - size / 2) 0)).bind fun local1 =>
      if size % 2 = 1 then l[size - 1]?.map fun d => local1.set (size / 2) d else some local1) = some o ∧
      o.length = size - size / 2 ∧ IsDigits B o ∧
      ofDigits B o = ofDigits B (l.take (size / 2)) + ofDigits B ((l.drop (size / 2)).take (size - size / 2)) := by
  generalize hc : size / 2 = c at *
  have hc2 : size = 2 * c + size % 2 := by omega
  have ha : IsDigits B a ∧ IsDigits B b ∧ c ≤ a.length ∧ c ≤ b.length ∧
      ofDigits B (a.take c) + ofDigits B (b.take c) = ofDigits B (l.take c) + ofDigits B ((l.drop c).take c) := by
    rcases hab with ⟨rfl, rfl⟩ | ⟨rfl, rfl⟩
    · exact ⟨hl, hl.drop c, by omega, by rw [List.length_drop]; omega, rfl⟩
    · exact ⟨hl.drop c, hl, by rw [List.length_drop]; omega, by omega, add_comm _ _⟩
  obtain ⟨h1, h2, h3, h4, h5⟩ := ha
  obtain ⟨o, e1, e2, e3, e4⟩ := add_spec c a b (List.replicate (size - c) 0) h1 h2 h3 h4 (by rw [List.length_replicate]; omega)
  have hlen := e2.len
  rw [List.length_replicate] at hlen
  rw [e1, Option.bind_some]
  by_cases hodd : size % 2 = 1
  · rw [if_pos hodd]
    have hsl : size - 1 < l.length := by omega
    rw [List.getElem?_eq_getElem hsl]
    refine ⟨o.set c l[size - 1], rfl, by rw [List.length_set, hlen], IsDigits.set (e2.digits (IsDigits.zeros _)) _ (hl _ (List.getElem_mem hsl)), ?_⟩
    have hco : c < (o.set c l[size - 1]).length := by rw [List.length_set, hlen]; omega
    have e5 : o.set c l[size - 1] = (o.set c l[size - 1]).take (c + 1) := (List.take_of_length_le (by rw [List.length_set, hlen]; omega)).symm
    rw [e5, ofDigits_take_succ _ c hco, List.take_set_of_le (le_refl c), e3, h5]
    rw [show size - c = c + 1 by omega, ofDigits_take_succ (l.drop c) c (by rw [List.length_drop]; omega)]
    rw [List.getElem_set_self, List.getElem_drop]
    have : l[size - 1] = l[c + c]'(by omega) := by congr 1; omega
    rw [this]; ring
  · rw [if_neg hodd]
    refine ⟨o, rfl, hlen, e2.digits (IsDigits.zeros _), ?_⟩
    have e5 : o = o.take c := (List.take_of_length_le (by omega)).symm
    rw [show size - c = c by omega, ← h5, ← e3, ← e5]

theorem karatsuba_spec : ∀ (f size : Nat) (l r : List Nat), size < f → IsDigits B l → IsDigits B r → size ≤ l.length → size ≤ r.length →
    IsProd B size l r (karatsuba B f size l r)
  | 0, _, _, _, h, _, _, _, _ => by omega
  | f + 1, size, l, r, hf, hl, hr, h1, h2 => by
    unfold karatsuba
    by_cases hs : size < 64
    · rw [if_pos hs]
      exact multiplySimple_spec size l r hl hr h1 h2
    · rw [if_neg hs]
      simp only
      have hs' : 64 ≤ size := by omega
      obtain ⟨l1, a1, a2, a3, a4⟩ := halves_spec hs' l (l.drop (size / 2)) l hl h1 (Or.inl ⟨rfl, rfl⟩)
      obtain ⟨l2, b1, b2, b3, b4⟩ := halves_spec hs' (r.drop (size / 2)) r r hr h2 (Or.inr ⟨rfl, rfl⟩)
      generalize hc : size / 2 = c at *
      obtain ⟨low, c1, c2, c3, c4⟩ := karatsuba_spec f c l r (by omega) hl hr (by omega) (by omega)
      obtain ⟨high, d1, d2, d3, d4⟩ := karatsuba_spec f (size - c) (l.drop c) (r.drop c) (by omega) (hl.drop c) (hr.drop c) (by rw [List.length_drop]; omega) (by rw [List.length_drop]; omega)
      obtain ⟨l3, e1, e2, e3, e4⟩ := karatsuba_spec f (size - c) l1 l2 (by omega) a3 b3 (by omega) (by omega)
      rw [List.take_of_length_le (by omega), List.take_of_length_le (by omega)] at e4
      rw [c1, Option.bind_some, d1, Option.bind_some]
      have hout : IsDigits B (low ++ high) := IsDigits.append c3 d3
      have hol : (low ++ high).length = 2 * size := by rw [List.length_append]; omega
      rw [← Option.bind_assoc, a1, Option.bind_some, ← Option.bind_assoc, b1, Option.bind_some, e1, Option.bind_some]
      obtain ⟨m1, f1, f2, f3, f4, _⟩ := add_self_spec (c * 2) (low ++ high) l3 hout e3 (by omega) (by omega)
      rw [f1, Option.bind_some]
      obtain ⟨m2, g1, g2, g3, g4, _⟩ := add_self_spec ((size - c) * 2) ((low ++ high).drop (c * 2)) m1 (hout.drop _) f3 (by rw [List.length_drop]; omega) (by omega)
      rw [g1, Option.bind_some]
      obtain ⟨o', i1, i2, i3, i4⟩ := onTail_spec (k := c) (f := fun o => add ((size - c) * 2) o m2 o) (by omega) hout
        (v := ofDigits B (m2.take ((size - c) * 2))) (by
          obtain ⟨o', j1, j2, j3, j4, _⟩ := add_self_spec' ((size - c) * 2) m2 ((low ++ high).drop c) g3 (hout.drop c) (by omega) (by rw [List.length_drop]; omega)
          exact ⟨o', j1, j2, j3, j4⟩)
      refine ⟨o', i1, by omega, i3, ?_⟩
      rw [i4, List.take_of_length_le (by omega), g4, f4, e4, a4, b4]
      rw [show c * 2 = low.length by omega, List.drop_left, List.take_left, List.take_of_length_le (show high.length ≤ (size - c) * 2 by omega), ofDigits_append, c4, d4]
      have tl : ofDigits B (l.take size) = ofDigits B (l.take c) + X ^ (B * c) * ofDigits B ((l.drop c).take (size - c)) := by
        rw [ofDigits_take_drop (l.take size) c (by rw [List.length_take]; omega), List.take_take, Nat.min_eq_left (by omega), List.drop_take]
      have tr : ofDigits B (r.take size) = ofDigits B (r.take c) + X ^ (B * c) * ofDigits B ((r.drop c).take (size - c)) := by
        rw [ofDigits_take_drop (r.take size) c (by rw [List.length_take]; omega), List.take_take, Nat.min_eq_left (by omega), List.drop_take]
      rw [tl, tr, show low.length = c + c by omega]
      generalize ofDigits B (l.take c) = p
      generalize ofDigits B ((l.drop c).take (size - c)) = q
      generalize ofDigits B (r.take c) = s
      generalize ofDigits B ((r.drop c).take (size - c)) = t
      have z1 := add_self (X ^ (B * c) * (p * s))
      have z2 := add_self (X ^ (B * c) * (q * t))
      rw [mul_add B c c, pow_add]
      linear_combination z1 + z2

theorem multiplyAddKaratsuba_spec (size : Nat) (l r o : List Nat) (hl : IsDigits B l) (hr : IsDigits B r) (ho : IsDigits B o) (h1 : size ≤ l.length)
    (h2 : size ≤ r.length) (h3 : size * 2 ≤ o.length) :
    ∃ o', multiplyAddKaratsuba B size l r o = some o' ∧ o'.length = o.length ∧ IsDigits B o' ∧
      ofDigits B o' = ofDigits B o + ofDigits B (l.take size) * ofDigits B (r.take size) := by
  obtain ⟨b, e1, e2, e3, e4⟩ := karatsuba_spec (size + 1) size l r (by omega) hl hr h1 h2
  obtain ⟨o', f1, f2, f3, f4, _⟩ := add_self_spec (size * 2) b o e3 ho (by omega) h3
  refine ⟨o', by rw [multiplyAddKaratsuba, e1]; exact f1, f2, f3, ?_⟩
  rw [f4, List.take_of_length_le (by omega), e4]

theorem multiplyAdd_spec : ∀ (f : Nat) (l : List Nat) (ln : Nat) (r : List Nat) (rn : Nat) (o : List Nat), ln + rn < f → (ln = 0 ∨ 0 < rn) → IsDigits B l → IsDigits B r →
    IsDigits B o → ln ≤ l.length → rn ≤ r.length → ln + rn ≤ o.length →
    ∃ o', multiplyAdd B f l ln r rn o = some o' ∧ o'.length = o.length ∧ IsDigits B o' ∧
      ofDigits B o' = ofDigits B o + ofDigits B (l.take ln) * ofDigits B (r.take rn)
  | 0, _, _, _, _, _, h, _, _, _, _, _, _, _ => by omega
  | f + 1, l, ln, r, rn, o, hf, hz, hl, hr, ho, h1, h2, h3 => by
    unfold multiplyAdd
    by_cases h0 : ln = 0
    · rw [if_neg (by omega)]
      exact ⟨o, rfl, rfl, ho, by rw [h0]; simp⟩
    · rw [if_pos h0]
      have hrn : 0 < rn := by omega
      -- after the exchange
      have main : ∀ (l : List Nat) (ln : Nat) (r : List Nat) (rn : Nat), rn ≤ ln → 0 < rn → ln + rn < f + 1 → IsDigits B l → IsDigits B r → ln ≤ l.length → rn ≤ r.length →
          ln + rn ≤ o.length → ∃ o', ((multiplyAddKaratsuba B rn l r o).bind fun out => onTail rn (multiplyAdd B f (l.drop rn) (ln - rn) r rn) out) = some o' ∧
          o'.length = o.length ∧ IsDigits B o' ∧ ofDigits B o' = ofDigits B o + ofDigits B (l.take ln) * ofDigits B (r.take rn) := by
        intro l ln r rn hle hp hf hl hr h1 h2 h3
        obtain ⟨o1, e1, e2, e3, e4⟩ := multiplyAddKaratsuba_spec rn l r o hl hr ho (by omega) h2 (by omega)
        rw [e1, Option.bind_some]
        obtain ⟨o2, f1, f2, f3, f4⟩ := onTail_spec (k := rn) (f := multiplyAdd B f (l.drop rn) (ln - rn) r rn) (by omega) e3
          (multiplyAdd_spec f (l.drop rn) (ln - rn) r rn (o1.drop rn) (by omega) (Or.inr hp) (hl.drop rn) hr (e3.drop rn) (by rw [List.length_drop]; omega) h2
            (by rw [List.length_drop]; omega))
        refine ⟨o2, f1, by omega, f3, ?_⟩
        rw [f4, e4]
        have tl : ofDigits B (l.take ln) = ofDigits B (l.take rn) + X ^ (B * rn) * ofDigits B ((l.drop rn).take (ln - rn)) := by
          rw [ofDigits_take_drop (l.take ln) rn (by rw [List.length_take]; omega), List.take_take, Nat.min_eq_left (by omega), List.drop_take]
        rw [tl]; ring
      by_cases hlt : ln < rn
      · simp only [if_pos hlt]
        obtain ⟨o', e1, e2, e3, e4⟩ := main r rn l ln hlt.le (by omega) (by omega) hr hl h2 h1 (by omega)
        exact ⟨o', e1, e2, e3, by rw [e4]; ring⟩
      · simp only [if_neg hlt]
        exact main l ln r rn (by omega) hrn (by omega) hl hr h1 h2 h3

theorem multiply_spec (l r : List Nat) (hz : l = [] ∨ r ≠ []) (hl : IsDigits B l) (hr : IsDigits B r) :
    ∃ o', multiply B l l.length r r.length = some o' ∧ o'.length = l.length + r.length ∧ IsDigits B o' ∧ ofDigits B o' = ofDigits B l * ofDigits B r := by
  obtain ⟨o', e1, e2, e3, e4⟩ := multiplyAdd_spec (l.length + r.length + 1) l l.length r r.length (List.replicate (l.length + r.length) 0) (by omega)
    (hz.imp (fun h => by rw [h]; rfl) List.length_pos_iff.2) hl hr (IsDigits.zeros _) le_rfl le_rfl (by rw [List.length_replicate])
  refine ⟨o', e1, by rw [e2, List.length_replicate], e3, ?_⟩
  rw [e4, ofDigits_replicate_zero, List.take_length, List.take_length, zero_add]

end
end Gf2
end Boost.Random
