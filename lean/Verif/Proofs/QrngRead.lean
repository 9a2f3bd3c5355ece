import Verif.Proofs.Qrng
import Verif.Proofs.Adaptors

/-!
# Reading and seeding quasi-random engines
-/

namespace Boost.Random
namespace Qrng
open Spec

section
variable {L α : Type} {D : Derived L α} {LOk : Nat → L → Prop} {pt : Nat → Nat → List α} {last : Nat} (H : Lawful D LOk pt last)
include H

theorem seed0_ok {dim : Nat} {q : Q L α} (I : Inv LOk pt last dim q) :
    ∃ q', seed0 D q = .ok q' ∧ Inv LOk pt last dim q' ∧ q'.seq = 0 ∧ q'.curr = 0 := by
  obtain ⟨l', h1, h2⟩ := H.seed0 q.lattice dim q.quasi I.lat (I.length H)
  exact ⟨⟨0, 0, l', pt dim 0⟩, by unfold seed0; rw [h1]; rfl, ⟨I.pos, I.lt, h2, H.last_pos, Nat.zero_le _, rfl⟩, rfl, rfl⟩

theorem make_ok {dim : Nat} (h0 : 0 < dim) (hlt : dim < 2 ^ 63) {l : L} (hl : D.resize dim = .ok l) :
    ∃ q, make D dim = .ok q ∧ Inv LOk pt last dim q ∧ q.seq = 0 ∧ q.curr = 0 := by
  obtain ⟨l', h1, h2⟩ := H.seed0 l dim (List.replicate dim D.zero) (H.resize dim l hl) (by simp)
  refine ⟨⟨0, 0, l', pt dim 0⟩, ?_, ⟨h0, hlt, h2, H.last_pos, Nat.zero_le _, rfl⟩, rfl, rfl⟩
  unfold make
  rw [if_neg (by omega), hl]
  simp only [Res.bind, h1]

theorem seed_throw {dim : Nat} {q : Q L α} (I : Inv LOk pt last dim q) {init : Nat} (h : last ≤ init) (hi : init < 2 ^ D.digits) :
    seed D q init = .throw := by
  unfold seed
  have := I.seq
  rw [H.seed_end q.lattice dim q.quasi q.seq init I.lat (by omega) h hi]
  rfl

theorem seed_inv {dim : Nat} {q : Q L α} (I : Inv LOk pt last dim q) {init : Nat} (h : init < last) :
    ∃ q', seed D q init = .ok q' ∧ Inv LOk pt last dim q' ∧ q'.seq = init ∧ q'.curr = 0 := by
  apply seed_ok H I.lat (I.length H) h _ I.pos I.lt
  by_cases hi : init = q.seq
  · right; rw [hi]; exact I.quasi
  · left; exact hi

/-- The only argument for which the number of vectors wraps around. -/
theorem vectors_lt {dim curr z : Nat} (hd : 0 < dim) (hlt : dim < 2 ^ 63) (hc : curr ≤ dim) (hz : z < 2 ^ 64)
    (hne : ¬ (dim = 1 ∧ curr = 1 ∧ z = 2 ^ 64 - 1)) : z / dim + (curr + z % dim) / dim < 2 ^ 64 := by
  have h1 := Nat.div_add_mod z dim
  have e : z / dim + (curr + z % dim) / dim = (z + curr) / dim := by
    rw [← Nat.mul_add_div hd]
    congr 1
    omega
  rw [e, Nat.div_lt_iff_lt_mul hd]
  by_cases hd1 : dim = 1
  · omega
  · have : 2 ^ 64 * 2 ≤ 2 ^ 64 * dim := Nat.mul_le_mul_left _ (by omega)
    omega

/-- Whatever `discard` is given, it keeps the invariant or throws. -/
theorem discard_inv {dim : Nat} {q : Q L α} (I : Inv LOk pt last dim q) (z : Nat) :
    discard D q z = .throw ∨ ∃ q', discard D q z = .ok q' ∧ Inv LOk pt last dim q' := by
  have hl := I.length H
  unfold discard
  rw [hl]
  simp only
  generalize hv : (z / dim + (q.curr + z % dim) % 2 ^ 64 / dim) % 2 ^ 64 = vec
  have hcar : (q.curr + z % dim) % 2 ^ 64 % dim < dim := Nat.mod_lt _ I.pos
  generalize (q.curr + z % dim) % 2 ^ 64 % dim = car at *
  generalize hn : vec - (if car = 0 ∧ vec ≠ 0 then 1 else 0) = n
  by_cases h : q.seq + n < last
  · obtain ⟨q', h1, h2, h3, h4⟩ := discardVector_ok H I h
    right
    rw [h1]
    refine ⟨_, rfl, ⟨h2.pos, h2.lt, h2.lat, h2.seq, ?_, h2.quasi⟩⟩
    simp only
    split
    · rename_i h; rw [h.1, Nat.zero_xor]
    · rw [Nat.xor_zero]; omega
  · left
    rw [discardVector_throw H I (by omega)]
    rfl

end

theorem readInt_range {b : Nat} {s s' : IStream} {v : Int} (h : s.readInt ⟨b, false⟩ = (some v, s')) : 0 ≤ v ∧ v < 2 ^ b := by
  unfold IStream.readInt IntTy.maxv at h
  have hp : ((2 ^ b - 1 : Nat) : Int) = 2 ^ b - 1 := by
    rw [Nat.cast_sub Nat.one_le_two_pow]; push_cast; rfl
  by_cases h1 : s.ok = true
  · rw [if_pos h1] at h
    match hs : s.toks with
    | [] => rw [hs] at h; simp at h
    | Tok.junk :: r => rw [hs] at h; simp at h
    | Tok.num u :: r =>
      rw [hs] at h
      simp only [Bool.false_eq_true, if_false] at h
      rw [hp] at h
      split at h
      · simp only [Prod.mk.injEq, Option.some.injEq] at h; omega
      · split at h
        · simp only [Prod.mk.injEq, Option.some.injEq] at h; omega
        · simp at h
  · rw [if_neg h1] at h; simp at h

section
variable {L α : Type} {D : Derived L α} {LOk : Nat → L → Prop} {pt : Nat → Nat → List α} {last : Nat} (H : Lawful D LOk pt last)
include H

/-- Reading text that names the dimension of the engine. -/
theorem read_same_dimension {dim : Nat} {t : Q L α} (I : Inv LOk pt last dim t) (s : IStream)
    (hs : ∀ v s', s.readInt ⟨64, false⟩ = (some v, s') → v = dim) :
    (∃ t' s', read D s t = .ok t' s' ∧ Inv LOk pt last dim t') ∨ (∃ t', read D s t = .threw t' ∧ Inv LOk pt last dim t') := by
  unfold read
  match h1 : s.readInt ⟨64, false⟩ with
  | (none, s1) => exact Or.inl ⟨t, s1, rfl, I⟩
  | (some v, s1) =>
    simp only
    match h2 : s1.readInt ⟨D.digits, false⟩ with
    | (none, s2) => exact Or.inl ⟨t, s2, rfl, I⟩
    | (some sd, s2) =>
      simp only
      match h3 : s2.readInt ⟨64, false⟩ with
      | (none, s3) => exact Or.inl ⟨t, s3, rfl, I⟩
      | (some z, s3) =>
        have hv := hs v s1 h1
        have hd := I.pos
        have hsd := readInt_range h2
        simp only
        rw [if_neg (by omega), if_pos (by rw [I.length H]; omega)]
        simp only
        have hsd2 : sd.toNat < 2 ^ D.digits := by
          have : (sd.toNat : Int) < ((2 ^ D.digits : Nat) : Int) := by push_cast; omega
          exact_mod_cast this
        by_cases hlast : sd.toNat < last
        · obtain ⟨q', g1, g2, _, _⟩ := seed_inv H I hlast
          rw [g1]
          simp only
          by_cases hz : z ≠ 0
          · rw [if_pos hz]
            rcases discard_inv H g2 z.toNat with h | ⟨q'', h, hi⟩
            · rw [h]; exact Or.inr ⟨q', rfl, g2⟩
            · rw [h]; exact Or.inl ⟨q'', s3, rfl, hi⟩
          · rw [if_neg hz]; exact Or.inl ⟨q', s3, rfl, g2⟩
        · rw [seed_throw H I (by omega) hsd2]
          exact Or.inr ⟨t, rfl, I⟩

omit H in
/-- Seeding does not depend on the vector held. -/
def SeedAny (D : Derived L α) (LOk : Nat → L → Prop) (pt : Nat → Nat → List α) (last : Nat) : Prop :=
  ∀ l dim quasi seq init, LOk dim l → quasi.length = dim → init < last → ∃ l', D.seed l quasi seq init = .ok (l', pt dim init) ∧ LOk dim l'

omit H in
theorem seed_any (hA : SeedAny D LOk pt last) {dim : Nat} {q : Q L α} (hl : LOk dim q.lattice) (hlen : q.quasi.length = dim) {init : Nat} (h : init < last)
    (hd : 0 < dim) (hd' : dim < 2 ^ 63) : ∃ q', seed D q init = .ok q' ∧ Inv LOk pt last dim q' ∧ q'.seq = init ∧ q'.curr = 0 := by
  obtain ⟨l', h1, h2⟩ := hA q.lattice dim q.quasi q.seq init hl hlen h
  refine ⟨⟨0, init, l', pt dim init⟩, by unfold seed; rw [h1]; rfl, ⟨hd, hd', h2, h, Nat.zero_le _, rfl⟩, rfl, rfl⟩

/-- Whatever is read, the engine keeps a state of some dimension. -/
theorem read_any (hA : SeedAny D LOk pt last) (hlast : last = 2 ^ D.digits) (hdim : ∀ dim l, D.resize dim = .ok l → 0 < dim ∧ dim < 2 ^ 63)
    (hub : ∀ dim, D.resize dim ≠ .ub) {dim : Nat} {t : Q L α} (I : Inv LOk pt last dim t) (s : IStream) :
    (∃ dim' t' s', read D s t = .ok t' s' ∧ Inv LOk pt last dim' t') ∨ (∃ dim' t', read D s t = .threw t' ∧ Inv LOk pt last dim' t') := by
  unfold read
  match h1 : s.readInt ⟨64, false⟩ with
  | (none, s1) => exact Or.inl ⟨dim, t, s1, rfl, I⟩
  | (some v, s1) =>
    simp only
    match h2 : s1.readInt ⟨D.digits, false⟩ with
    | (none, s2) => exact Or.inl ⟨dim, t, s2, rfl, I⟩
    | (some sd, s2) =>
      simp only
      match h3 : s2.readInt ⟨64, false⟩ with
      | (none, s3) => exact Or.inl ⟨dim, t, s3, rfl, I⟩
      | (some z, s3) =>
        have hsd := readInt_range h2
        have hsd2 : sd.toNat < last := by
          rw [hlast]
          have : (sd.toNat : Int) < ((2 ^ D.digits : Nat) : Int) := by push_cast; omega
          exact_mod_cast this
        simp only
        by_cases hv : v = 0
        · rw [if_pos hv]; exact Or.inr ⟨dim, t, rfl, I⟩
        rw [if_neg hv]
        have hfin : ∀ (t0 : Q L α) (dim' : Nat), LOk dim' t0.lattice → t0.quasi.length = dim' → 0 < dim' → dim' < 2 ^ 63 →
            (∃ dim' t' s', (match seed D t0 sd.toNat with
              | .throw => ReadRes.threw t0
              | .ub => .ub
              | .ok q => if z ≠ 0 then match discard D q z.toNat with | .throw => .threw q | .ub => .ub | .ok q => .ok q s3 else .ok q s3) = .ok t' s' ∧
              Inv LOk pt last dim' t') ∨
            (∃ dim' t', (match seed D t0 sd.toNat with
              | .throw => ReadRes.threw t0
              | .ub => .ub
              | .ok q => if z ≠ 0 then match discard D q z.toNat with | .throw => .threw q | .ub => .ub | .ok q => .ok q s3 else .ok q s3) = .threw t' ∧
              Inv LOk pt last dim' t') := by
          intro t0 dim' e1 e2 e3 e4
          obtain ⟨q', g1, g2, _, _⟩ := seed_any hA e1 e2 hsd2 e3 e4
          rw [g1]
          simp only
          by_cases hz : z ≠ 0
          · rw [if_pos hz]
            rcases discard_inv H g2 z.toNat with h | ⟨q'', h, hi⟩
            · rw [h]; exact Or.inr ⟨dim', q', rfl, g2⟩
            · rw [h]; exact Or.inl ⟨dim', q'', s3, rfl, hi⟩
          · rw [if_neg hz]; exact Or.inl ⟨dim', q', s3, rfl, g2⟩
        by_cases hl : t.quasi.length = v.toNat
        · rw [if_pos hl]
          exact hfin t dim I.lat (I.length H) I.pos I.lt
        · rw [if_neg hl]
          match hr : D.resize v.toNat with
          | .throw => exact Or.inr ⟨dim, t, rfl, I⟩
          | .ub => exact absurd hr (hub _)
          | .ok l =>
            obtain ⟨k1, k2⟩ := hdim _ l hr
            exact hfin ⟨t.curr, t.seq, l, t.quasi.take v.toNat ++ List.replicate (v.toNat - t.quasi.length) D.zero⟩ v.toNat (H.resize _ l hr) (by simp; omega) k1 k2

/-- Reading back what was written. -/
theorem read_write (hdig : 1 ≤ D.digits) {dim dimt : Nat} {q t : Q L α} (I : Inv LOk pt last dim q) (It : Inv LOk pt last dimt t) (rest : List Tok)
    (hc : dimt = dim ∨ t.seq ≠ q.seq ∨ SeedAny D LOk pt last) :
    ∃ t', read D ⟨write q ++ rest, true⟩ t = .ok t' ⟨rest, true⟩ ∧ Inv LOk pt last dim t' ∧ qPosition t' = qPosition q := by
  have hl := I.length H
  have hlt := It.length H
  have hd := I.pos
  have hdl := I.lt
  have hcu := I.curr
  have hsq := I.seq
  have hle := H.last_le
  unfold read write
  rw [hl]
  simp only [List.cons_append, List.nil_append]
  rw [readInt_inTy (by decide) (by simp only [InTy, Bool.false_eq_true, if_false]; constructor <;> omega)]
  simp only
  rw [readInt_inTy hdig (by
    simp only [InTy, Bool.false_eq_true, if_false]
    refine ⟨by omega, ?_⟩
    have : q.seq < 2 ^ D.digits := by omega
    exact_mod_cast this)]
  simp only
  rw [readInt_inTy (by decide) (by simp only [InTy, Bool.false_eq_true, if_false]; constructor <;> omega)]
  simp only [Int.toNat_natCast]
  rw [if_neg (by omega)]
  have hres : ∃ t0 : Q L α, (if t.quasi.length = dim then Res.ok t else (D.resize dim).bind fun l =>
      .ok { t with lattice := l, quasi := t.quasi.take dim ++ List.replicate (dim - t.quasi.length) D.zero }) = .ok t0 ∧
      LOk dim t0.lattice ∧ t0.quasi.length = dim ∧ ((q.seq ≠ t0.seq ∨ t0.quasi = pt dim q.seq) ∨ SeedAny D LOk pt last) := by
    by_cases he : dimt = dim
    · subst he
      rw [if_pos hlt]
      refine ⟨t, rfl, It.lat, hlt, Or.inl ?_⟩
      by_cases hsq : q.seq = t.seq
      · right; rw [hsq]; exact It.quasi
      · left; exact hsq
    · obtain ⟨l', hr⟩ := H.resize_ok dim q.lattice I.lat
      rw [if_neg (by omega), hr]
      refine ⟨_, rfl, H.resize dim l' hr, ?_, ?_⟩
      · simp; omega
      · rcases hc with h | h | h
        · exact absurd h he
        · exact Or.inl (Or.inl fun h' => h h'.symm)
        · exact Or.inr h
  obtain ⟨t0, e0, e1, e2, e3⟩ := hres
  rw [e0]
  simp only
  obtain ⟨q', g1, g2, g3, g4⟩ : ∃ q', seed D t0 q.seq = .ok q' ∧ Inv LOk pt last dim q' ∧ q'.seq = q.seq ∧ q'.curr = 0 := by
    rcases e3 with e3 | e3
    · exact seed_ok H e1 e2 hsq e3 hd hdl
    · exact seed_any e3 e1 e2 hsq hd hdl
  rw [g1]
  simp only
  have hp := position_eq H I
  have hp' := position_eq H g2
  by_cases hz : (q.curr : Int) ≠ 0
  · rw [if_pos hz]
    have hpos : qPosition q' + q.curr = qPosition q := by rw [hp, hp', g3, g4, Nat.add_zero]
    have hbound : qPosition q' + q.curr ≤ last * dim := by
      rw [hpos, hp]
      have : (q.seq + 1) * dim ≤ last * dim := Nat.mul_le_mul_right _ (by omega)
      have e : (q.seq + 1) * dim = q.seq * dim + dim := by ring
      omega
    obtain ⟨q'', k1, k2, k3, _⟩ := (discard_spec H g2 (z := q.curr) (by omega) (vectors_lt H hd hdl (by omega) (by omega) (by omega))).1 hbound
    rw [k1]
    exact ⟨q'', rfl, k2, by rw [k3, hpos]⟩
  · rw [if_neg hz]
    refine ⟨q', rfl, g2, ?_⟩
    rw [hp, hp', g3, g4]
    omega

end
end Qrng
end Boost.Random
