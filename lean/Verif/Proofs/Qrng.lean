import Verif.Spec.Qrng
import Mathlib.Tactic.Ring
import Mathlib.Tactic.Linarith

/-!
# `qrng_base` over a lawful derived class
-/

namespace Boost.Random
namespace Qrng
open Spec

/-- What `qrng_base` needs of the derived class: `pt dim i` is point `i` in `dim` dimensions, of `last` points. -/
structure Lawful {L α : Type} (D : Derived L α) (LOk : Nat → L → Prop) (pt : Nat → Nat → List α) (last : Nat) : Prop where
  digits : D.digits ≤ 64
  last_pos : 0 < last
  last_le : last ≤ 2 ^ D.digits
  len : ∀ l dim i, LOk dim l → (pt dim i).length = dim
  compute : ∀ l dim i, LOk dim l → i + 1 < last → ∃ l', D.compute l (pt dim i) (i + 1) = .ok (l', pt dim (i + 1)) ∧ LOk dim l'
  compute_end : ∀ l dim i, LOk dim l → i + 1 = last → last < 2 ^ D.digits → D.compute l (pt dim i) (i + 1) = .throw
  seed : ∀ l dim quasi seq init, LOk dim l → quasi.length = dim → (init ≠ seq ∨ quasi = pt dim init) → init < last →
    ∃ l', D.seed l quasi seq init = .ok (l', pt dim init) ∧ LOk dim l'
  seed_end : ∀ l dim quasi seq init, LOk dim l → init ≠ seq → last ≤ init → init < 2 ^ D.digits → D.seed l quasi seq init = .throw
  seed0 : ∀ l dim quasi, LOk dim l → quasi.length = dim → ∃ l', D.seed0 l quasi = .ok (l', pt dim 0) ∧ LOk dim l'
  resize : ∀ dim l, D.resize dim = .ok l → LOk dim l
  resize_ok : ∀ dim l, LOk dim l → ∃ l', D.resize dim = .ok l'

section
variable {L α : Type} {D : Derived L α} {LOk : Nat → L → Prop} {pt : Nat → Nat → List α} {last : Nat}

/-- The invariant of an engine of dimension `dim`. -/
structure Inv (LOk : Nat → L → Prop) (pt : Nat → Nat → List α) (last dim : Nat) (q : Q L α) : Prop where
  pos : 0 < dim
  lt : dim < 2 ^ 63
  lat : LOk dim q.lattice
  seq : q.seq < last
  curr : q.curr ≤ dim
  quasi : q.quasi = pt dim q.seq

variable (H : Lawful D LOk pt last) {dim : Nat} {q : Q L α} (I : Inv LOk pt last dim q)
include H I

theorem Inv.length : q.quasi.length = dim := by rw [I.quasi]; exact H.len q.lattice dim _ I.lat

theorem position_eq : qPosition q = q.seq * dim + q.curr := by unfold qPosition; rw [I.length H]

theorem next_ok (h : qPosition q / dim < last) : ∃ v q', next D q = .ok (v, q') ∧ qAt (pt dim) last dim (qPosition q) = some v ∧
    Inv LOk pt last dim q' ∧ qPosition q' = qPosition q + 1 := by
  have hl := I.length H
  have hp := position_eq H I
  have hd := I.pos
  have hc := I.curr
  unfold next
  rw [hl]
  by_cases hcd : q.curr = dim
  · rw [if_neg (by omega)]
    unfold nextState
    have hpos : qPosition q = (q.seq + 1) * dim := by rw [hp, hcd]; ring
    rw [hpos, Nat.mul_div_cancel _ hd] at h
    have hle := H.last_le
    rw [Nat.mod_eq_of_lt (by omega)]
    simp only
    rw [if_pos (by omega)]
    obtain ⟨l', c1, c2⟩ := H.compute q.lattice dim q.seq I.lat h
    rw [I.quasi, c1]
    simp only [Res.bind, loadCached]
    have hlen := H.len l' dim (q.seq + 1) c2
    have h0 : 0 < (pt dim (q.seq + 1)).length := by omega
    refine ⟨(pt dim (q.seq + 1))[0], ⟨0 + 1, q.seq + 1, l', pt dim (q.seq + 1)⟩, ?_, ?_, ⟨hd, I.lt, c2, h, hd, rfl⟩, ?_⟩
    · rw [List.getElem?_eq_getElem h0]
    · unfold qAt
      rw [hpos, Nat.mul_div_cancel _ hd, if_pos h, Nat.mul_mod_left, List.getElem?_eq_getElem h0]
    · rw [hpos]; unfold qPosition; simp only [hlen, Nat.zero_add]
  · rw [if_pos hcd]
    unfold loadCached
    have hlt : q.curr < q.quasi.length := by omega
    rw [List.getElem?_eq_getElem hlt]
    refine ⟨_, _, rfl, ?_, ⟨hd, I.lt, I.lat, I.seq, by simp only; omega, I.quasi⟩, ?_⟩
    · unfold qAt
      have e1 : qPosition q / dim = q.seq := by
        rw [hp, Nat.mul_comm, Nat.mul_add_div hd, Nat.div_eq_of_lt (by omega), Nat.add_zero]
      have e2 : qPosition q % dim = q.curr := by rw [hp, Nat.mul_comm, Nat.mul_add_mod, Nat.mod_eq_of_lt (by omega)]
      rw [e1, if_pos I.seq, e2, ← I.quasi, List.getElem?_eq_getElem hlt]
    · unfold qPosition; simp only; omega

theorem next_throw (h : ¬ qPosition q / dim < last) : next D q = .throw := by
  have hl := I.length H
  have hp := position_eq H I
  have hd := I.pos
  have hc := I.curr
  have hs := I.seq
  have hcd : q.curr = dim := by
    by_contra hcd
    apply h
    rw [hp, Nat.mul_comm, Nat.mul_add_div hd, Nat.div_eq_of_lt (by omega), Nat.add_zero]
    exact hs
  have hpos : qPosition q = (q.seq + 1) * dim := by rw [hp, hcd]; ring
  rw [hpos, Nat.mul_div_cancel _ hd] at h
  have he : q.seq + 1 = last := by omega
  unfold next
  rw [hl, if_neg (by omega)]
  unfold nextState
  have hle := H.last_le
  by_cases hlast : last < 2 ^ D.digits
  · rw [Nat.mod_eq_of_lt (by omega)]
    simp only
    rw [if_pos (by omega), I.quasi, H.compute_end q.lattice dim q.seq I.lat he hlast]
    rfl
  · have : q.seq + 1 = 2 ^ D.digits := by omega
    rw [this, Nat.mod_self]
    simp only
    rw [if_neg (by omega)]

end

section
variable {L α : Type} {D : Derived L α} {LOk : Nat → L → Prop} {pt : Nat → Nat → List α} {last : Nat} (H : Lawful D LOk pt last)
include H

theorem qAt_isSome {dim p : Nat} (hd : 0 < dim) (h : p / dim < last) {l : L} (hl : LOk dim l) : ∃ v, qAt (pt dim) last dim p = some v := by
  unfold qAt
  rw [if_pos h]
  have := H.len l dim (p / dim) hl
  have hm := Nat.mod_lt p hd
  exact ⟨_, List.getElem?_eq_getElem (by omega)⟩

theorem calls_ok {dim : Nat} (n : Nat) : ∀ {q : Q L α}, Inv LOk pt last dim q → qPosition q + n ≤ last * dim →
    ∃ vs q', qCalls D n q = .ok (vs, q') ∧ vs.map some = (List.range n).map (fun i => qAt (pt dim) last dim (qPosition q + i)) ∧
      Inv LOk pt last dim q' ∧ qPosition q' = qPosition q + n := by
  induction n with
  | zero => intro q I _; exact ⟨[], q, rfl, rfl, I, rfl⟩
  | succ n ih =>
    intro q I h
    have hlt : qPosition q / dim < last := by rw [Nat.div_lt_iff_lt_mul I.pos]; omega
    obtain ⟨v, q', h1, h2, h3, h4⟩ := next_ok H I hlt
    obtain ⟨vs, q'', g1, g2, g3, g4⟩ := ih h3 (by omega)
    refine ⟨v :: vs, q'', ?_, ?_, g3, by omega⟩
    · simp only [qCalls, h1, Res.bind, g1]
    · rw [List.map_cons, g2, List.range_succ_eq_map, List.map_cons, List.map_map, Nat.add_zero, h2]
      congr 1
      apply List.map_congr_left
      intro i _
      simp only [Function.comp, h4]
      congr 1
      omega

theorem calls_throw {dim : Nat} (n : Nat) : ∀ {q : Q L α}, Inv LOk pt last dim q → last * dim < qPosition q + n → qCalls D n q = .throw := by
  induction n with
  | zero =>
    intro q I h
    exfalso
    have hp := position_eq H I
    have hs := I.seq
    have hc := I.curr
    have : (q.seq + 1) * dim ≤ last * dim := Nat.mul_le_mul_right _ (by omega)
    have e : (q.seq + 1) * dim = q.seq * dim + dim := by ring
    omega
  | succ n ih =>
    intro q I h
    by_cases hlt : qPosition q / dim < last
    · obtain ⟨v, q', h1, h2, h3, h4⟩ := next_ok H I hlt
      simp only [qCalls, h1, Res.bind, ih h3 (by omega)]
    · simp only [qCalls, next_throw H I hlt, Res.bind]

/-- The future depends on the position only. -/
theorem outputs_eq {dim : Nat} (n : Nat) : ∀ {q : Q L α}, Inv LOk pt last dim q →
    qOutputs D n q = some ((List.range n).filterMap fun i => qAt (pt dim) last dim (qPosition q + i)) := by
  induction n with
  | zero => intro q I; rfl
  | succ n ih =>
    intro q I
    by_cases hlt : qPosition q / dim < last
    · obtain ⟨v, q', h1, h2, h3, h4⟩ := next_ok H I hlt
      simp only [qOutputs, h1, ih h3, Option.map_some]
      rw [List.range_succ_eq_map, List.filterMap_cons, Nat.add_zero, h2, List.filterMap_map]
      simp only
      rw [h4]
      congr 3
      funext i
      simp only [Function.comp]
      congr 1
      omega
    · simp only [qOutputs, next_throw H I hlt]
      congr 1
      symm
      rw [List.filterMap_eq_nil_iff]
      intro i _
      unfold qAt
      rw [if_neg]
      have := Nat.div_le_div_right (c := dim) (Nat.le_add_right (qPosition q) i)
      omega

theorem same_future {dim : Nat} {q q' : Q L α} (I : Inv LOk pt last dim q) (I' : Inv LOk pt last dim q') (h : qPosition q = qPosition q') :
    QSameFuture D q q' := by
  intro n
  rw [outputs_eq H n I, outputs_eq H n I', h]
  exact ⟨by simp, rfl⟩

/-! ## `discard` -/

theorem seed_ok {dim : Nat} {q : Q L α} (hl : LOk dim q.lattice) (hlen : q.quasi.length = dim) {init : Nat} (h : init < last)
    (hc : init ≠ q.seq ∨ q.quasi = pt dim init) (hd : 0 < dim) (hd' : dim < 2 ^ 63) :
    ∃ q', seed D q init = .ok q' ∧ Inv LOk pt last dim q' ∧ q'.seq = init ∧ q'.curr = 0 := by
  obtain ⟨l', h1, h2⟩ := H.seed q.lattice dim q.quasi q.seq init hl hlen hc h
  refine ⟨⟨0, init, l', pt dim init⟩, by unfold seed; rw [h1]; rfl, ⟨hd, hd', h2, h, Nat.zero_le _, rfl⟩, rfl, rfl⟩

theorem discardVector_ok {dim : Nat} {q : Q L α} (I : Inv LOk pt last dim q) {z : Nat} (h : q.seq + z < last) :
    ∃ q', discardVector D q z = .ok q' ∧ Inv LOk pt last dim q' ∧ q'.seq = q.seq + z ∧ q'.curr = q.curr := by
  have hle := H.last_le
  obtain ⟨q', h1, h2, h3, h4⟩ := seed_ok H I.lat (I.length H) h (by
    by_cases hz : q.seq + z = q.seq
    · right; rw [hz]; exact I.quasi
    · left; exact hz) I.pos I.lt
  refine ⟨{ q' with curr := q.curr }, ?_, ⟨h2.pos, h2.lt, h2.lat, h2.seq, I.curr, h2.quasi⟩, h3, rfl⟩
  unfold discardVector
  rw [if_neg (by omega), Nat.mod_eq_of_lt (by omega), h1]
  rfl

theorem discardVector_throw {dim : Nat} {q : Q L α} (I : Inv LOk pt last dim q) {z : Nat} (h : last ≤ q.seq + z) :
    discardVector D q z = .throw := by
  unfold discardVector
  have hs := I.seq
  by_cases h2 : 2 ^ D.digits - 1 - q.seq < z
  · rw [if_pos h2]
  · have := Nat.two_pow_pos D.digits
    have hle := H.last_le
    rw [if_neg h2, Nat.mod_eq_of_lt (by omega)]
    unfold seed
    rw [H.seed_end q.lattice dim q.quasi q.seq (q.seq + z) I.lat (by omega) h (by omega)]
    rfl

/-- `discard(z)`: what it computes, when the number of vectors does not wrap around. -/
theorem discard_spec {dim : Nat} {q : Q L α} (I : Inv LOk pt last dim q) {z : Nat} (hz : z < 2 ^ 64)
    (hw : z / dim + (q.curr + z % dim) / dim < 2 ^ 64) :
    (qPosition q + z ≤ last * dim → ∃ q', discard D q z = .ok q' ∧ Inv LOk pt last dim q' ∧ qPosition q' = qPosition q + z ∧ (0 < z → 0 < q'.curr)) ∧
    (last * dim < qPosition q + z → discard D q z = .throw) := by
  have hl := I.length H
  have hp := position_eq H I
  have hd := I.pos
  have hlt := I.lt
  have hc := I.curr
  have hm := Nat.mod_lt z hd
  have hcarry : (q.curr + z % dim) % 2 ^ 64 = q.curr + z % dim := Nat.mod_eq_of_lt (by omega)
  have hdm := Nat.div_add_mod z dim
  have hdm2 := Nat.div_add_mod (q.curr + z % dim) dim
  have hm2 := Nat.mod_lt (q.curr + z % dim) hd
  obtain ⟨vec, hvec⟩ : ∃ vec, vec = z / dim + (q.curr + z % dim) / dim := ⟨_, rfl⟩
  obtain ⟨car, hcar⟩ : ∃ car, car = (q.curr + z % dim) % dim := ⟨_, rfl⟩
  rw [← hvec] at hw
  rw [← hcar] at hm2 hdm2
  have htot : qPosition q + z = (q.seq + vec) * dim + car := by
    rw [hp, hvec, Nat.add_mul, Nat.add_mul, Nat.mul_comm (z / dim), Nat.mul_comm ((q.curr + z % dim) / dim)]
    omega
  have hdis : discard D q z = (discardVector D q (vec - if car = 0 ∧ vec ≠ 0 then 1 else 0)).bind fun q =>
      .ok { q with curr := car ^^^ if car = 0 ∧ vec ≠ 0 then dim else 0 } := by
    unfold discard
    rw [hl]
    simp only [hcarry]
    rw [← hvec, ← hcar, Nat.mod_eq_of_lt hw]
  by_cases hcorr : car = 0 ∧ vec ≠ 0
  · rw [if_pos hcorr, if_pos hcorr] at hdis
    rw [hcorr.1, Nat.zero_xor] at hdis
    rw [hcorr.1, Nat.add_zero] at htot
    have hv := hcorr.2
    constructor
    · intro hle
      have hs : q.seq + (vec - 1) < last := by
        rw [htot] at hle
        have := Nat.le_of_mul_le_mul_right hle hd
        clear hvec
        omega
      obtain ⟨q', h1, h2, h3, h4⟩ := discardVector_ok H I hs
      refine ⟨{ q' with curr := dim }, by rw [hdis, h1]; rfl, ⟨h2.pos, h2.lt, h2.lat, h2.seq, le_refl _, h2.quasi⟩, ?_, fun _ => hd⟩
      rw [htot]
      unfold qPosition
      have := h2.length H
      simp only [this, h3]
      obtain ⟨u, hu⟩ : ∃ u, vec = u + 1 := ⟨vec - 1, by omega⟩
      rw [hu]
      simp only [Nat.add_sub_cancel]
      ring
    · intro hle
      rw [hdis, discardVector_throw H I]
      · rfl
      · rw [htot] at hle
        have := Nat.lt_of_mul_lt_mul_right hle
        omega
  · rw [if_neg hcorr, if_neg hcorr, Nat.sub_zero, Nat.xor_zero] at hdis
    constructor
    · intro hle
      by_cases hs : q.seq + vec < last
      · obtain ⟨q', h1, h2, h3, h4⟩ := discardVector_ok H I hs
        refine ⟨{ q' with curr := car }, by rw [hdis, h1]; rfl, ⟨h2.pos, h2.lt, h2.lat, h2.seq, by simp only; omega, h2.quasi⟩, ?_, fun h0 => ?_⟩
        · rw [htot]
          unfold qPosition
          have := h2.length H
          simp only [this, h3]
        · simp only
          by_contra hcar0
          have hc0 : car = 0 := by omega
          have hv0 : vec = 0 := by
            by_contra hv
            exact hcorr ⟨hc0, hv⟩
          rw [hc0, hv0, hp, Nat.add_zero, Nat.add_zero] at htot
          omega
      · exfalso
        have h1 : last * dim ≤ (q.seq + vec) * dim := Nat.mul_le_mul_right _ (by omega)
        have hc0 : car = 0 := by omega
        have hv0 : vec = 0 := by
          by_contra hv
          exact hcorr ⟨hc0, hv⟩
        have := I.seq
        omega
    · intro hle
      rw [hdis, discardVector_throw H I]
      · rfl
      · by_contra hs
        have h1 : (q.seq + vec + 1) * dim ≤ last * dim := Nat.mul_le_mul_right _ (by omega)
        have e : (q.seq + vec + 1) * dim = (q.seq + vec) * dim + dim := by ring
        omega

/-! ## Equality -/

theorem eq_iff {dim dim' : Nat} {q q' : Q L α} (I : Inv LOk pt last dim q) (I' : Inv LOk pt last dim' q') :
    eq q q' = true ↔ dim = dim' ∧ qPosition q = qPosition q' := by
  have hl := I.length H
  have hl' := I'.length H
  have hp := position_eq H I
  have hp' := position_eq H I'
  have hd := I.pos
  have hd' := I'.pos
  have hc := I.curr
  have hc' := I'.curr
  have hs := I.seq
  have hs' := I'.seq
  have hle := H.last_le
  have hle2 : 2 ^ D.digits ≤ 2 ^ 64 := Nat.pow_le_pow_right (by decide) H.digits
  unfold eq
  rw [hl, hl']
  simp only [Bool.and_eq_true, decide_eq_true_eq]
  constructor
  · rintro ⟨⟨⟨rfl, h1⟩, h2⟩, h3⟩
    refine ⟨rfl, ?_⟩
    have b1 : q.curr / dim ≤ 1 := by
      rw [Nat.div_le_iff_le_mul hd]; omega
    have b2 : q'.curr / dim ≤ 1 := by
      rw [Nat.div_le_iff_le_mul hd]; omega
    have hb : q.seq + q.curr / dim = q'.seq + q'.curr / dim := by
      generalize q.curr / dim = a at *
      generalize q'.curr / dim = b at *
      clear hp hp' hl hl' h3
      split at h1 <;> omega
    have a1 := Nat.div_add_mod q.curr dim
    have a2 := Nat.div_add_mod q'.curr dim
    rw [hp, hp']
    calc q.seq * dim + q.curr = (q.seq + q.curr / dim) * dim + q.curr % dim := by rw [Nat.add_mul, Nat.mul_comm (q.curr / dim)]; omega
      _ = (q'.seq + q'.curr / dim) * dim + q'.curr % dim := by rw [hb, h3]
      _ = q'.seq * dim + q'.curr := by rw [Nat.add_mul, Nat.mul_comm (q'.curr / dim)]; omega
  · rintro ⟨rfl, h⟩
    rw [hp, hp'] at h
    have hdiv := congrArg (· / dim) h
    have hmod := congrArg (· % dim) h
    simp only [Nat.mul_comm _ dim, Nat.mul_add_div hd, Nat.mul_add_mod] at hdiv hmod
    have b1 : q.curr / dim ≤ 1 := by
      rw [Nat.div_le_iff_le_mul hd]; omega
    have b2 : q'.curr / dim ≤ 1 := by
      rw [Nat.div_le_iff_le_mul hd]; omega
    refine ⟨⟨⟨rfl, ?_⟩, by rw [hdiv]⟩, hmod⟩
    generalize q.curr / dim = a at *
    generalize q'.curr / dim = b at *
    split <;> omega

end
end Qrng
end Boost.Random
