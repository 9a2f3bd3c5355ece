import Verif.Proofs.RandomDevice
import Mathlib.Logic.ExistsUnique

/-!
# `random_device`

C145: the numbers are the bytes of the device, four by four. C146: descriptors in programs that use devices.
-/

namespace Boost.Random
namespace RandomDevice
open Spec

/-! ## C145: the numbers -/

/-- **C145.** A call ends in one of three ways, whatever parts the system delivers (`4` iterations are enough; no byte is stored outside the number or
left indeterminate). It returns the number made of the next four bytes and has consumed exactly these, in at most four calls of `read`, none of which
failed. Or a call of `read` failed and its error number is thrown. Or the file ended. In the last two cases fewer than four bytes have been
consumed. -/
theorem c145_next (path : String) (little : Bool) (fuel : Nat) (hf : 4 ≤ fuel) (f : File) :
    (∃ v r, next path little fuel f = .ok v { f with pos := f.pos + 4, reads := r } ∧ WordAt little f.data f.pos v ∧ f.reads < r ∧ r ≤ f.reads + 4 ∧
      ∀ i, f.reads ≤ i → i < r → ∃ k, f.plan i = .give k) ∨
    (∃ e n r, next path little fuel f = .throws (error path "error while reading" e) { f with pos := f.pos + n, reads := r + 1 } ∧ n < 4 ∧
      (∀ i < n, f.data (f.pos + i) ≠ none) ∧ f.reads ≤ r ∧ r ≤ f.reads + n ∧ f.plan r = .fail e ∧ ∀ i, f.reads ≤ i → i < r → ∃ k, f.plan i = .give k) ∨
    (∃ n r, next path little fuel f = .throws (error path "EOF while reading" 0) { f with pos := f.pos + n, reads := r + 1 } ∧ n < 4 ∧
      (∀ i < n, f.data (f.pos + i) ≠ none) ∧ f.reads ≤ r ∧ r ≤ f.reads + n ∧ f.data (f.pos + n) = none ∧
      ∀ i, f.reads ≤ i → i < r + 1 → ∃ k, f.plan i = .give k) := by
  have h := loop_spec path little fuel [] f (by decide) (by simpa using hf)
  simp only [List.map_nil, List.nil_append, List.length_nil, Nat.sub_zero, Nat.zero_add] at h
  rcases h with ⟨more, r, e, hl, hm, h1, h2, h3⟩ | h | h
  · refine Or.inl ?_
    obtain ⟨a, b, c, d, rfl⟩ : ∃ a b c d, more = [a, b, c, d] := by
      match more, hl with
      | [a, b, c, d], _ => exact ⟨a, b, c, d, rfl⟩
    rw [load_four] at e
    refine ⟨_, r, e, ⟨a, b, c, d, hm 0 (by simp), hm 1 (by simp), hm 2 (by simp), hm 3 (by simp), rfl⟩, h1, h2, h3⟩
  · exact Or.inr (Or.inl h)
  · exact Or.inr (Or.inr h)

/-- **C145.** A device with four more bytes whose `read` does not fail: a number is returned. -/
theorem c145_success (path : String) (little : Bool) (fuel : Nat) (hf : 4 ≤ fuel) (f : File) (v : Nat) (hv : WordAt little f.data f.pos v)
    (hp : ∀ i, i < 4 → ∃ k, f.plan (f.reads + i) = .give k) : ∃ r, next path little fuel f = .ok v { f with pos := f.pos + 4, reads := r } ∧ r ≤ f.reads + 4 := by
  obtain ⟨a, b, c, d, ha, hb, hc, hd, rfl⟩ := hv
  rcases c145_next path little fuel hf f with ⟨v, r, e, ⟨a', b', c', d', ha', hb', hc', hd', rfl⟩, -, h2, -⟩ | ⟨e, n, r, he, hn, -, h1, h2, h3, -⟩ | ⟨n, r, he, hn, -, -, -, h3, -⟩
  · rw [ha, Option.some.injEq] at ha'
    rw [hb, Option.some.injEq] at hb'
    rw [hc, Option.some.injEq] at hc'
    rw [hd, Option.some.injEq] at hd'
    subst ha' hb' hc' hd'
    exact ⟨r, e, h2⟩
  · obtain ⟨k, hk⟩ := hp (r - f.reads) (by omega)
    rw [show f.reads + (r - f.reads) = r by omega, h3] at hk
    cases hk
  · have : n = 0 ∨ n = 1 ∨ n = 2 ∨ n = 3 := by omega
    rcases this with rfl | rfl | rfl | rfl
    · rw [Nat.add_zero, ha] at h3; cases h3
    · rw [hb] at h3; cases h3
    · rw [hc] at h3; cases h3
    · rw [hd] at h3; cases h3

/-- **C145.** Every number from `min()` to `max()` is made by exactly one string of four bytes, and no other number by any: independent uniform bytes give
uniform numbers. The entropy reported is between zero and the logarithm of `max() + 1`. -/
theorem c145_uniform (little : Bool) (v : Nat) :
    ((minv ≤ v ∧ v ≤ maxv) ↔ ∃ p : Fin 256 × Fin 256 × Fin 256 × Fin 256, wordOf little p.1 p.2.1 p.2.2.1 p.2.2.2 = v) ∧
    (∀ p q : Fin 256 × Fin 256 × Fin 256 × Fin 256, wordOf little p.1 p.2.1 p.2.2.1 p.2.2.2 = wordOf little q.1 q.2.1 q.2.2.1 q.2.2.2 → p = q) ∧
    minv ≤ entropy ∧ 2 ^ entropy ≤ maxv + 1 := by
  refine ⟨⟨fun h => ?_, ?_⟩, ?_, by decide, by decide⟩
  · have hv : v < 2 ^ 32 := by have := h.2; unfold maxv at this; omega
    let a : Fin 256 := ⟨v % 256, by omega⟩
    let b : Fin 256 := ⟨v / 256 % 256, by omega⟩
    let c : Fin 256 := ⟨v / 65536 % 256, by omega⟩
    let d : Fin 256 := ⟨v / 16777216 % 256, by omega⟩
    cases little
    · refine ⟨(d, c, b, a), ?_⟩
      simp only [wordOf, a, b, c, d]
      simp
      omega
    · refine ⟨(a, b, c, d), ?_⟩
      simp only [wordOf, a, b, c, d]
      simp
      omega
  · rintro ⟨p, rfl⟩
    have := wordOf_lt little p.1 p.2.1 p.2.2.1 p.2.2.2
    exact ⟨Nat.zero_le _, by unfold maxv; omega⟩
  · rintro ⟨a, b, c, d⟩ ⟨a', b', c', d'⟩ h
    cases little <;> simp only [wordOf, Bool.false_eq_true, if_false, if_true] at h <;>
      · simp only [Prod.mk.injEq, Fin.ext_iff]
        omega

/-- **C145.** `generate` stores consecutive numbers: element `i` is made of the bytes `4 i` to `4 i + 3` from the position on. If it ends, the range is full and
`4 n` bytes are consumed; if it throws, the numbers before are stored, and less than four further bytes are lost. -/
theorem c145_generate (path : String) (little : Bool) (fuel : Nat) (hf : 4 ≤ fuel) (n : Nat) (f : File) :
    ∃ vs res, generate path little fuel n f = (vs, res) ∧ vs.length ≤ n ∧ (∀ i (h : i < vs.length), WordAt little f.data (f.pos + 4 * i) vs[i]) ∧
      ((vs.length = n ∧ ∃ r, res = .ok () { f with pos := f.pos + 4 * n, reads := r } ∧ r ≤ f.reads + 4 * n) ∨
       (vs.length < n ∧ ∃ e m r, res = .throws e { f with pos := f.pos + 4 * vs.length + m, reads := r } ∧ m < 4 ∧ r ≤ f.reads + 4 * n ∧
          ((f.data (f.pos + 4 * vs.length + m) = none ∧ e = error path "EOF while reading" 0) ∨
            ∃ no, f.plan (r - 1) = .fail no ∧ e = error path "error while reading" no))) := by
  induction n generalizing f with
  | zero => exact ⟨[], _, rfl, le_refl _, fun i h => by simp at h, Or.inl ⟨rfl, f.reads, rfl, by omega⟩⟩
  | succ n ih =>
    rw [generate]
    rcases c145_next path little fuel hf f with ⟨v, r, e, hw, h1, h2, -⟩ | ⟨e, m, r, he, hm, -, h1, h2, h3, -⟩ | ⟨m, r, he, hm, -, h1, h2, h3, -⟩
    · rw [e]
      obtain ⟨vs, res, hg, hl, hws, hres⟩ := ih { f with pos := f.pos + 4, reads := r }
      dsimp only at hg hws hres ⊢
      rw [hg]
      refine ⟨v :: vs, res, rfl, by simp; omega, fun i h => ?_, ?_⟩
      · cases i with
        | zero => simpa using hw
        | succ i =>
          have := hws i (by simpa using h)
          rw [show f.pos + 4 * (i + 1) = f.pos + 4 + 4 * i by omega]
          simpa using this
      · rcases hres with ⟨hl', r', hr, hr'⟩ | ⟨hl', e, m, r', hr, hm, hr', hc⟩
        · exact Or.inl ⟨by simp [hl'], r', by rw [hr, show f.pos + 4 * (n + 1) = f.pos + 4 + 4 * n by omega], by omega⟩
        · refine Or.inr ⟨by simpa using hl', e, m, r', ?_, hm, by omega, ?_⟩
          · rw [hr, List.length_cons, show f.pos + 4 * (vs.length + 1) + m = f.pos + 4 + 4 * vs.length + m by omega]
          · rw [List.length_cons, show f.pos + 4 * (vs.length + 1) + m = f.pos + 4 + 4 * vs.length + m by omega]
            exact hc
    · rw [he]
      exact ⟨[], _, rfl, by simp, fun i h => by simp at h, Or.inr ⟨by simp, _, m, r + 1, rfl, hm, by omega, Or.inr ⟨e, by simpa using h3, rfl⟩⟩⟩
    · rw [he]
      exact ⟨[], _, rfl, by simp, fun i h => by simp at h, Or.inr ⟨by simp, _, m, r + 1, rfl, hm, by omega, Or.inl ⟨by simpa using h3, rfl⟩⟩⟩

/-- A file of ten bytes, delivered in parts of 1, 2, 3, 1, 2, ... bytes. -/
def tenBytes : File := ⟨fun i => if i < 10 then some (Fin.ofNat 256 (17 * i + 1)) else none, fun i => .give (i % 3), 0, 0⟩

#guard (generate "d" true 4 3 tenBytes).1 == [1 + 18 * 256 + 35 * 65536 + 52 * 16777216, 69 + 86 * 256 + 103 * 65536 + 120 * 16777216]
#guard match (generate "d" true 4 3 tenBytes).2 with | .throws e f => e == error "d" "EOF while reading" 0 && f.pos == 10 | _ => false
example : WordAt true tenBytes.data 0 (1 + 18 * 256 + 35 * 65536 + 52 * 16777216) := ⟨1, 18, 35, 52, rfl, rfl, rfl, rfl, rfl⟩
example : ∀ i, i < 4 → ∃ k, tenBytes.plan (tenBytes.reads + i) = .give k := fun _ _ => ⟨_, rfl⟩

/-- **C145, the documentation.** random_device.hpp:57-58: if the device signals an error or the end of the file, `std::ios_base::failure` is thrown. Another
exception is thrown, in every such case. -/
theorem c145_documented_false (path : String) (little : Bool) (fuel : Nat) (hf : 4 ≤ fuel) (f : File) :
    (∀ g, next path little fuel f ≠ .throws .iosFailure g) ∧ ((∀ v g, next path little fuel f ≠ .ok v g) → ∃ code what g, next path little fuel f = .throws (.systemError code what) g) := by
  rcases c145_next path little fuel hf f with ⟨v, r, e, -⟩ | ⟨e, n, r, he, -⟩ | ⟨n, r, he, -⟩
  · rw [e]; exact ⟨nofun, fun h => absurd rfl (h _ _)⟩
  · rw [he]; exact ⟨nofun, fun _ => ⟨_, _, _, rfl⟩⟩
  · rw [he]; exact ⟨nofun, fun _ => ⟨_, _, _, rfl⟩⟩

example : next "d" true 4 { tenBytes with pos := 8 } = .throws (.systemError 0 "boost::random_device: EOF while reading random-number pseudo-device d") { tenBytes with pos := 10, reads := 3 } := rfl

/-! ## C146: descriptors -/

/-- The bookkeeping is kept by every action. -/
theorem step_inv {little : Bool} {fuel : Nat} {base : List (Nat × File)} {s s' : Prog} {a : Action} {r : Reply} (h : Inv base s) (hs : step little fuel s a = .reply r s') :
    Inv base s' := by
  obtain ⟨⟨L, hL, hperm⟩, hfds, hnames⟩ := h
  cases a with
  | create name token =>
    rw [step] at hs
    split at hs
    · cases hs
    · rename_i hname
      unfold construct Os.open at hs
      cases ho : s.os.opens s.os.opened token with
      | fail e =>
        rw [ho] at hs
        simp only [StepResult.reply.injEq] at hs
        obtain ⟨-, rfl⟩ := hs
        exact ⟨⟨L, hL, hperm⟩, hfds, hnames⟩
      | ok data plan =>
        rw [ho] at hs
        simp only [StepResult.reply.injEq] at hs
        obtain ⟨-, rfl⟩ := hs
        refine ⟨⟨_ :: L, congrArg (List.cons _) hL, ?_⟩, ?_, ?_⟩
        · exact hperm.cons _
        · simpa using ⟨by simpa using open_free s.os.table hfds, hfds⟩
        · simpa using ⟨by simpa using hname, hnames⟩
  | use name =>
    rw [step] at hs
    split at hs
    · cases hs
    · rename_i q hq
      unfold call at hs
      cases hf : s.os.table.find? (fun r => r.1 = q.2.fd) with
      | none =>
        rw [hf] at hs
        simp only [StepResult.reply.injEq] at hs
        obtain ⟨-, rfl⟩ := hs
        exact ⟨⟨L, hL, hperm⟩, hfds, hnames⟩
      | some t =>
        rw [hf] at hs
        have key : ∀ f : File, Inv base ⟨s.alive, { s.os with table := s.os.table.map fun r => if r.1 = q.2.fd then (r.1, f) else r }⟩ := fun f => by
          have hfst : ∀ l : List (Nat × File), (l.map fun r => if r.1 = q.2.fd then (r.1, f) else r).map Prod.fst = l.map Prod.fst := fun l => by
            rw [List.map_map]
            refine List.map_congr_left fun r _ => ?_
            simp only [Function.comp]
            split <;> rfl
          have hqm : q ∈ s.alive := List.mem_of_find?_eq_some hq
          have hin : q.2.fd ∈ L.map Prod.fst := hperm.mem_iff.2 (List.mem_map.2 ⟨q, hqm, rfl⟩)
          have hout : q.2.fd ∉ base.map Prod.fst := fun hb => by
            rw [hL, List.map_append] at hfds
            exact (List.nodup_append.1 hfds).2.2 _ hin _ hb rfl
          refine ⟨⟨L.map fun r => if r.1 = q.2.fd then (r.1, f) else r, ?_, by rw [hfst]; exact hperm⟩, by rw [hfst]; exact hfds, hnames⟩
          show s.os.table.map _ = _
          rw [hL, List.map_append]
          congr 1
          conv_rhs => rw [← List.map_id base]
          refine List.map_congr_left fun r hr => ?_
          rw [if_neg]
          · rfl
          · rintro e; exact hout (e ▸ List.mem_map_of_mem hr)
        dsimp only at hs
        cases hn : next q.2.path little fuel t.2 with
        | ok v f => rw [hn] at hs; simp only [StepResult.reply.injEq] at hs; obtain ⟨-, rfl⟩ := hs; exact key f
        | throws e f => rw [hn] at hs; simp only [StepResult.reply.injEq] at hs; obtain ⟨-, rfl⟩ := hs; exact key f
        | ub => rw [hn] at hs; cases hs
        | stuck => rw [hn] at hs; cases hs
  | drop name =>
    rw [step] at hs
    split at hs
    · cases hs
    · rename_i q hq
      have hqm : q ∈ s.alive := List.mem_of_find?_eq_some hq
      have hqn : q.1 = name := by simpa using List.find?_some hq
      have hin : q.2.fd ∈ L.map Prod.fst := hperm.mem_iff.2 (List.mem_map.2 ⟨q, hqm, rfl⟩)
      have hfds' := hfds
      rw [hL, List.map_append] at hfds'
      have hout : q.2.fd ∉ base.map Prod.fst := fun hb => (List.nodup_append.1 hfds').2.2 _ hin _ hb rfl
      unfold destroy Os.close at hs
      rw [if_pos (by rw [hL, List.map_append]; exact List.mem_append_left _ hin)] at hs
      cases hc : s.os.closes s.os.closed with
      | some e => rw [hc] at hs; cases hs
      | none =>
        rw [hc] at hs
        simp only [StepResult.reply.injEq] at hs
        obtain ⟨-, rfl⟩ := hs
        refine ⟨⟨L.filter (fun p => p.1 ≠ q.2.fd), ?_, ?_⟩, ?_, ?_⟩
        · show s.os.table.filter _ = _
          rw [hL, List.filter_append, filter_ne_of_notMem hout]
        · obtain ⟨t, ht, hte⟩ := List.mem_map.1 hin
          have p1 := map_filter_erase Prod.fst q.2.fd (List.nodup_append.1 hfds').1 ht hte
          have p2 := map_filter_erase (fun q : Nat × Impl => q.2.fd) name hnames hqm hqn
          rw [hte] at p1
          exact (List.perm_cons _).1 (p1.symm.trans (hperm.trans p2))
        · exact hfds.sublist (List.filter_sublist.map _)
        · exact hnames.sublist (List.filter_sublist.map _)

theorem exec_inv {little : Bool} {fuel : Nat} {base : List (Nat × File)} {s s' : Prog} {as : List Action} {rs : List Reply} (h : Inv base s) (hs : exec little fuel s as = some (rs, s')) :
    Inv base s' := by
  induction as generalizing s rs with
  | nil =>
    simp only [exec, Option.some.injEq, Prod.mk.injEq] at hs
    exact hs.2 ▸ h
  | cons a as ih =>
    rw [exec] at hs
    cases hst : step little fuel s a with
    | ub => rw [hst] at hs; cases hs
    | terminate => rw [hst] at hs; cases hs
    | reply r s1 =>
      rw [hst] at hs
      simp only [Option.map_eq_some_iff] at hs
      obtain ⟨p, hp, e⟩ := hs
      rw [Prod.mk.injEq] at e
      exact ih (step_inv h hst) (s := s1) (rs := p.1) (by rw [hp, ← e.2])

theorem start_inv (o : Os) (h : (o.table.map Prod.fst).Nodup) : Inv o.table ⟨[], o⟩ := ⟨⟨[], by simp, by simp⟩, h, by simp⟩

/-- **C146.** After any program that started without devices: the descriptors in use are those the system had before, with their files untouched, and one for
each object alive, all different; constructors that threw and calls that threw have left nothing behind. When all objects are destroyed the table
is what it was. -/
theorem c146_descriptors (little : Bool) (fuel : Nat) (o : Os) (ho : (o.table.map Prod.fst).Nodup) (as : List Action) (rs : List Reply) (s : Prog)
    (h : exec little fuel ⟨[], o⟩ as = some (rs, s)) :
    (∃ L, s.os.table = L ++ o.table ∧ (L.map Prod.fst).Perm (s.alive.map fun q => q.2.fd)) ∧ (s.os.table.map Prod.fst).Nodup ∧
    (s.alive = [] → s.os.table = o.table) := by
  have hi := exec_inv (start_inv o ho) h
  refine ⟨hi.table, hi.fds, fun h0 => ?_⟩
  obtain ⟨L, hL, hp⟩ := hi.table
  rw [h0, List.map_nil, List.perm_nil, List.map_eq_nil_iff] at hp
  rw [hL, hp, List.nil_append]

/-- **C146.** At any point of such a program: creating an object under a new name and using an object alive have no undefined behaviour and do not end the
program; destroying an object alive has none either, and ends the program exactly if `close` reports an error. -/
theorem c146_safe (little : Bool) (fuel : Nat) (hf : 4 ≤ fuel) (o : Os) (ho : (o.table.map Prod.fst).Nodup) (as : List Action) (rs : List Reply) (s : Prog)
    (h : exec little fuel ⟨[], o⟩ as = some (rs, s)) (name : Nat) :
    (∀ token, name ∉ s.alive.map Prod.fst → ∃ r s', step little fuel s (.create name token) = .reply r s') ∧
    (name ∈ s.alive.map Prod.fst → ∃ r s', step little fuel s (.use name) = .reply r s') ∧
    (name ∈ s.alive.map Prod.fst → (∃ s', step little fuel s (.drop name) = .reply .dropped s') ∨
      (step little fuel s (.drop name) = .terminate ∧ s.os.closes s.os.closed ≠ none)) := by
  obtain ⟨⟨L, hL, hperm⟩, hfds, hnames⟩ := exec_inv (start_inv o ho) h
  refine ⟨fun token hn => ?_, fun hn => ?_, fun hn => ?_⟩
  · rw [step, if_neg hn]
    unfold construct Os.open
    cases ho : s.os.opens s.os.opened token with
    | fail e => exact ⟨_, _, rfl⟩
    | ok data plan => exact ⟨_, _, rfl⟩
  · obtain ⟨q, hq, rfl⟩ := List.mem_map.1 hn
    rw [step, find_alive hnames hq]
    dsimp only
    unfold call
    cases hfd : s.os.table.find? (fun r => r.1 = q.2.fd) with
    | none => exact ⟨_, _, rfl⟩
    | some t =>
      dsimp only
      rcases c145_next q.2.path little fuel hf t.2 with ⟨v, r, e, -⟩ | ⟨e, n, r, he, -⟩ | ⟨n, r, he, -⟩
      · rw [e]; exact ⟨_, _, rfl⟩
      · rw [he]; exact ⟨_, _, rfl⟩
      · rw [he]; exact ⟨_, _, rfl⟩
  · obtain ⟨q, hq, rfl⟩ := List.mem_map.1 hn
    rw [step, find_alive hnames hq]
    dsimp only
    unfold destroy Os.close
    have hin : q.2.fd ∈ L.map Prod.fst := hperm.mem_iff.2 (List.mem_map.2 ⟨q, hq, rfl⟩)
    rw [if_pos (by rw [hL, List.map_append]; exact List.mem_append_left _ hin)]
    cases hc : s.os.closes s.os.closed with
    | some e => exact Or.inr ⟨rfl, nofun⟩
    | none => exact Or.inl ⟨_, rfl⟩

/-- **C146.** Devices do not disturb one another: a call reads from the file of its own object, which exists, returns or throws what `next` does there, and leaves
every other file as it is. -/
theorem c146_isolated (little : Bool) (fuel : Nat) (o : Os) (ho : (o.table.map Prod.fst).Nodup) (as : List Action) (rs : List Reply) (s : Prog)
    (h : exec little fuel ⟨[], o⟩ as = some (rs, s)) (name : Nat) (p : Impl) (hp : (name, p) ∈ s.alive) :
    ∃ f, (p.fd, f) ∈ s.os.table ∧
      (∀ v f', next p.path little fuel f = .ok v f' → ∃ s', step little fuel s (.use name) = .reply (.value v) s' ∧ s'.alive = s.alive ∧
        ∀ q, q ∈ s'.os.table ↔ q = (p.fd, f') ∨ (q ∈ s.os.table ∧ q.1 ≠ p.fd)) ∧
      (∀ e f', next p.path little fuel f = .throws e f' → ∃ s', step little fuel s (.use name) = .reply (.caught e) s' ∧ s'.alive = s.alive ∧
        ∀ q, q ∈ s'.os.table ↔ q = (p.fd, f') ∨ (q ∈ s.os.table ∧ q.1 ≠ p.fd)) := by
  obtain ⟨⟨L, hL, hperm⟩, hfds, hnames⟩ := exec_inv (start_inv o ho) h
  have hin : p.fd ∈ s.os.table.map Prod.fst := by
    rw [hL, List.map_append]
    exact List.mem_append_left _ (hperm.mem_iff.2 (List.mem_map.2 ⟨_, hp, rfl⟩))
  obtain ⟨⟨n, f⟩, ht, hte⟩ := List.mem_map.1 hin
  obtain rfl : n = p.fd := hte
  have hfind := find_alive hfds ht
  have hfa := find_alive hnames hp
  dsimp only at hfind hfa
  have key : ∀ f' : File, ∀ q, q ∈ (s.os.table.map fun r => if r.1 = p.fd then (r.1, f') else r) ↔ q = (p.fd, f') ∨ (q ∈ s.os.table ∧ q.1 ≠ p.fd) := fun f' q => by
    rw [List.mem_map]
    constructor
    · rintro ⟨r, hr, rfl⟩
      by_cases hrf : r.1 = p.fd
      · rw [if_pos hrf, hrf]; exact Or.inl rfl
      · rw [if_neg hrf]; exact Or.inr ⟨hr, hrf⟩
    · rintro (rfl | ⟨hq, hne⟩)
      · exact ⟨_, ht, by rw [if_pos rfl]⟩
      · exact ⟨q, hq, by rw [if_neg hne]⟩
  refine ⟨f, ht, fun v f' hn => ?_, fun e f' hn => ?_⟩
  · rw [step, hfa]
    dsimp only
    unfold call
    rw [hfind]
    dsimp only
    rw [hn]
    exact ⟨_, rfl, rfl, key f'⟩
  · rw [step, hfa]
    dsimp only
    unfold call
    rw [hfind]
    dsimp only
    rw [hn]
    exact ⟨_, rfl, rfl, key f'⟩

/-- **C146.** A new object reads its device from the first byte on, through a descriptor that was free. -/
theorem c146_create (little : Bool) (fuel : Nat) (o : Os) (ho : (o.table.map Prod.fst).Nodup) (as : List Action) (rs : List Reply) (s : Prog)
    (h : exec little fuel ⟨[], o⟩ as = some (rs, s)) (name : Nat) (token : String) (hn : name ∉ s.alive.map Prod.fst) :
    (∀ data plan, s.os.opens s.os.opened token = .ok data plan → ∃ fd s', step little fuel s (.create name token) = .reply .created s' ∧
      s'.alive = (name, ⟨token, fd⟩) :: s.alive ∧ s'.os.table = (fd, ⟨data, plan, 0, 0⟩) :: s.os.table ∧ fd ∉ s.os.table.map Prod.fst) ∧
    (∀ e, s.os.opens s.os.opened token = .fail e → ∃ s', step little fuel s (.create name token) =
      .reply (.caught (.systemError e ("boost::random_device: cannot open random-number pseudo-device " ++ token))) s' ∧ s'.alive = s.alive ∧ s'.os.table = s.os.table) := by
  have hi := exec_inv (start_inv o ho) h
  refine ⟨fun data plan he => ?_, fun e he => ?_⟩
  · rw [step, if_neg hn]
    unfold construct Os.open
    rw [he]
    exact ⟨_, _, rfl, rfl, rfl, open_free _ hi.fds⟩
  · rw [step, if_neg hn]
    unfold construct Os.open
    rw [he]
    exact ⟨_, rfl, rfl, rfl⟩

/-- A system with the descriptors 0 and 2 in use: the third attempt to open a device fails. -/
def someOs : Os := ⟨[(0, tenBytes), (2, tenBytes)], fun n _ => if n = 2 then .fail 24 else .ok tenBytes.data tenBytes.plan, fun _ => none, 0, 0⟩

/-- Two devices used in turn, the second until its end; an object that cannot be created; both destroyed. -/
def someActions : List Action :=
  [.create 1 "a", .create 2 "b", .use 1, .use 2, .create 3 "c", .use 2, .use 2, .use 1, .drop 1, .drop 2]

#guard (exec true 4 ⟨[], someOs⟩ (someActions.take 2)).map (fun r => r.2.os.table.map Prod.fst) == some [3, 1, 0, 2]
#guard (exec true 4 ⟨[], someOs⟩ someActions).map (fun r => (r.1, r.2.os.table.map Prod.fst)) ==
  some ([.created, .created, .value 874713601, .value 874713601, .caught (.systemError 24 "boost::random_device: cannot open random-number pseudo-device c"),
    .value 2020038213, .caught (.systemError 0 "boost::random_device: EOF while reading random-number pseudo-device b"), .value 2020038213, .dropped, .dropped], [0, 2])

/-- **C146, the destructor.** It throws if `close` reports an error; destructors do not throw, so the program ends. -/
theorem c146_destructor_false : ∃ (o : Os) (s : Prog) (rs : List Reply), exec true 4 ⟨[], o⟩ [.create 1 "a"] = some (rs, s) ∧ step true 4 s (.drop 1) = .terminate :=
  ⟨{ someOs with closes := fun _ => some 5 }, _, _, rfl, rfl⟩

end RandomDevice
end Boost.Random
