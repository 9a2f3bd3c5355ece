import Verif.Model.Ctor
import Verif.Props.SeedAll

/-!
# Helper lemmas for the choice of constructors
-/

namespace Boost.Random
namespace Ctor
open SeedImpl Spec

/-- What a step of `generate` keeps: the number of elements written and left. -/
def Keeps (n : Nat) : GenRes → Prop
  | .ub => True
  | .done out => out.length = n
  | .cont st => st.out.length + st.need = n

theorem put_keeps (n w : Nat) (st : GenState) (h : st.out.length + st.need = n) : Keeps n (put w st) := by
  unfold put
  split
  · trivial
  · next he => simp only [Keeps, List.length_append, List.length_singleton]; omega
  · next he => simp only [Keeps, List.length_append, List.length_singleton]; omega

theorem putWords_keeps (n : Nat) : ∀ (k val : Nat) (st : GenState), st.out.length + st.need = n → Keeps n (putWords k val st).1
  | 0, _, _, h => h
  | k + 1, val, st, h => by
    have hp := put_keeps n (val % 2 ^ 32 &&& 0xFFFFFFFF) st h
    unfold putWords
    split
    · next st' he => rw [he] at hp; exact putWords_keeps n k _ st' hp
    · exact hp

theorem intTail_keeps (n bits avail val : Nat) (st : GenState) (h : st.out.length + st.need = n) :
    Keeps n (intTail bits avail val st) := by
  unfold intTail
  split
  · have hp := putWords_keeps n (avail / 32) val st h
    split
    · next st' v he => rw [he] at hp; exact hp
    · next r v hr he => rw [he] at hp; exact hp
  · exact h

theorem intStep_keeps (n bits val : Nat) (st : GenState) (h : st.out.length + st.need = n) : Keeps n (intStep bits val st) := by
  unfold intStep
  split
  · exact put_keeps n _ st h
  split
  · exact putWords_keeps n _ _ st h
  split
  · exact h
  split
  · simp only
    have hp := put_keeps n (st.saved ||| (((val % 2 ^ 32 &&& (((1 <<< (32 - st.remaining)) % 2 ^ 32 + 2 ^ 32 - 1) % 2 ^ 32))
      <<< st.remaining) % 2 ^ 32)) st h
    split
    · next st' he =>
      rw [he] at hp
      exact intTail_keeps n _ _ _ _ hp
    · exact hp
  · exact intTail_keeps n _ _ _ st h

theorem intLoop_length (E : EngInfo) (n bits mask limit range : Nat) : ∀ (xs : List Int) (st : GenState) (out : List Nat)
    (rest : List Int), st.out.length + st.need = n → intLoop E bits mask limit range xs st = .done out rest →
    out.length = n ∧ rest.length < xs.length
  | [], _, _, _, _, hr => by simp [intLoop] at hr
  | x :: xs, st, out, rest, h, hr => by
    unfold intLoop at hr
    split at hr
    · simp at hr
    · next v hv =>
      split at hr
      · have := intLoop_length E n bits mask limit range xs st out rest h hr
        simp only [List.length_cons]; omega
      · have hk := intStep_keeps n bits (v &&& mask) st h
        split at hr
        · simp at hr
        · next o he =>
          rw [he] at hk
          simp only [Draw.done.injEq] at hr
          obtain ⟨rfl, rfl⟩ := hr
          exact ⟨hk, by simp⟩
        · next st' he =>
          rw [he] at hk
          have := intLoop_length E n bits mask limit range xs st' out rest hk hr
          simp only [List.length_cons]; omega

theorem generate_length (E : EngInfo) (n : Nat) (xs : List Int) (ws : List Nat) (rest : List Int)
    (h : generateFromInt E n xs = .done ws rest) : ws.length = n ∧ rest.length < xs.length := by
  unfold generateFromInt at h
  split at h
  · simp at h
  · simp only at h
    split at h
    · simp at h
    · exact intLoop_length E n _ _ _ _ xs ⟨[], n, 0, 0⟩ ws rest (by simp) h

theorem values_length {σ : Type} (B : Source σ) : ∀ (n : Nat) (s : σ) (vs : List Int), B.values n s = some vs → vs.length = n
  | 0, _, _, h => by simp only [Source.values, Option.some.injEq] at h; subst h; rfl
  | n + 1, s, vs, h => by
    simp only [Source.values, Option.bind_eq_some_iff, Option.map_eq_some_iff] at h
    obtain ⟨p, _, us, hu, rfl⟩ := h
    simp [values_length B n p.2 us hu]

/-- `generate` of an engine: the words are those of `generate_from_int` on its next values, at least one is used, and the
engine has moved by the number of values used. -/
theorem generate_spec {σ : Type} (B : Source σ) (fuel n : Nat) (s s' : σ) (ws : List Nat)
    (h : B.generate fuel n s = some (ws, s')) :
    ws.length = n ∧ ∃ j vs rest, 1 ≤ j ∧ B.values fuel s = some vs ∧ generateFromInt B.info n vs = .done ws rest ∧
      j + rest.length = fuel ∧ B.engine.skip j s = some s' := by
  unfold Source.generate at h
  simp only [Option.bind_eq_some_iff] at h
  obtain ⟨vs, hv, h⟩ := h
  split at h
  · next ws' rest hg =>
    simp only [Option.map_eq_some_iff, Prod.mk.injEq] at h
    obtain ⟨t, ht, rfl, rfl⟩ := h
    obtain ⟨h1, h2⟩ := generate_length B.info n vs ws' rest hg
    have h3 := values_length B fuel s vs hv
    exact ⟨h1, fuel - rest.length, vs, rest, by omega, hv, hg, by omega, ht⟩
  · simp at h

/-- `seed(seq)` of a linear congruential engine when the sequence stores the words `ws`. -/
theorem lcg_seedSeq (E : Lcg) (hT : AnyTy E.T) (hu : E.T.signed = false) (hm : E.m ≤ E.T.maxv) (h1 : E.m ≠ 1)
    (hw : WideOK E.m) (ws : List Nat) (hl : ws.length = wordCount E.T E.m + 3) :
    ∃ x : Nat, E.seedSeq (fun _ => ws) = some (x : Int) ∧ E.seedRange (ws.drop 3) = .ok (x : Int) [] ∧ E.min ≤ x ∧ x ≤ E.max := by
  obtain ⟨s, hs, e1, e2⟩ := seedOneInt_range E.T E.m hT hu hm h1 hw
    (fun n => if n = wordCount E.T E.m + 3 then ws else List.replicate n 0) (fun n => by split <;> simp_all)
  have hc := wordCount_clog E.T E.m hT hm h1
  rw [← hc] at e2
  simp only [if_true] at e2
  have hM : 1 < modulus E.T E.m := by
    obtain ⟨k1, k2, _⟩ := wordCount_spec E.T E.m hT hm h1
    have := Nat.one_le_two_pow (n := 32 * (wordCount E.T E.m - 1)); omega
  obtain ⟨b1, b2, _⟩ := c08_seed E hM (s : Int) (fun h0 => by
    have : modulus E.T E.m = E.T.maxv + 1 := by unfold modulus; rw [if_pos h0]
    omega)
  have hx : ((E.seed s).toNat : Int) = E.seed s := Int.toNat_of_nonneg (le_trans (by positivity) b1)
  refine ⟨(E.seed s).toNat, ?_, ?_, by omega, by omega⟩
  · rw [hx]
    have : seedOneInt E.T E.m (fun _ => ws) = some s := by
      rw [← e1]; simp [seedOneInt]
    unfold Lcg.seedSeq
    rw [this]; rfl
  · unfold Lcg.seedRange
    rw [e2, hx]

end Ctor
end Boost.Random
