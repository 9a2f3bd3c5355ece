import Verif.Proofs.Expected
import Verif.Proofs.DiscreteSample

/-! Mean running time of `discrete_distribution` with integer weights. -/

namespace Boost.Random
open Spec Finset

section bind
variable {α β : Type} [DecidableEq α] [DecidableEq β] (E : EngInfo)

theorem mu_succ_local (q : List Int → Draw α) (hE : E.min ≤ E.max) (hq : LocalOn E q) (hn : ∀ u rest, q [] ≠ .done u rest) (n : Nat) :
    mu E q (n + 1) = 1 + (∑ d ∈ range E.b, mu E (fun xs => q ((E.min + (d : Int)) :: xs)) n) / E.b := by
  have hb := b_pos E
  have h1 : ∀ d ∈ range E.b, avg E (fun xs => (usedOf q ((E.min + (d : Int)) :: xs) : ℚ)) n =
      1 + mu E (fun xs => q ((E.min + (d : Int)) :: xs)) n := by
    intro d hd
    have hd' := mem_range.1 hd
    unfold mu
    refine Eq.trans ?_ (congrArg (· + _) (avg_const E 1 n))
    rw [← avg_add]
    apply avg_congr E hE
    intro xs hxs _
    have hl := hq.deriv hn hE hd'
    have : usedOf q ((E.min + (d : Int)) :: xs) = 1 + usedOf (fun xs => q ((E.min + (d : Int)) :: xs)) xs := by
      simp only [usedOf]
      cases hc : q ((E.min + (d : Int)) :: xs) with
      | more => simp only [List.length_cons]; omega
      | ub => simp only [List.length_cons]; omega
      | done u rest =>
        obtain ⟨pre, h2, _⟩ := hl xs u rest hxs hc
        have h3 : rest.length ≤ xs.length := by rw [h2]; simp
        simp only [List.length_cons]
        omega
    rw [this]
    push_cast
    rfl
  show (∑ d ∈ range E.b, avg E (fun xs => (usedOf q ((E.min + (d : Int)) :: xs) : ℚ)) n) / (E.b : ℚ) = _
  rw [sum_congr rfl h1, sum_add_distrib, sum_const, card_range, nsmul_eq_mul, mul_one, add_div, div_self hb.ne']

theorem rho_nonneg (hE : E.min ≤ E.max) (q : List Int → Draw α) (n : Nat) (v : α) : 0 ≤ rho E q n v := by
  rw [← avg_const E 0 n]
  apply avg_mono E hE
  intro xs _ _
  split <;> norm_num

/-- two programs in turn -/
theorem mu_bind (hE : E.min ≤ E.max) (f : α → List Int → Draw β) (U : Finset α) (B : α → ℚ) (hB : ∀ u, 0 ≤ B u) (n : Nat) :
    ∀ (q : List Int → Draw α), LocalOn E q → (∀ xs u rest, Outputs E xs → q xs = .done u rest → u ∈ U) →
    (∀ u j, j ≤ n → mu E (f u) j ≤ B u) →
    mu E (fun xs => (q xs).bind f) n ≤ mu E q n + ∑ u ∈ U, rho E q n u * B u := by
  have hb := b_pos E
  induction n with
  | zero =>
    intro q _ _ _
    rw [mu_zero, mu_zero, zero_add]
    exact sum_nonneg fun u _ => mul_nonneg (rho_nonneg E hE q 0 u) (hB u)
  | succ n ih =>
    intro q hq hU hf
    rcases hq.cases with ⟨u, hu⟩ | hn
    · have huU := hU [] u [] Outputs.nil (hu [] Outputs.nil)
      have e1 : mu E (fun xs => (q xs).bind f) (n + 1) = mu E (f u) (n + 1) := by
        apply mu_congr E hE
        intro xs hxs
        rw [hu xs hxs]; rfl
      have e2 : rho E q (n + 1) u = 1 := by
        refine Eq.trans ?_ (avg_const E 1 (n + 1))
        apply avg_congr E hE
        intro xs hxs _
        rw [hu xs hxs]
        simp [returns]
      have e3 : rho E q (n + 1) u * B u ≤ ∑ u ∈ U, rho E q (n + 1) u * B u :=
        single_le_sum (f := fun u => rho E q (n + 1) u * B u) (fun u _ => mul_nonneg (rho_nonneg E hE q _ u) (hB u)) huU
      have e4 := mu_nonneg E q hE (n + 1)
      have e5 := hf u (n + 1) le_rfl
      rw [e2, one_mul] at e3
      rw [e1]
      linarith
    · have h1 := mu_succ E (fun xs => (q xs).bind f) (fun d xs => (q ((E.min + (d : Int)) :: xs)).bind f) hE n (fun d _ xs _ => rfl)
      refine le_trans h1 ?_
      have h2 : ∀ d ∈ range E.b, mu E (fun xs => (q ((E.min + (d : Int)) :: xs)).bind f) n ≤
          mu E (fun xs => q ((E.min + (d : Int)) :: xs)) n + ∑ u ∈ U, rho E (fun xs => q ((E.min + (d : Int)) :: xs)) n u * B u := by
        intro d hd
        have hd' := mem_range.1 hd
        apply ih (fun xs => q ((E.min + (d : Int)) :: xs)) (hq.deriv hn hE hd')
        · intro xs u rest hO h
          exact hU _ u rest (outputs_cons hE hd' hO) h
        · intro u j hj
          exact hf u j (by omega)
      have h3 := div_le_div_of_nonneg_right (sum_le_sum h2) hb.le
      rw [sum_add_distrib, add_div] at h3
      rw [mu_succ_local E q hE hq hn n]
      have h4 : (∑ d ∈ range E.b, ∑ u ∈ U, rho E (fun xs => q ((E.min + (d : Int)) :: xs)) n u * B u) / (E.b : ℚ) =
          ∑ u ∈ U, rho E q (n + 1) u * B u := by
        rw [sum_comm, sum_div]
        apply sum_congr rfl
        intro u _
        rw [← sum_mul, mul_div_right_comm]
        rfl
      rw [h4] at h3
      linarith

/-- the second program starts after at least one value -/
theorem mu_bind_lt (hE : E.min ≤ E.max) (f : α → List Int → Draw β) (U : Finset α) (B : α → ℚ) (hB : ∀ u, 0 ≤ B u) (n : Nat)
    (q : List Int → Draw α) (hq : LocalOn E q) (hn : ∀ u rest, q [] ≠ .done u rest)
    (hU : ∀ xs u rest, Outputs E xs → q xs = .done u rest → u ∈ U)
    (hf : ∀ u j, j < n → mu E (f u) j ≤ B u) :
    mu E (fun xs => (q xs).bind f) n ≤ mu E q n + ∑ u ∈ U, rho E q n u * B u := by
  have hb := b_pos E
  cases n with
  | zero =>
    rw [mu_zero, mu_zero, zero_add]
    exact sum_nonneg fun u _ => mul_nonneg (rho_nonneg E hE q 0 u) (hB u)
  | succ n =>
    have h1 := mu_succ E (fun xs => (q xs).bind f) (fun d xs => (q ((E.min + (d : Int)) :: xs)).bind f) hE n (fun d _ xs _ => rfl)
    refine le_trans h1 ?_
    have h2 : ∀ d ∈ range E.b, mu E (fun xs => (q ((E.min + (d : Int)) :: xs)).bind f) n ≤
        mu E (fun xs => q ((E.min + (d : Int)) :: xs)) n + ∑ u ∈ U, rho E (fun xs => q ((E.min + (d : Int)) :: xs)) n u * B u := by
      intro d hd
      have hd' := mem_range.1 hd
      apply mu_bind E hE f U B hB n (fun xs => q ((E.min + (d : Int)) :: xs)) (hq.deriv hn hE hd')
      · intro xs u rest hO h
        exact hU _ u rest (outputs_cons hE hd' hO) h
      · intro u j hj
        exact hf u j (by omega)
    have h3 := div_le_div_of_nonneg_right (sum_le_sum h2) hb.le
    rw [sum_add_distrib, add_div] at h3
    rw [mu_succ_local E q hE hq hn n]
    have h4 : (∑ d ∈ range E.b, ∑ u ∈ U, rho E (fun xs => q ((E.min + (d : Int)) :: xs)) n u * B u) / (E.b : ℚ) =
        ∑ u ∈ U, rho E q (n + 1) u * B u := by
      rw [sum_comm, sum_div]
      apply sum_congr rfl
      intro u _
      rw [← sum_mul, mul_div_right_comm]
      rfl
    rw [h4] at h3
    linarith

end bind

namespace Discrete
open UniformInt
section
variable {E : EngInfo} (hE : EngOK E) {WT T : IntTy} (hWb : 1 ≤ WT.bits) (hTb : 1 ≤ T.bits) {ws : List Nat} {d : IntAlias}
  (H : Holds WT ws d) (hT : ws.length ≤ T.maxv)
include hE hWb hTb H hT

/-- one iteration draws two uniform numbers -/
theorem mu_one (n : Nat) : mu E (one E d) n ≤
    2 * (Nat.log E.b (ws.length - 1) + 2 : Nat) + 2 * (Nat.log E.b d.average + 2 : Nat) := by
  have hpos : 0 < d.table.length := by rw [H.len]; have := H.excess; omega
  have hle := hE.lt.le
  set B2 : ℚ := 2 * (Nat.log E.b d.average + 2 : Nat) with hB2
  have hB20 : 0 ≤ B2 := by rw [hB2]; positivity
  have hsum : ∀ (q : List Int → Draw Nat) (U : Finset Nat) (B : ℚ), 0 ≤ B →
      (∀ xs, Outputs E xs → q xs ≠ Draw.ub ∧ ∀ v rest, q xs = Draw.done v rest → v ∈ U) → ∑ u ∈ U, rho E q n u * B ≤ B := by
    intro q U B hB hs
    have h1 := rho_total E hle q U hs n
    have h2 := sigma_nonneg E hle q n
    rw [← sum_mul]
    nlinarith
  have hK : ∀ N, 0 < N → ∀ xs, Outputs E xs → K E.b (dig E) N xs ≠ Draw.ub ∧ ∀ v rest, K E.b (dig E) N xs = Draw.done v rest → v ∈ range N :=
    fun N hN xs hxs => ⟨(core_rest (EngInfo.b_ge hE) _ _ xs (outputs_dig hE hxs) hN).2, fun v rest h => mem_range.2 (K_done_lt hE hN hxs h).1⟩
  have h2 : ∀ i j, mu E (fun xs => (K E.b (dig E) (d.average + 1) xs).bind fun t xs => Draw.done (res d i t) xs) j ≤ B2 := by
    intro i j
    have := mu_bind E hle (fun t xs => Draw.done (res d i t) xs) (range (d.average + 1)) (fun _ => 0) (fun _ => le_rfl) j
      (K E.b (dig E) (d.average + 1)) (K_local hE (Nat.succ_pos _)) (fun xs u rest hO h => (hK _ (Nat.succ_pos _) xs hO).2 u rest h)
      (fun u j _ => (mu_done E (res d i u) j).le)
    simp only [mul_zero, sum_const_zero, add_zero] at this
    exact le_trans this (mu_K hE (d.average + 1) (Nat.succ_pos _) j)
  have h3 := mu_bind E hle (fun i xs => (K E.b (dig E) (d.average + 1) xs).bind fun t xs => Draw.done (res d i t) xs)
    (range d.table.length) (fun _ => B2) (fun _ => hB20) n (K E.b (dig E) d.table.length) (K_local hE hpos)
    (fun xs u rest hO h => (hK _ hpos xs hO).2 u rest h) (fun i j _ => h2 i j)
  have h4 := mu_K hE d.table.length hpos n
  conv_rhs at h4 => rw [H.len]
  have h5 := hsum (K E.b (dig E) d.table.length) (range d.table.length) B2 hB20 (hK _ hpos)
  show mu E (fun xs => (K E.b (dig E) d.table.length xs).bind fun i xs =>
    (K E.b (dig E) (d.average + 1) xs).bind fun t xs => Draw.done (res d i t) xs) n ≤ _
  linarith

/-- the number of pairs that give `o` -/
def pairs (d : IntAlias) (o : Option Nat) : Nat := ∑ i ∈ range d.table.length, ((range (d.average + 1)).filter fun t => res d i t = o).card

theorem pairs_some (v : Nat) : pairs d (some v) = weightOf ws v := by
  obtain ⟨N, hN⟩ : ∃ N, 0 < pairCount E d N := by
    have hpos : 0 < d.table.length := by rw [H.len]; have := H.excess; omega
    obtain ⟨xs, h1, h2⟩ := K_zero hE d.table.length hpos
    obtain ⟨ys, h3, h4⟩ := K_zero hE (d.average + 1) (Nat.succ_pos _)
    have p1 := cnt_pos _ xs h1 0 h2
    have p2 := cnt_pos _ ys h3 0 h4
    refine ⟨xs.length + ys.length, ?_⟩
    unfold pairCount
    refine lt_of_lt_of_le (Nat.mul_pos p1 p2) ?_
    have := Finset.single_le_sum (f := fun k => cnt E (K E.b (dig E) d.table.length) k 0 *
      cnt E (K E.b (dig E) (d.average + 1)) (xs.length + ys.length - k) 0) (s := range (xs.length + ys.length + 1))
      (fun _ _ => Nat.zero_le _) (mem_range.2 (show xs.length < xs.length + ys.length + 1 by omega))
    simpa using this
  have h1 := cnt_one hE hWb hTb H hT N (some v)
  rw [cnt_one_some hE hWb hTb H hT] at h1
  exact (Nat.eq_of_mul_eq_mul_left hN h1).symm

theorem pairs_total : pairs d none + ws.sum = ws.length * (d.average + 1) := by
  have h1 : ∑ o ∈ insert none ((range ws.length).image some), pairs d o = ws.length * (d.average + 1) := by
    unfold pairs
    rw [sum_comm]
    have : ∀ i ∈ range d.table.length, ∑ o ∈ insert none ((range ws.length).image some),
        ((range (d.average + 1)).filter fun t => res d i t = o).card = d.average + 1 := by
      intro i hi
      rw [← card_eq_sum_card_fiberwise (s := range (d.average + 1)) (f := fun t => res d i t), card_range]
      intro t _
      rw [Finset.mem_coe]
      simp only
      cases hr : res d i t with
      | none => exact mem_insert_self _ _
      | some v =>
        have := res_mem hE hWb hTb H hT (mem_range.1 hi) hr
        simp [this]
    rw [sum_congr rfl this, sum_const, card_range, smul_eq_mul, H.len]
  rw [sum_insert (by simp), sum_image (by simp)] at h1
  rw [← h1]
  congr 1
  rw [sum_congr rfl (fun v _ => pairs_some hE hWb hTb H hT v)]
  have : ∀ l : List Nat, l.sum = ∑ v ∈ range l.length, l.getD v 0 := by
    intro l
    induction l with
    | nil => rfl
    | cons x l ih => rw [List.sum_cons, List.length_cons, sum_range_succ', ih, Nat.add_comm]; rfl
  exact this ws

theorem rho_one (n : Nat) : rho E (one E d) n none * (ws.length * (d.average + 1) : Nat) ≤ (ws.length * (d.average + 1) : Nat) - (ws.sum : ℚ) := by
  have hle := hE.lt.le
  obtain ⟨P, hP⟩ : ∃ P : ℚ, P = ∑ j ∈ range (n + 1), (pairCount E d j : ℚ) / (E.b : ℚ) ^ j := ⟨_, rfl⟩
  have h1 : ∀ o, rho E (one E d) n o = P * pairs d o := by
    intro o
    rw [rho_eq_sum E hle n _ (one_local hE hWb hTb H hT), hP, sum_mul]
    apply sum_congr rfl
    intro j _
    rw [cnt_one hE hWb hTb H hT]
    unfold pairs
    push_cast
    ring
  have h2 := rho_total E hle (one E d) (insert none ((range ws.length).image some))
    (fun xs hxs => ⟨one_not_ub hE hWb hTb H hT xs hxs, fun o rest h => (one_mem hE hWb hTb H hT xs hxs o rest h).1⟩) n
  have h3 := sigma_nonneg E hle (one E d) n
  have h4 := pairs_total hE hWb hTb H hT
  rw [sum_congr rfl (fun o _ => h1 o), ← mul_sum, sum_insert (by simp), sum_image (by simp),
    sum_congr rfl (fun v _ => by rw [pairs_some hE hWb hTb H hT v])] at h2
  have h5 : ∀ l : List Nat, l.sum = ∑ v ∈ range l.length, l.getD v 0 := by
    intro l
    induction l with
    | nil => rfl
    | cons x l ih => rw [List.sum_cons, List.length_cons, sum_range_succ', ih, Nat.add_comm]; rfl
  have h6 : (∑ v ∈ range ws.length, (weightOf ws v : ℚ)) = ws.sum := by
    rw [h5 ws]; push_cast; rfl
  rw [h6] at h2
  have h7 : (pairs d none : ℚ) + ws.sum = (ws.length * (d.average + 1) : Nat) := by exact_mod_cast h4
  rw [h7] at h2
  rw [h1, ← h7]
  rw [← h7] at h2
  have h8 : (0 : ℚ) ≤ pairs d none := Nat.cast_nonneg _
  nlinarith

theorem one_nil (hs : 0 < ws.sum) (u : Option Nat) (rest : List Int) : one E d [] ≠ .done u rest := by
  intro h
  have := one_reads hE hWb hTb H hT hs [] Outputs.nil u rest h
  simp at this

theorem mu_next (hs : 0 < ws.sum) (n : Nat) : mu E (IntAlias.next E WT T d) n ≤
    (2 * (Nat.log E.b (ws.length - 1) + 2 : Nat) + 2 * (Nat.log E.b d.average + 2 : Nat)) *
      ((ws.length * (d.average + 1) : Nat) / (ws.sum : ℚ)) := by
  have hle := hE.lt.le
  have hsq : (0 : ℚ) < ws.sum := by exact_mod_cast hs
  set A : ℚ := 2 * (Nat.log E.b (ws.length - 1) + 2 : Nat) + 2 * (Nat.log E.b d.average + 2 : Nat) with hA
  have hA0 : 0 ≤ A := by rw [hA]; positivity
  set Q : ℚ := ((ws.length * (d.average + 1) : Nat) : ℚ) with hQ
  have hQ0 : 0 ≤ Q := by rw [hQ]; positivity
  induction n using Nat.strong_induction_on with
  | _ n ih =>
    have h1 : ∀ xs, Outputs E xs → IntAlias.next E WT T d xs = (one E d xs).bind fun o xs =>
        match o with
        | some v => .done v xs
        | none => IntAlias.next E WT T d xs := by
      intro xs hxs
      rw [next_eq hE hWb hTb H hT hs xs hxs]
      cases one E d xs with
      | more => rfl
      | ub => rfl
      | done o rest => cases o <;> rfl
    rw [mu_congr E hle h1]
    have h2 := mu_bind_lt E hle (fun o xs =>
        match o with
        | some v => Draw.done v xs
        | none => IntAlias.next E WT T d xs) (insert none ((range ws.length).image some))
      (fun o => if o = none then A * (Q / ws.sum) else 0) (fun o => by split <;> positivity) n (one E d) (one_local hE hWb hTb H hT)
      (one_nil hE hWb hTb H hT hs) (fun xs u rest hO h => (one_mem hE hWb hTb H hT xs hO u rest h).1) (by
        intro o j hj
        cases o with
        | some v =>
          simp only [reduceCtorEq, if_false]
          exact (mu_done E v j).le
        | none =>
          simp only [if_true]
          exact ih j hj)
    refine le_trans h2 ?_
    rw [sum_insert (by simp), sum_image (by simp)]
    simp only [if_true, reduceCtorEq, if_false, mul_zero, sum_const_zero, add_zero]
    have h3 := mu_one hE hWb hTb H hT n
    have h4 := rho_one hE hWb hTb H hT n
    have h5 : rho E (one E d) n none * (A * (Q / ws.sum)) ≤ A * (Q / ws.sum) - A := by
      have e1 : rho E (one E d) n none * (A * (Q / ws.sum)) = A * (rho E (one E d) n none * Q / ws.sum) := by ring
      have e2 : A * (Q / ws.sum) - A = A * ((Q - ws.sum) / ws.sum) := by field_simp
      rw [e1, e2]
      apply mul_le_mul_of_nonneg_left _ hA0
      exact div_le_div_of_nonneg_right h4 hsq.le
    linarith

theorem next_local (hs : 0 < ws.sum) : LocalOn E (IntAlias.next E WT T d) := by
  have key : ∀ (l : Nat) (xs : List Int) (v : Nat) (rest : List Int), xs.length ≤ l → Outputs E xs →
      IntAlias.next E WT T d xs = .done v rest →
      ∃ pre, xs = pre ++ rest ∧ ∀ ys, Outputs E ys → IntAlias.next E WT T d (pre ++ ys) = .done v ys := by
    intro l
    induction l using Nat.strong_induction_on with
    | _ l ih =>
    intro xs v rest hl hxs h
    rw [next_eq hE hWb hTb H hT hs xs hxs] at h
    cases h1 : one E d xs with
    | more => rw [h1] at h; cases h
    | ub => rw [h1] at h; cases h
    | done o rest' =>
      obtain ⟨pre, e1, e2⟩ := one_local hE hWb hTb H hT xs o rest' hxs h1
      have hr := one_reads hE hWb hTb H hT hs xs hxs o rest' h1
      have hO' : Outputs E (pre ++ rest') := by rw [← e1]; exact hxs
      rw [h1] at h
      cases o with
      | some w =>
        simp only [Draw.done.injEq] at h
        obtain ⟨rfl, rfl⟩ := h
        refine ⟨pre, e1, fun ys hys => ?_⟩
        rw [next_eq hE hWb hTb H hT hs _ (Outputs.append (Outputs.left hO') hys), e2 ys hys]
      | none =>
        simp only at h
        obtain ⟨pre', e3, e4⟩ := ih rest'.length (by omega) rest' v rest le_rfl (Outputs.right hO') h
        have hO2 : Outputs E (pre' ++ rest) := by rw [← e3]; exact Outputs.right hO'
        refine ⟨pre ++ pre', by rw [e1, e3, List.append_assoc], fun ys hys => ?_⟩
        have h5 := Outputs.append (Outputs.left hO2) hys
        rw [List.append_assoc, next_eq hE hWb hTb H hT hs _ (Outputs.append (Outputs.left hO') h5), e2 _ h5]
        exact e4 ys hys
  intro xs v rest hxs h
  exact key _ xs v rest le_rfl hxs h

end
end Discrete
end Boost.Random
