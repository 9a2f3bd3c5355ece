import Mathlib.Algebra.Ring.Basic
import Mathlib.Data.Nat.Cast.Commute
import Mathlib.Data.Nat.Bitwise
import Mathlib.Tactic.Ring
import Mathlib.Tactic.NoncommRing

/-!
# Polynomials modulo `2^61 - 1` packed in one number

A polynomial is kept as one natural number with 128 bits for each coefficient, so that the kernel multiplies
two of them with one multiplication. `Rep A b k n M`: the number `n` holds `k` coefficients, none above `b`,
and the polynomial has the value `M` at `A`. Nothing here refers to the code; it is used to check tables and
powers of the MIXMAX matrix by evaluation in the kernel.
-/

namespace Boost.Random.Packed

/-- The number `n` holds `k` coefficients of at most `b`; their polynomial has the value `M` at `A`. -/
inductive Rep {α : Type*} [Ring α] (A : α) (b : Nat) : Nat → Nat → α → Prop
  | nil : Rep A b 0 0 0
  | cons (l k n : Nat) (M : α) (hl : l ≤ b) (h : Rep A b k n M) : Rep A b (k + 1) (l + 2 ^ 128 * n) (l + A * M)

/-- One reduction of all coefficients modulo `2^61 - 1`: the low 61 bits plus the rest. -/
def fold (ml mh n : Nat) : Nat := (n &&& ml) + ((n >>> 61) &&& mh)

/-- `k` times the same 128-bit group. -/
def mask (v : Nat) : Nat → Nat
  | 0 => 0
  | k + 1 => v + 2 ^ 128 * mask v k

/-- The coefficients of `h` times the numbers in the table. -/
def red : List Nat → Nat → Nat
  | [], _ => 0
  | t :: ts, h => (h % 2 ^ 128) * t + red ts (h / 2 ^ 128)

variable {α : Type*} [Ring α] {A : α}

theorem Rep.mono {b b' k n : Nat} {M : α} (h : Rep A b k n M) (hb : b ≤ b') : Rep A b' k n M := by
  induction h with
  | nil => exact .nil
  | cons l k n M hl _ ih => exact .cons l k n M (le_trans hl hb) ih

theorem Rep.zero (b k : Nat) : Rep A b k 0 0 := by
  induction k with
  | zero => exact .nil
  | succ k ih => simpa using Rep.cons 0 k 0 0 (Nat.zero_le b) ih

theorem Rep.pad {b k n : Nat} {M : α} (h : Rep A b k n M) (j : Nat) : Rep A b (k + j) n M := by
  induction h with
  | nil => simpa using Rep.zero b j
  | cons l k n M hl _ ih => rw [Nat.add_right_comm]; exact .cons l _ n M hl ih

theorem Rep.add {b b' k n n' : Nat} {M M' : α} (h : Rep A b k n M) (h' : Rep A b' k n' M') :
    Rep A (b + b') k (n + n') (M + M') := by
  induction h generalizing n' M' with
  | nil => cases h'; simpa using Rep.nil
  | cons l k n M hl _ ih =>
    cases h' with
    | cons l' _ n'' M'' hl' h'' =>
      have := Rep.cons (l + l') k _ _ (Nat.add_le_add hl hl') (ih h'')
      rw [show l + 2 ^ 128 * n + (l' + 2 ^ 128 * n'') = l + l' + 2 ^ 128 * (n + n'') by ring,
        show (l : α) + A * M + (l' + A * M'') = ((l + l' : Nat) : α) + A * (M + M'') by push_cast; noncomm_ring]
      exact this

theorem Rep.smul {b k n : Nat} {M : α} (h : Rep A b k n M) (c : Nat) : Rep A (c * b) k (c * n) (c * M) := by
  induction h with
  | nil => simpa using Rep.nil
  | cons l k n M hl _ ih =>
    have := Rep.cons (c * l) k _ _ (Nat.mul_le_mul_left c hl) ih
    rw [show c * (l + 2 ^ 128 * n) = c * l + 2 ^ 128 * (c * n) by ring,
      show (c : α) * (l + A * M) = ((c * l : Nat) : α) + A * (c * M) by
        rw [mul_add, ← mul_assoc, ← mul_assoc, Nat.cast_mul, (Nat.cast_commute c A).eq]]
    exact this

theorem Rep.mul {b b' k k' n n' : Nat} {M M' : α} (h : Rep A b k n M) (h' : Rep A b' k' n' M') :
    Rep A (k * (b * b')) (k + k') (n * n') (M * M') := by
  induction h with
  | nil => simpa using Rep.zero (A := A) 0 k'
  | cons l k n M hl _ ih =>
    have h1 := (h'.smul l).pad (k + 1)
    have h2 := Rep.cons 0 _ _ _ (Nat.zero_le _) ih
    rw [show k' + (k + 1) = k + k' + 1 by omega] at h1
    have := h1.add h2
    rw [show k + 1 + k' = k + k' + 1 by omega,
      show (l + 2 ^ 128 * n) * n' = l * n' + (0 + 2 ^ 128 * (n * n')) by ring,
      show ((l : α) + A * M) * M' = l * M' + (((0 : Nat) : α) + A * (M * M')) by
        rw [Nat.cast_zero, zero_add, add_mul, mul_assoc]]
    refine this.mono ?_
    have := Nat.mul_le_mul_right b' hl
    rw [Nat.add_mul, Nat.one_mul]
    omega

theorem fold_cons (l n k : Nat) (hl : l < 2 ^ 128) :
    fold (mask (2 ^ 61 - 1) (k + 1)) (mask (2 ^ 67 - 1) (k + 1)) (l + 2 ^ 128 * n) =
      (l % 2 ^ 61 + l / 2 ^ 61) + 2 ^ 128 * fold (mask (2 ^ 61 - 1) k) (mask (2 ^ 67 - 1) k) n := by
  have key : ∀ x y v m : Nat, x < 2 ^ 128 → v < 2 ^ 128 → (x + 2 ^ 128 * y) &&& (v + 2 ^ 128 * m) = (x &&& v) + 2 ^ 128 * (y &&& m) := by
    intro x y v m hx hv
    rw [← Nat.div_add_mod ((x + 2 ^ 128 * y) &&& (v + 2 ^ 128 * m)) (2 ^ 128), Nat.and_div_two_pow, Nat.and_mod_two_pow,
      Nat.add_mul_div_left _ _ (by decide), Nat.add_mul_div_left _ _ (by decide), Nat.add_mul_mod_self_left,
      Nat.add_mul_mod_self_left, Nat.div_eq_of_lt hx, Nat.div_eq_of_lt hv, Nat.mod_eq_of_lt hx, Nat.mod_eq_of_lt hv,
      Nat.zero_add, Nat.zero_add, Nat.add_comm]
  have e1 : (l + 2 ^ 128 * n) >>> 61 = (l / 2 ^ 61 + 2 ^ 67 * (n % 2 ^ 61)) + 2 ^ 128 * (n >>> 61) := by
    rw [Nat.shiftRight_eq_div_pow, Nat.shiftRight_eq_div_pow]
    omega
  unfold fold
  rw [mask, mask, key _ _ _ _ hl (by decide), e1, key _ _ _ _ (by omega) (by decide), Nat.and_two_pow_sub_one_eq_mod,
    Nat.and_two_pow_sub_one_eq_mod, Nat.add_mul_mod_self_left, Nat.mod_eq_of_lt (show l / 2 ^ 61 < 2 ^ 67 by omega)]
  ring

theorem Rep.fold (hp : (2 : α) ^ 61 = 1) {b k n ml mh : Nat} {M : α} (h : Rep A b k n M) (hb : b < 2 ^ 128)
    (hml : ml = mask (2 ^ 61 - 1) k) (hmh : mh = mask (2 ^ 67 - 1) k) :
    Rep A (2 ^ 61 - 1 + b / 2 ^ 61) k (fold ml mh n) M := by
  subst hml hmh
  induction h with
  | nil => simpa [Packed.fold, mask] using Rep.nil
  | cons l k n M hl _ ih =>
    rw [fold_cons l n k (by omega)]
    have e : (l : α) = ((l % 2 ^ 61 + l / 2 ^ 61 : Nat) : α) := by
      conv_lhs => rw [← Nat.div_add_mod l (2 ^ 61)]
      rw [Nat.cast_add, Nat.cast_mul, Nat.cast_pow, Nat.cast_ofNat, hp, one_mul, Nat.cast_add, add_comm]
    rw [e]
    refine .cons _ _ _ _ ?_ ih
    have := Nat.div_le_div_right (c := 2 ^ 61) hl
    omega

theorem Rep.split {b k n : Nat} {M : α} (hb : b < 2 ^ 128) (j : Nat) (h : Rep A b (j + k) n M) :
    ∃ Ml Mh, Rep A b j (n % (2 ^ 128) ^ j) Ml ∧ Rep A b k (n / (2 ^ 128) ^ j) Mh ∧ M = Ml + A ^ j * Mh := by
  induction j generalizing n M with
  | zero => exact ⟨0, M, by simpa [Nat.mod_one] using Rep.nil, by simpa using h, by simp⟩
  | succ j ih =>
    rw [Nat.add_right_comm] at h
    cases h with
    | cons l _ n M hl h =>
      obtain ⟨Ml, Mh, h1, h2, h3⟩ := ih h
      refine ⟨l + A * Ml, Mh, ?_, ?_, ?_⟩
      · have e : (l + 2 ^ 128 * n) % (2 ^ 128) ^ (j + 1) = l + 2 ^ 128 * (n % (2 ^ 128) ^ j) := by
          rw [pow_succ' (2 ^ 128) j, Nat.mod_mul, Nat.add_mul_mod_self_left, Nat.mod_eq_of_lt (show l < 2 ^ 128 by omega),
            Nat.add_mul_div_left _ _ (by decide), Nat.div_eq_of_lt (show l < 2 ^ 128 by omega), Nat.zero_add]
        rw [e]
        exact .cons _ _ _ _ hl h1
      · have e : (l + 2 ^ 128 * n) / (2 ^ 128) ^ (j + 1) = n / (2 ^ 128) ^ j := by
          rw [pow_succ' (2 ^ 128) j, ← Nat.div_div_eq_div_mul, Nat.add_mul_div_left _ _ (by decide),
            Nat.div_eq_of_lt (show l < 2 ^ 128 by omega), Nat.zero_add]
        rw [e]
        exact h2
      · rw [h3, mul_add, add_assoc, ← mul_assoc, ← pow_succ']

/-- The table holds `A^e, A^(e+1), ...`. -/
def TableOK (A : α) (b m : Nat) : Nat → List Nat → Prop
  | _, [] => True
  | e, t :: ts => Rep A b m t (A ^ e) ∧ TableOK A b m (e + 1) ts

theorem Rep.red {b b' m : Nat} (hb : b < 2 ^ 128) (ts : List Nat) : ∀ {h e : Nat} {M : α}, TableOK A b' m e ts →
    Rep A b ts.length h M → Rep A (ts.length * (b * b')) m (red ts h) (A ^ e * M) := by
  induction ts with
  | nil => intro h e M _ hr; cases hr; simpa [Packed.red] using Rep.zero (A := A) 0 m
  | cons t ts ih =>
    intro h e M ht hr
    rw [List.length_cons] at hr
    cases hr with
    | cons l _ n M hl hr =>
      have e1 : (l + 2 ^ 128 * n) % 2 ^ 128 = l := by
        rw [Nat.add_mul_mod_self_left, Nat.mod_eq_of_lt (by omega)]
      have e2 : (l + 2 ^ 128 * n) / 2 ^ 128 = n := by
        rw [Nat.add_mul_div_left _ _ (by decide), Nat.div_eq_of_lt (by omega), Nat.zero_add]
      rw [Packed.red, e1, e2]
      have := (ht.1.smul l).add (ih ht.2 hr)
      rw [pow_succ, mul_assoc, (Nat.cast_commute l (A ^ e)).eq] at this
      rw [mul_add]
      refine this.mono ?_
      have := Nat.mul_le_mul_right b' hl
      rw [List.length_cons, Nat.add_mul, Nat.one_mul]
      omega

/-! ### 17 coefficients -/

def ml17 : Nat := 74517942528248990360970796014746285360654546196841322330737630770004358496803439796863472580711817378062298436979038608408659553725841235331593590539743384211729985632667789522613283647437192817697447882527975880695588700080536369473119347988517166137150790534240876939600449260801655007350855495642359502870574482766154754788561949453341886153090890091956943548235721273547638794620146584783258442795732259567527916663674393937310430822331473493768397435839481907512672429438386640937790610744824057590217998992881072229099529538151732622880241018244699029811763542333751635263822504426887073753547210725120704075538381485623421698047
def mh17 : Nat := 4769148321807935385138102327436355723026928187984051602681170019618744153728176510346156272023664647109428505947112172227827146552188387035179475277014242764515841481620120409340463915048092951039071968269534180561246368667371745868060798735447411419125026127789242224178886332382393134178828476156043049345942319752535368473144349475559346285208255911545212986754390347520019519795916480633105629209013654616427530201613840635820995932327609561600486395251135611496572218122048467631240527746095592502891062467304220086951040623555591364076798469307174579328279620687917264577331875893144172261617812293121530928600852897258022654443519
def ml34 : Nat := 819466907492131742392218324566071675227439136083154263768814290791624355313574330607581228459201912393395095078918202543761057139059907404157317326129313414004343546115497219460538627816984974385544868948137727481172592465194875729936490015755535336148519690780132972994859003247993709515629971621750379320381063737401334011087419279962654163360079965831445241372316339119223687361810337565906636590991740153978583244037308058765951134234943095997584168216959826026737546942311636805052450290659949940149188115101756879654724852467163192255819357119847426877243504076224132709658409405776881415879332962602332834053942125303705054083615315374858673805573208912181170097906165478874796080447838780678644960749855892218459785985328548802393631244357816557529956117294278870610788826090951661217550146491674835622680177655709259181144990490512565466820125191114707258380697964180461366171696683838003317304024109816882190713610059077737092599662223202720544305461407750083519380193128934097848521148571160481430269420618927957410867581877495197274395855922754470059936669214771243161729170730892671308025478981116146887909239524681677328879894268124969134739812555761024156084776024967318480111564887397001560258324662513398223763757082364261818156619545127176023527751971087930501941889597439
def mh34 : Nat := 52445882079496431535491361367078854777330089951942612857529773498204486052298494637035668475582032706798250266239393112149366616043966227889000501174650292545325015890562397505692607296283856950341801571750668715243136232687537578618692380998981245083320271803526932917282183677824659406267077293791658576977973681372446809777180258827016464837911217594484440976651019085194094162392121621697845002299608326332538122572953616604255899409501466927765269233964056891591888273527283507963760394121298678075450662311997236097768984002339217068271569504603536450307762079183944264025095866014413363686717117176494608706789364987803763884610391606780704969868833753789339275504256487874576346578442468300406772534799126249190531230544980977661472382305701082218105119857134908582296237336635814738220621686286582312562209257721144760097747577236400776475421547112705716071960431127678837669943602653359458542630283890037137946564716933629190853887331663165355284085218180541715747400072627599122974740157727484505656675246636487005165309831258783526894146847819393126468295828556795781775048411552050995563959780442283649536640090080671851564035521296714593408945647497861445891844261983728583861128390592386736794706611905798493815891329714208787503778374490854356758673252228801558204173835567103

/-- Reduction of 34 coefficients to 17 with the table of `X^17, ..., X^33`. -/
def fin (ts : List Nat) (s : Nat) : Nat :=
  fold ml17 mh17 (fold ml17 mh17 (s % 2 ^ 2176 + red ts (s / 2 ^ 2176)))

/-- Product modulo the polynomial behind the table. -/
def mulK (ts : List Nat) (a b : Nat) : Nat := fin ts (fold ml34 mh34 (fold ml34 mh34 (a * b)))

/-- Square and multiply by `b`, one step for each bit of the exponent after the first; the first test only
makes the kernel evaluate `r`. -/
def powK (ts : List Nat) (b : Nat) : List Bool → Nat → Nat
  | [], r => r
  | x :: xs, r => bif Nat.beq r 0 then 0 else
      powK ts b xs (bif x then mulK ts b (mulK ts r r) else mulK ts r r)

/-- The exponent reached from `m` after the bits. -/
def powE (m : Nat) : List Bool → Nat → Nat
  | [], e => e
  | x :: xs, e => powE m xs (bif x then m + (e + e) else e + e)

/-- Reduced enough to be multiplied again. -/
abbrev bd : Nat := 2 ^ 61 + 64

theorem Rep.mulK (hp : (2 : α) ^ 61 = 1) {ts : List Nat} (hl : ts.length = 17) (ht : TableOK A bd 17 17 ts) {a b : Nat}
    {M M' : α} (ha : Rep A bd 17 a M) (hb : Rep A bd 17 b M') : Rep A bd 17 (mulK ts a b) (M * M') := by
  have h1 := (ha.mul hb).fold hp (by decide) (show ml34 = _ by decide +kernel) (show mh34 = _ by decide +kernel)
  have h2 := (h1.fold hp (by decide) (show ml34 = _ by decide +kernel) (show mh34 = _ by decide +kernel)).mono
    (show _ ≤ bd by decide)
  obtain ⟨Ml, Mh, h3, h4, h5⟩ := h2.split (by decide) 17
  have h6 := h3.add (Rep.red (by decide) ts ht (hl ▸ h4))
  rw [hl, ← h5] at h6
  have h7 := h6.fold hp (by decide) (show ml17 = _ by decide +kernel) (show mh17 = _ by decide +kernel)
  have h8 := (h7.fold hp (by decide) (show ml17 = _ by decide +kernel) (show mh17 = _ by decide +kernel)).mono
    (show _ ≤ bd by decide)
  unfold Packed.mulK fin
  rw [show (2 : Nat) ^ 2176 = (2 ^ 128) ^ 17 by rw [← pow_mul]]
  exact h8

theorem Rep.powK (hp : (2 : α) ^ 61 = 1) {ts : List Nat} (hl : ts.length = 17) (ht : TableOK A bd 17 17 ts) {b m : Nat}
    {X : α} (hb : Rep A bd 17 b (X ^ m)) (bits : List Bool) : ∀ {r e : Nat}, Rep A bd 17 r (X ^ e) →
    powK ts b bits r ≠ 0 → Rep A bd 17 (powK ts b bits r) (X ^ powE m bits e) := by
  induction bits with
  | nil => intro r e h _; exact h
  | cons x xs ih =>
    intro r e h h0
    rw [Packed.powK] at h0 ⊢
    cases hz : Nat.beq r 0 with
    | true => rw [hz] at h0; exact absurd rfl h0
    | false =>
      rw [hz] at h0
      simp only [cond_false] at h0 ⊢
      have h2 := Rep.mulK hp hl ht h h
      rw [← pow_add] at h2
      rw [powE]
      cases x with
      | false => exact ih h2 h0
      | true =>
        refine ih ?_ h0
        have h3 := Rep.mulK hp hl ht hb h2
        rwa [← pow_add] at h3

end Boost.Random.Packed
