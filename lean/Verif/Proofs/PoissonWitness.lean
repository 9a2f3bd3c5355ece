import Verif.Proofs.BinomialWitness
import Verif.Model.Poisson
import Mathlib.Analysis.SpecialFunctions.Exp
import Mathlib.Analysis.Complex.Exponential

/-!
# The Poisson distribution: inversion that never ends
-/

namespace Boost.Random
open Spec RealDist

namespace Poisson

theorem step (o : RealOps ℚ) {mean u p X A p1 u' : ℚ} {n x : Nat} (hu : p < u) (hX : o.fl ((x + 1 : Nat) : ℚ) = X) (hA : o.fl (mean * p) = A)
    (hp : o.fl (A / X) = p1) (hu' : o.fl (u - p) = u') : invertLoop o mean (n + 1) x u p = invertLoop o mean n (x + 1) u' p1 := by
  rw [invertLoop, if_pos hu, hX, hA, hp, hu']

/-- When the probability is less than half a unit in the last place of `u`, it no longer matters. -/
theorem invertLoop_stuck {P : Nat} {fl : ℚ → ℚ} (H : Nearest P fl) (o : RealOps ℚ) (ho : o.fl = fl) (hP : 1 ≤ P) {mean u : ℚ} (j m : Nat) (e : ℤ) (h0 : 0 ≤ mean) (hj : mean ≤ 2 ^ j)
    (hu : u = (m : ℚ) * 2 ^ e) (hlo : 2 ^ (P - 1) < m) (hhi : m < 2 ^ P) :
    ∀ (n x : Nat) (p : ℚ), 2 ^ j ≤ x + 1 → Representable P p → 0 ≤ p → p < 2 ^ e / 2 → invertLoop o mean n x u p = none := by
  have R := Boost.Random.Nearest.rounding H
  have hpe : (0 : ℚ) < 2 ^ e := by positivity
  have hm : (1 : ℚ) ≤ m := by exact_mod_cast (by have := Nat.one_le_two_pow (n := P - 1); omega : 1 ≤ m)
  have hlt : ∀ p : ℚ, p < 2 ^ e / 2 → u > p := by
    intro p hp
    rw [hu]
    nlinarith
  intro n
  induction n with
  | zero =>
    intro x p _ _ _ hp
    rw [invertLoop, if_pos (hlt p hp)]
  | succ n ih =>
    intro x p hx hr hp0 hp
    rw [invertLoop, if_pos (hlt p hp)]
    have e1 : o.fl (u - p) = u := by
      rw [ho, hu]
      refine nearest_eq H m e hlo hhi ?_
      rw [show (m : ℚ) * 2 ^ e - p - (m : ℚ) * 2 ^ e = -p by ring, abs_neg, abs_of_nonneg hp0]
      exact hp
    rw [e1, ho]
    have z : fl 0 = 0 := R.exact _ (Representable.zero P)
    have a1 : fl (mean * p) ≤ 2 ^ j * p := by
      have hr2 : Representable P (2 ^ j * p) := by
        obtain ⟨m', e', h1, h2⟩ := hr
        refine ⟨m', e' + j, h1, ?_⟩
        rw [h2, zpow_add₀ (by norm_num), zpow_natCast]
        ring
      rw [← R.exact _ hr2]
      exact R.mono _ _ (mul_le_mul_of_nonneg_right hj hp0)
    have a0 : 0 ≤ fl (mean * p) := by rw [← z]; exact R.mono _ _ (mul_nonneg h0 hp0)
    have b1 : (2 : ℚ) ^ j ≤ fl ((x + 1 : Nat) : ℚ) := by
      rw [← R.exact _ (Representable.two_pow hP j)]
      refine R.mono _ _ ?_
      exact_mod_cast hx
    have bp : (0 : ℚ) < 2 ^ j := by positivity
    have c1 : fl (fl (mean * p) / fl ((x + 1 : Nat) : ℚ)) ≤ p := by
      rw [← R.exact _ hr]
      refine R.mono _ _ ?_
      rw [R.exact _ hr, div_le_iff₀ (lt_of_lt_of_le bp b1)]
      nlinarith
    have c0 : 0 ≤ fl (fl (mean * p) / fl ((x + 1 : Nat) : ℚ)) := by
      rw [← z]
      exact R.mono _ _ (div_nonneg a0 (lt_of_lt_of_le bp b1).le)
    exact ih (x + 1) _ (by omega) (R.repr _) c0 (lt_of_le_of_lt c1 hp)

/-- The value of `exp(-83/64)`, correctly rounded to 53 digits. -/
theorem exp_double : |(4924862499378342 : ℝ) * 2 ^ (-54 : ℤ) - Real.exp (-(83 / 64))| < 2 ^ (-54 : ℤ) / 2 ∧ 2 ^ 52 < (4924862499378342 : Nat) ∧ (4924862499378342 : Nat) < 2 ^ 53 := by
  refine ⟨?_, by norm_num, by norm_num⟩
  have h := Real.exp_bound (x := -(83 / 128)) (by rw [abs_neg, abs_of_pos (by norm_num)]; norm_num) (n := 20) (by norm_num)
  have e2 : Real.exp (-(83 / 64)) = Real.exp (-(83 / 128)) * Real.exp (-(83 / 128)) := by rw [← Real.exp_add]; norm_num
  rw [e2]
  have hb : (5228621108821536788819 : ℝ) / 10000000000000000000000 < Real.exp (-(83 / 128)) ∧ Real.exp (-(83 / 128)) < 5228621108821536788824 / 10000000000000000000000 := by
    norm_num [Finset.sum_range_succ, Nat.factorial, abs_le] at h
    constructor <;> linarith [h.1, h.2]
  obtain ⟨h1, h2⟩ := hb
  have h3 := mul_lt_mul'' h1 h1 (by norm_num) (by norm_num)
  have h4 := mul_lt_mul'' h2 h2 (Real.exp_pos _).le (Real.exp_pos _).le
  rw [abs_lt]
  norm_num at h3 h4 ⊢
  constructor <;> linarith

/-- Mean 83/64 in `double`: the loop never ends. -/
theorem invert_double {fl : ℚ → ℚ} (H : Nearest 53 fl) (o : RealOps ℚ) (ho : o.fl = fl) {bits : Nat} (hb : 7 ≤ bits) :
    invert o bits (83 / 64) (2462431249689171 / 9007199254740992) (9007199254740991 / 9007199254740992) = none := by
  subst ho
  obtain ⟨n, hn⟩ : ∃ n, 2 ^ (bits - 1) - 1 = n + 34 := ⟨2 ^ (bits - 1) - 1 - 34, by
    have : 2 ^ 6 ≤ 2 ^ (bits - 1) := Nat.pow_le_pow_right (by norm_num) (by omega)
    omega⟩
  rw [invert, hn]
  rw [step o (n := n + 33) (X := 1) (A := (6386931053881287 / 18014398509481984)) (p1 := (6386931053881287 / 18014398509481984)) (u' := (1636192001262955 / 2251799813685248)) (by norm_num) (fl_exact (Nearest.rounding H) (1) (0) (by norm_num) (by norm_num) (by norm_num)) (fl_round H 6386931053881287 (-54) (by norm_num) (by norm_num) (by norm_num) (by norm_num [abs_lt])) (fl_exact (Nearest.rounding H) (6386931053881287) (-54) (by norm_num) (by norm_num) (by norm_num))
    (fl_exact (Nearest.rounding H) (1636192001262955) (-51) (by norm_num) (by norm_num) (by norm_num))]
  rw [step o (n := n + 32) (X := 2) (A := (4141525605251147 / 9007199254740992)) (p1 := (4141525605251147 / 18014398509481984)) (u' := (6702604956222353 / 18014398509481984)) (by norm_num) (fl_exact (Nearest.rounding H) (1) (1) (by norm_num) (by norm_num) (by norm_num)) (fl_round H 8283051210502294 (-54) (by norm_num) (by norm_num) (by norm_num) (by norm_num [abs_lt])) (fl_exact (Nearest.rounding H) (4141525605251147) (-54) (by norm_num) (by norm_num) (by norm_num))
    (fl_exact (Nearest.rounding H) (6702604956222353) (-54) (by norm_num) (by norm_num) (by norm_num))]
  rw [step o (n := n + 31) (X := 3) (A := (5371041019310081 / 18014398509481984)) (p1 := (7161388025746775 / 72057594037927936)) (u' := (1280539675485603 / 9007199254740992)) (by norm_num) (fl_exact (Nearest.rounding H) (3) (0) (by norm_num) (by norm_num) (by norm_num)) (fl_round H 5371041019310081 (-54) (by norm_num) (by norm_num) (by norm_num) (by norm_num [abs_lt])) (fl_round H 7161388025746775 (-56) (by norm_num) (by norm_num) (by norm_num) (by norm_num [abs_lt]))
    (fl_exact (Nearest.rounding H) (1280539675485603) (-53) (by norm_num) (by norm_num) (by norm_num))]
  rw [step o (n := n + 30) (X := 4) (A := (2321856273972587 / 18014398509481984)) (p1 := (2321856273972587 / 72057594037927936)) (u' := (3082929378138049 / 72057594037927936)) (by norm_num) (fl_exact (Nearest.rounding H) (1) (2) (by norm_num) (by norm_num) (by norm_num)) (fl_round H 4643712547945174 (-55) (by norm_num) (by norm_num) (by norm_num) (by norm_num [abs_lt])) (fl_exact (Nearest.rounding H) (2321856273972587) (-56) (by norm_num) (by norm_num) (by norm_num))
    (fl_exact (Nearest.rounding H) (3082929378138049) (-56) (by norm_num) (by norm_num) (by norm_num))]
  rw [step o (n := n + 29) (X := 5) (A := (3011157355308199 / 72057594037927936)) (p1 := (2408925884246559 / 288230376151711744)) (u' := (380536552082731 / 36028797018963968)) (by norm_num) (fl_exact (Nearest.rounding H) (5) (0) (by norm_num) (by norm_num) (by norm_num)) (fl_round H 6022314710616398 (-57) (by norm_num) (by norm_num) (by norm_num) (by norm_num [abs_lt])) (fl_round H 4817851768493118 (-59) (by norm_num) (by norm_num) (by norm_num) (by norm_num [abs_lt]))
    (fl_exact (Nearest.rounding H) (380536552082731) (-55) (by norm_num) (by norm_num) (by norm_num))]
  rw [step o (n := n + 28) (X := 6) (A := (97627367379133 / 9007199254740992)) (p1 := (8330868683019349 / 4611686018427387904)) (u' := (635366532415289 / 288230376151711744)) (by norm_num) (fl_exact (Nearest.rounding H) (3) (1) (by norm_num) (by norm_num) (by norm_num)) (fl_round H 6248151512264512 (-59) (by norm_num) (by norm_num) (by norm_num) (by norm_num [abs_lt])) (fl_round H 8330868683019349 (-62) (by norm_num) (by norm_num) (by norm_num) (by norm_num [abs_lt]))
    (fl_exact (Nearest.rounding H) (635366532415289) (-58) (by norm_num) (by norm_num) (by norm_num))]
  rw [step o (n := n + 27) (X := 7) (A := (5402047661645359 / 2305843009213693952)) (p1 := (6173768756166125 / 18446744073709551616)) (u' := (1834995835625275 / 4611686018427387904)) (by norm_num) (fl_exact (Nearest.rounding H) (7) (0) (by norm_num) (by norm_num) (by norm_num)) (fl_round H 5402047661645359 (-61) (by norm_num) (by norm_num) (by norm_num) (by norm_num [abs_lt])) (fl_round H 6173768756166125 (-64) (by norm_num) (by norm_num) (by norm_num) (by norm_num [abs_lt]))
    (fl_exact (Nearest.rounding H) (1834995835625275) (-62) (by norm_num) (by norm_num) (by norm_num))]
  rw [step o (n := n + 26) (X := 8) (A := (8006606355652943 / 18446744073709551616)) (p1 := (8006606355652943 / 147573952589676412928)) (u' := (1166214586334975 / 18446744073709551616)) (by norm_num) (fl_exact (Nearest.rounding H) (1) (3) (by norm_num) (by norm_num) (by norm_num)) (fl_round H 8006606355652943 (-64) (by norm_num) (by norm_num) (by norm_num) (by norm_num [abs_lt])) (fl_exact (Nearest.rounding H) (8006606355652943) (-67) (by norm_num) (by norm_num) (by norm_num))
    (fl_exact (Nearest.rounding H) (1166214586334975) (-64) (by norm_num) (by norm_num) (by norm_num))]
  rw [step o (n := n + 25) (X := 9) (A := (5191783808743705 / 73786976294838206464)) (p1 := (1153729735276379 / 147573952589676412928)) (u' := (1323110335026857 / 147573952589676412928)) (by norm_num) (fl_exact (Nearest.rounding H) (9) (0) (by norm_num) (by norm_num) (by norm_num)) (fl_round H 5191783808743705 (-66) (by norm_num) (by norm_num) (by norm_num) (by norm_num [abs_lt])) (fl_round H 4614918941105516 (-69) (by norm_num) (by norm_num) (by norm_num) (by norm_num [abs_lt]))
    (fl_exact (Nearest.rounding H) (1323110335026857) (-67) (by norm_num) (by norm_num) (by norm_num))]
  rw [step o (n := n + 24) (X := 10) (A := (748121625218277 / 73786976294838206464)) (p1 := (4787978401396973 / 4722366482869645213696)) (u' := (84690299875239 / 73786976294838206464)) (by norm_num) (fl_exact (Nearest.rounding H) (5) (1) (by norm_num) (by norm_num) (by norm_num)) (fl_round H 5984973001746216 (-69) (by norm_num) (by norm_num) (by norm_num) (by norm_num [abs_lt])) (fl_round H 4787978401396973 (-72) (by norm_num) (by norm_num) (by norm_num) (by norm_num [abs_lt]))
    (fl_exact (Nearest.rounding H) (84690299875239) (-66) (by norm_num) (by norm_num) (by norm_num))]
  rw [step o (n := n + 23) (X := 11) (A := (6209409489311699 / 4722366482869645213696)) (p1 := (564491771755609 / 4722366482869645213696)) (u' := (632200790618323 / 4722366482869645213696)) (by norm_num) (fl_exact (Nearest.rounding H) (11) (0) (by norm_num) (by norm_num) (by norm_num)) (fl_round H 6209409489311699 (-72) (by norm_num) (by norm_num) (by norm_num) (by norm_num [abs_lt])) (fl_exact (Nearest.rounding H) (564491771755609) (-72) (by norm_num) (by norm_num) (by norm_num))
    (fl_exact (Nearest.rounding H) (632200790618323) (-72) (by norm_num) (by norm_num) (by norm_num))]
  rw [step o (n := n + 22) (X := 12) (A := (5856602131964443 / 37778931862957161709568)) (p1 := (7808802842619257 / 604462909807314587353088)) (u' := (33854509431357 / 2361183241434822606848)) (by norm_num) (fl_exact (Nearest.rounding H) (3) (2) (by norm_num) (by norm_num) (by norm_num)) (fl_round H 5856602131964443 (-75) (by norm_num) (by norm_num) (by norm_num) (by norm_num [abs_lt])) (fl_round H 7808802842619257 (-79) (by norm_num) (by norm_num) (by norm_num) (by norm_num [abs_lt]))
    (fl_exact (Nearest.rounding H) (33854509431357) (-71) (by norm_num) (by norm_num) (by norm_num))]
  rw [step o (n := n + 21) (X := 13) (A := (1265880148315231 / 75557863725914323419136)) (p1 := (3116012672775953 / 2417851639229258349412352)) (u' := (857951571808135 / 604462909807314587353088)) (by norm_num) (fl_exact (Nearest.rounding H) (13) (0) (by norm_num) (by norm_num) (by norm_num)) (fl_round H 5063520593260924 (-78) (by norm_num) (by norm_num) (by norm_num) (by norm_num [abs_lt])) (fl_round H 6232025345551906 (-82) (by norm_num) (by norm_num) (by norm_num) (by norm_num [abs_lt]))
    (fl_exact (Nearest.rounding H) (857951571808135) (-79) (by norm_num) (by norm_num) (by norm_num))]
  rw [step o (n := n + 20) (X := 14) (A := (2020539467503157 / 1208925819614629174706176)) (p1 := (2309187962860751 / 19342813113834066795298816)) (u' := (315793614456587 / 2417851639229258349412352)) (by norm_num) (fl_exact (Nearest.rounding H) (7) (1) (by norm_num) (by norm_num) (by norm_num)) (fl_round H 8082157870012628 (-82) (by norm_num) (by norm_num) (by norm_num) (by norm_num [abs_lt])) (fl_round H 4618375925721502 (-85) (by norm_num) (by norm_num) (by norm_num) (by norm_num [abs_lt]))
    (fl_exact (Nearest.rounding H) (315793614456587) (-81) (by norm_num) (by norm_num) (by norm_num))]
  rw [step o (n := n + 19) (X := 15) (A := (5989456278670073 / 38685626227668133590597632)) (p1 := (6388753363914745 / 618970019642690137449562112)) (u' := (217160952791945 / 19342813113834066795298816)) (by norm_num) (fl_exact (Nearest.rounding H) (15) (0) (by norm_num) (by norm_num) (by norm_num)) (fl_round H 5989456278670073 (-85) (by norm_num) (by norm_num) (by norm_num) (by norm_num [abs_lt])) (fl_round H 6388753363914745 (-89) (by norm_num) (by norm_num) (by norm_num) (by norm_num [abs_lt]))
    (fl_exact (Nearest.rounding H) (217160952791945) (-84) (by norm_num) (by norm_num) (by norm_num))]
  rw [step o (n := n + 18) (X := 16) (A := (8285414518826935 / 618970019642690137449562112)) (p1 := (8285414518826935 / 9903520314283042199192993792)) (u' := (560397125427495 / 618970019642690137449562112)) (by norm_num) (fl_exact (Nearest.rounding H) (1) (4) (by norm_num) (by norm_num) (by norm_num)) (fl_round H 8285414518826935 (-89) (by norm_num) (by norm_num) (by norm_num) (by norm_num [abs_lt])) (fl_exact (Nearest.rounding H) (8285414518826935) (-93) (by norm_num) (by norm_num) (by norm_num))
    (fl_exact (Nearest.rounding H) (560397125427495) (-89) (by norm_num) (by norm_num) (by norm_num))]
  rw [step o (n := n + 17) (X := 17) (A := (5372573477051841 / 4951760157141521099596496896)) (p1 := (5056539743107615 / 79228162514264337593543950336)) (u' := (680939488012985 / 9903520314283042199192993792)) (by norm_num) (fl_exact (Nearest.rounding H) (17) (0) (by norm_num) (by norm_num) (by norm_num)) (fl_round H 5372573477051841 (-92) (by norm_num) (by norm_num) (by norm_num) (by norm_num [abs_lt])) (fl_round H 5056539743107615 (-96) (by norm_num) (by norm_num) (by norm_num) (by norm_num [abs_lt]))
    (fl_exact (Nearest.rounding H) (680939488012985) (-93) (by norm_num) (by norm_num) (by norm_num))]
  rw [step o (n := n + 16) (X := 18) (A := (204928124354459 / 2475880078570760549798248448)) (p1 := (1457266662076153 / 316912650057057350374175801344)) (u' := (390976160996265 / 79228162514264337593543950336)) (by norm_num) (fl_exact (Nearest.rounding H) (9) (1) (by norm_num) (by norm_num) (by norm_num)) (fl_round H 6557699979342688 (-96) (by norm_num) (by norm_num) (by norm_num) (by norm_num [abs_lt])) (fl_round H 5829066648304612 (-100) (by norm_num) (by norm_num) (by norm_num) (by norm_num [abs_lt]))
    (fl_exact (Nearest.rounding H) (390976160996265) (-96) (by norm_num) (by norm_num) (by norm_num))]
  rw [step o (n := n + 15) (X := 19) (A := (1889892702380011 / 316912650057057350374175801344)) (p1 := (99468036967369 / 316912650057057350374175801344)) (u' := (106637981908907 / 316912650057057350374175801344)) (by norm_num) (fl_exact (Nearest.rounding H) (19) (0) (by norm_num) (by norm_num) (by norm_num)) (fl_round H 7559570809520044 (-100) (by norm_num) (by norm_num) (by norm_num) (by norm_num [abs_lt])) (fl_exact (Nearest.rounding H) (99468036967369) (-98) (by norm_num) (by norm_num) (by norm_num))
    (fl_exact (Nearest.rounding H) (106637981908907) (-98) (by norm_num) (by norm_num) (by norm_num))]
  rw [step o (n := n + 14) (X := 20) (A := (8255847068291627 / 20282409603651670423947251286016)) (p1 := (3302338827316651 / 162259276829213363391578010288128)) (u' := (3584972470769 / 158456325028528675187087900672)) (by norm_num) (fl_exact (Nearest.rounding H) (5) (2) (by norm_num) (by norm_num) (by norm_num)) (fl_exact (Nearest.rounding H) (8255847068291627) (-104) (by norm_num) (by norm_num) (by norm_num)) (fl_round H 6604677654633302 (-108) (by norm_num) (by norm_num) (by norm_num) (by norm_num [abs_lt]))
    (fl_exact (Nearest.rounding H) (3584972470769) (-97) (by norm_num) (by norm_num) (by norm_num))]
  rw [step o (n := n + 13) (X := 21) (A := (2141360333338141 / 81129638414606681695789005144064)) (p1 := (815756317462149 / 649037107316853453566312041152512)) (u' := (368672982750805 / 162259276829213363391578010288128)) (by norm_num) (fl_exact (Nearest.rounding H) (21) (0) (by norm_num) (by norm_num) (by norm_num)) (fl_round H 8565441333352564 (-108) (by norm_num) (by norm_num) (by norm_num) (by norm_num [abs_lt])) (fl_round H 6526050539697192 (-112) (by norm_num) (by norm_num) (by norm_num) (by norm_num [abs_lt]))
    (fl_exact (Nearest.rounding H) (368672982750805) (-107) (by norm_num) (by norm_num) (by norm_num))]
  rw [step o (n := n + 12) (X := 22) (A := (2115867948417449 / 1298074214633706907132624082305024)) (p1 := (6155252213578033 / 83076749736557242056487941267521536)) (u' := (658935613541071 / 649037107316853453566312041152512)) (by norm_num) (fl_exact (Nearest.rounding H) (11) (1) (by norm_num) (by norm_num) (by norm_num)) (fl_round H 8463471793669796 (-112) (by norm_num) (by norm_num) (by norm_num) (by norm_num [abs_lt])) (fl_round H 6155252213578033 (-116) (by norm_num) (by norm_num) (by norm_num) (by norm_num [abs_lt]))
    (fl_exact (Nearest.rounding H) (658935613541071) (-109) (by norm_num) (by norm_num) (by norm_num))]
  rw [step o (n := n + 11) (X := 23) (A := (1995648178621003 / 20769187434139310514121985316880384)) (p1 := (2776553987646613 / 664613997892457936451903530140172288)) (u' := (4886781644979941 / 5192296858534827628530496329220096)) (by norm_num) (fl_exact (Nearest.rounding H) (23) (0) (by norm_num) (by norm_num) (by norm_num)) (fl_round H 7982592714484012 (-116) (by norm_num) (by norm_num) (by norm_num) (by norm_num [abs_lt])) (fl_round H 5553107975293226 (-120) (by norm_num) (by norm_num) (by norm_num) (by norm_num [abs_lt]))
    (fl_round H 4886781644979941 (-112) (by norm_num) (by norm_num) (by norm_num) (by norm_num [abs_lt]))]
  rw [step o (n := n + 10) (X := 24) (A := (3600843452729201 / 664613997892457936451903530140172288)) (p1 := (4801124603638935 / 21267647932558653966460912964485513216)) (u' := (1216272454237863 / 1298074214633706907132624082305024)) (by norm_num) (fl_exact (Nearest.rounding H) (3) (3) (by norm_num) (by norm_num) (by norm_num)) (fl_round H 7201686905458402 (-120) (by norm_num) (by norm_num) (by norm_num) (by norm_num [abs_lt])) (fl_round H 4801124603638935 (-124) (by norm_num) (by norm_num) (by norm_num) (by norm_num [abs_lt]))
    (fl_round H 4865089816951452 (-112) (by norm_num) (by norm_num) (by norm_num) (by norm_num [abs_lt]))]
  rw [step o (n := n + 9) (X := 25) (A := (1556614617586061 / 5316911983139663491615228241121378304)) (p1 := (996233355255079 / 85070591730234615865843651857942052864)) (u' := (4863917667390017 / 5192296858534827628530496329220096)) (by norm_num) (fl_exact (Nearest.rounding H) (25) (0) (by norm_num) (by norm_num) (by norm_num)) (fl_round H 6226458470344244 (-124) (by norm_num) (by norm_num) (by norm_num) (by norm_num [abs_lt])) (fl_round H 7969866842040632 (-129) (by norm_num) (by norm_num) (by norm_num) (by norm_num [abs_lt]))
    (fl_round H 4863917667390017 (-112) (by norm_num) (by norm_num) (by norm_num) (by norm_num [abs_lt]))]
  rw [step o (n := n + 8) (X := 26) (A := (2583980265192861 / 170141183460469231731687303715884105728)) (p1 := (6360566806628581 / 10889035741470030830827987437816582766592)) (u' := (2431928431065759 / 2596148429267413814265248164610048)) (by norm_num) (fl_exact (Nearest.rounding H) (13) (1) (by norm_num) (by norm_num) (by norm_num)) (fl_round H 5167960530385722 (-128) (by norm_num) (by norm_num) (by norm_num) (by norm_num [abs_lt])) (fl_round H 6360566806628581 (-133) (by norm_num) (by norm_num) (by norm_num) (by norm_num [abs_lt]))
    (fl_round H 4863856862131518 (-112) (by norm_num) (by norm_num) (by norm_num) (by norm_num [abs_lt]))]
  rw [step o (n := n + 7) (X := 27) (A := (8248860077346441 / 10889035741470030830827987437816582766592)) (p1 := (4888213379168261 / 174224571863520493293247799005065324265472)) (u' := (4863853829176917 / 5192296858534827628530496329220096)) (by norm_num) (fl_exact (Nearest.rounding H) (27) (0) (by norm_num) (by norm_num) (by norm_num)) (fl_round H 8248860077346441 (-133) (by norm_num) (by norm_num) (by norm_num) (by norm_num [abs_lt])) (fl_round H 4888213379168261 (-137) (by norm_num) (by norm_num) (by norm_num) (by norm_num [abs_lt]))
    (fl_round H 4863853829176917 (-112) (by norm_num) (by norm_num) (by norm_num) (by norm_num [abs_lt]))]
  rw [step o (n := n + 6) (X := 28) (A := (3169700863054419 / 87112285931760246646623899502532662132736)) (p1 := (3622515272062193 / 2787593149816327892691964784081045188247552)) (u' := (2431926841748403 / 2596148429267413814265248164610048)) (by norm_num) (fl_exact (Nearest.rounding H) (7) (2) (by norm_num) (by norm_num) (by norm_num)) (fl_round H 6339401726108838 (-137) (by norm_num) (by norm_num) (by norm_num) (by norm_num [abs_lt])) (fl_round H 7245030544124386 (-142) (by norm_num) (by norm_num) (by norm_num) (by norm_num [abs_lt]))
    (fl_round H 4863853683496806 (-112) (by norm_num) (by norm_num) (by norm_num) (by norm_num [abs_lt]))]
  rw [step o (n := n + 5) (X := 29) (A := (4697949493455657 / 2787593149816327892691964784081045188247552)) (p1 := (5183944268640725 / 89202980794122492566142873090593446023921664)) (u' := (2431926838374673 / 2596148429267413814265248164610048)) (by norm_num) (fl_exact (Nearest.rounding H) (29) (0) (by norm_num) (by norm_num) (by norm_num)) (fl_round H 4697949493455657 (-141) (by norm_num) (by norm_num) (by norm_num) (by norm_num [abs_lt])) (fl_round H 5183944268640725 (-146) (by norm_num) (by norm_num) (by norm_num) (by norm_num [abs_lt]))
    (fl_round H 4863853676749346 (-112) (by norm_num) (by norm_num) (by norm_num) (by norm_num [abs_lt]))]
  rw [step o (n := n + 4) (X := 30) (A := (210091491356045 / 2787593149816327892691964784081045188247552)) (p1 := (7171122904953003 / 2854495385411919762116571938898990272765493248)) (u' := (4863853676447601 / 5192296858534827628530496329220096)) (by norm_num) (fl_exact (Nearest.rounding H) (15) (1) (by norm_num) (by norm_num) (by norm_num)) (fl_round H 6722927723393440 (-146) (by norm_num) (by norm_num) (by norm_num) (by norm_num [abs_lt])) (fl_round H 7171122904953003 (-151) (by norm_num) (by norm_num) (by norm_num) (by norm_num [abs_lt]))
    (fl_round H 4863853676447601 (-112) (by norm_num) (by norm_num) (by norm_num) (by norm_num [abs_lt]))]
  rw [step o (n := n + 3) (X := 31) (A := (4650025008680463 / 1427247692705959881058285969449495136382746624)) (p1 := (4800025815412091 / 45671926166590716193865151022383844364247891968)) (u' := (4863853676434557 / 5192296858534827628530496329220096)) (by norm_num) (fl_exact (Nearest.rounding H) (31) (0) (by norm_num) (by norm_num) (by norm_num)) (fl_round H 4650025008680463 (-150) (by norm_num) (by norm_num) (by norm_num) (by norm_num [abs_lt])) (fl_round H 4800025815412091 (-155) (by norm_num) (by norm_num) (by norm_num) (by norm_num [abs_lt]))
    (fl_round H 4863853676434557 (-112) (by norm_num) (by norm_num) (by norm_num) (by norm_num [abs_lt]))]
  rw [step o (n := n + 2) (X := 32) (A := (1556258369840639 / 11417981541647679048466287755595961091061972992)) (p1 := (1556258369840639 / 365375409332725729550921208179070754913983135744)) (u' := (4863853676434011 / 5192296858534827628530496329220096)) (by norm_num) (fl_exact (Nearest.rounding H) (1) (5) (by norm_num) (by norm_num) (by norm_num)) (fl_round H 6225033479362556 (-155) (by norm_num) (by norm_num) (by norm_num) (by norm_num [abs_lt])) (fl_exact (Nearest.rounding H) (1556258369840639) (-158) (by norm_num) (by norm_num) (by norm_num))
    (fl_round H 4863853676434011 (-112) (by norm_num) (by norm_num) (by norm_num) (by norm_num [abs_lt]))]
  rw [step o (n := n + 1) (X := 33) (A := (8073090293548315 / 1461501637330902918203684832716283019655932542976)) (p1 := (7828451193743821 / 46768052394588893382517914646921056628989841375232)) (u' := (4863853676433989 / 5192296858534827628530496329220096)) (by norm_num) (fl_exact (Nearest.rounding H) (33) (0) (by norm_num) (by norm_num) (by norm_num)) (fl_round H 8073090293548315 (-160) (by norm_num) (by norm_num) (by norm_num) (by norm_num [abs_lt])) (fl_round H 7828451193743821 (-165) (by norm_num) (by norm_num) (by norm_num) (by norm_num [abs_lt]))
    (fl_round H 4863853676433989 (-112) (by norm_num) (by norm_num) (by norm_num) (by norm_num [abs_lt]))]
  rw [step o (n := n + 0) (X := 34) (A := (5076261320943259 / 23384026197294446691258957323460528314494920687616)) (p1 := (2388828856914475 / 374144419156711147060143317175368453031918731001856)) (u' := (1215963419108497 / 1298074214633706907132624082305024)) (by norm_num) (fl_exact (Nearest.rounding H) (17) (1) (by norm_num) (by norm_num) (by norm_num)) (fl_round H 5076261320943259 (-164) (by norm_num) (by norm_num) (by norm_num) (by norm_num [abs_lt])) (fl_round H 4777657713828950 (-169) (by norm_num) (by norm_num) (by norm_num) (by norm_num [abs_lt]))
    (fl_round H 4863853676433988 (-112) (by norm_num) (by norm_num) (by norm_num) (by norm_num [abs_lt]))]
  exact invertLoop_stuck H o rfl (by norm_num) 1 4863853676433988 (-112) (by norm_num) (by norm_num) (by norm_num) (by norm_num) (by norm_num) n _ _ (by norm_num) ⟨2388828856914475, -168, by norm_num, by norm_num⟩ (by norm_num) (by norm_num)

/-- The value of `exp(-59/128)`, correctly rounded to 24 digits. -/
theorem exp_float : |(10581257 : ℝ) * 2 ^ (-24 : ℤ) - Real.exp (-(59 / 128))| < 2 ^ (-24 : ℤ) / 2 ∧ 2 ^ 23 < (10581257 : Nat) ∧ (10581257 : Nat) < 2 ^ 24 := by
  refine ⟨?_, by norm_num, by norm_num⟩
  have h := Real.exp_bound (x := -(59 / 256)) (by rw [abs_neg, abs_of_pos (by norm_num)]; norm_num) (n := 10) (by norm_num)
  have e2 : Real.exp (-(59 / 128)) = Real.exp (-(59 / 256)) * Real.exp (-(59 / 256)) := by rw [← Real.exp_add]; norm_num
  rw [e2]
  have hb : (79416125213 : ℝ) / 100000000000 < Real.exp (-(59 / 256)) ∧ Real.exp (-(59 / 256)) < 79416125218 / 100000000000 := by
    norm_num [Finset.sum_range_succ, Nat.factorial, abs_le] at h
    constructor <;> linarith [h.1, h.2]
  obtain ⟨h1, h2⟩ := hb
  have h3 := mul_lt_mul'' h1 h1 (by norm_num) (by norm_num)
  have h4 := mul_lt_mul'' h2 h2 (Real.exp_pos _).le (Real.exp_pos _).le
  rw [abs_lt]
  norm_num at h3 h4 ⊢
  constructor <;> linarith

/-- Mean 59/128 in `float`: the loop never ends. -/
theorem invert_float {fl : ℚ → ℚ} (H : Nearest 24 fl) (o : RealOps ℚ) (ho : o.fl = fl) {bits : Nat} (hb : 7 ≤ bits) :
    invert o bits (59 / 128) (10581257 / 16777216) (16777215 / 16777216) = none := by
  subst ho
  obtain ⟨n, hn⟩ : ∃ n, 2 ^ (bits - 1) - 1 = n + 15 := ⟨2 ^ (bits - 1) - 1 - 15, by
    have : 2 ^ 6 ≤ 2 ^ (bits - 1) := Nat.pow_le_pow_right (by norm_num) (by omega)
    omega⟩
  rw [invert, hn]
  rw [step o (n := n + 14) (X := 1) (A := (2438649 / 8388608)) (p1 := (2438649 / 8388608)) (u' := (3097979 / 8388608)) (by norm_num) (fl_exact (Nearest.rounding H) (1) (0) (by norm_num) (by norm_num) (by norm_num)) (fl_round H 9754596 (-25) (by norm_num) (by norm_num) (by norm_num) (by norm_num [abs_lt])) (fl_exact (Nearest.rounding H) (2438649) (-23) (by norm_num) (by norm_num) (by norm_num))
    (fl_exact (Nearest.rounding H) (3097979) (-23) (by norm_num) (by norm_num) (by norm_num))]
  rw [step o (n := n + 13) (X := 2) (A := (4496259 / 33554432)) (p1 := (4496259 / 67108864)) (u' := (329665 / 4194304)) (by norm_num) (fl_exact (Nearest.rounding H) (1) (1) (by norm_num) (by norm_num) (by norm_num)) (fl_round H 8992518 (-26) (by norm_num) (by norm_num) (by norm_num) (by norm_num [abs_lt])) (fl_exact (Nearest.rounding H) (4496259) (-26) (by norm_num) (by norm_num) (by norm_num))
    (fl_exact (Nearest.rounding H) (329665) (-22) (by norm_num) (by norm_num) (by norm_num))]
  rw [step o (n := n + 12) (X := 3) (A := (16579955 / 536870912)) (p1 := (11053303 / 1073741824)) (u' := (778381 / 67108864)) (by norm_num) (fl_exact (Nearest.rounding H) (3) (0) (by norm_num) (by norm_num) (by norm_num)) (fl_round H 16579955 (-29) (by norm_num) (by norm_num) (by norm_num) (by norm_num [abs_lt])) (fl_round H 11053303 (-30) (by norm_num) (by norm_num) (by norm_num) (by norm_num [abs_lt]))
    (fl_exact (Nearest.rounding H) (778381) (-26) (by norm_num) (by norm_num) (by norm_num))]
  rw [step o (n := n + 11) (X := 4) (A := (2547441 / 536870912)) (p1 := (2547441 / 2147483648)) (u' := (1400793 / 1073741824)) (by norm_num) (fl_exact (Nearest.rounding H) (1) (2) (by norm_num) (by norm_num) (by norm_num)) (fl_round H 10189764 (-31) (by norm_num) (by norm_num) (by norm_num) (by norm_num [abs_lt])) (fl_exact (Nearest.rounding H) (2547441) (-31) (by norm_num) (by norm_num) (by norm_num))
    (fl_exact (Nearest.rounding H) (1400793) (-30) (by norm_num) (by norm_num) (by norm_num))]
  rw [step o (n := n + 10) (X := 5) (A := (9393689 / 17179869184)) (p1 := (7514951 / 68719476736)) (u' := (254145 / 2147483648)) (by norm_num) (fl_exact (Nearest.rounding H) (5) (0) (by norm_num) (by norm_num) (by norm_num)) (fl_round H 9393689 (-34) (by norm_num) (by norm_num) (by norm_num) (by norm_num [abs_lt])) (fl_round H 15029902 (-37) (by norm_num) (by norm_num) (by norm_num) (by norm_num [abs_lt]))
    (fl_exact (Nearest.rounding H) (254145) (-31) (by norm_num) (by norm_num) (by norm_num))]
  rw [step o (n := n + 9) (X := 6) (A := (13855691 / 274877906944)) (p1 := (9237127 / 1099511627776)) (u' := (617689 / 68719476736)) (by norm_num) (fl_exact (Nearest.rounding H) (3) (1) (by norm_num) (by norm_num) (by norm_num)) (fl_round H 13855691 (-38) (by norm_num) (by norm_num) (by norm_num) (by norm_num [abs_lt])) (fl_round H 9237127 (-40) (by norm_num) (by norm_num) (by norm_num) (by norm_num [abs_lt]))
    (fl_exact (Nearest.rounding H) (617689) (-36) (by norm_num) (by norm_num) (by norm_num))]
  rw [step o (n := n + 8) (X := 7) (A := (2128869 / 549755813888)) (p1 := (9731973 / 17592186044416)) (u' := (645897 / 1099511627776)) (by norm_num) (fl_exact (Nearest.rounding H) (7) (0) (by norm_num) (by norm_num) (by norm_num)) (fl_round H 8515476 (-41) (by norm_num) (by norm_num) (by norm_num) (by norm_num [abs_lt])) (fl_round H 9731973 (-44) (by norm_num) (by norm_num) (by norm_num) (by norm_num [abs_lt]))
    (fl_exact (Nearest.rounding H) (645897) (-40) (by norm_num) (by norm_num) (by norm_num))]
  rw [step o (n := n + 7) (X := 8) (A := (8971663 / 35184372088832)) (p1 := (8971663 / 281474976710656)) (u' := (602379 / 17592186044416)) (by norm_num) (fl_exact (Nearest.rounding H) (1) (3) (by norm_num) (by norm_num) (by norm_num)) (fl_round H 8971663 (-45) (by norm_num) (by norm_num) (by norm_num) (by norm_num [abs_lt])) (fl_exact (Nearest.rounding H) (8971663) (-48) (by norm_num) (by norm_num) (by norm_num))
    (fl_exact (Nearest.rounding H) (602379) (-44) (by norm_num) (by norm_num) (by norm_num))]
  rw [step o (n := n + 6) (X := 9) (A := (258461 / 17592186044416)) (p1 := (14703559 / 9007199254740992)) (u' := (666401 / 281474976710656)) (by norm_num) (fl_exact (Nearest.rounding H) (9) (0) (by norm_num) (by norm_num) (by norm_num)) (fl_round H 16541504 (-50) (by norm_num) (by norm_num) (by norm_num) (by norm_num [abs_lt])) (fl_round H 14703559 (-53) (by norm_num) (by norm_num) (by norm_num) (by norm_num [abs_lt]))
    (fl_exact (Nearest.rounding H) (666401) (-48) (by norm_num) (by norm_num) (by norm_num))]
  rw [step o (n := n + 5) (X := 10) (A := (13554843 / 18014398509481984)) (p1 := (5421937 / 72057594037927936)) (u' := (6621273 / 9007199254740992)) (by norm_num) (fl_exact (Nearest.rounding H) (5) (1) (by norm_num) (by norm_num) (by norm_num)) (fl_round H 13554843 (-54) (by norm_num) (by norm_num) (by norm_num) (by norm_num [abs_lt])) (fl_round H 10843874 (-57) (by norm_num) (by norm_num) (by norm_num) (by norm_num [abs_lt]))
    (fl_exact (Nearest.rounding H) (6621273) (-53) (by norm_num) (by norm_num) (by norm_num))]
  rw [step o (n := n + 4) (X := 11) (A := (1249587 / 36028797018963968)) (p1 := (14540649 / 4611686018427387904)) (u' := (5943531 / 9007199254740992)) (by norm_num) (fl_exact (Nearest.rounding H) (11) (0) (by norm_num) (by norm_num) (by norm_num)) (fl_round H 9996696 (-58) (by norm_num) (by norm_num) (by norm_num) (by norm_num [abs_lt])) (fl_round H 14540649 (-62) (by norm_num) (by norm_num) (by norm_num) (by norm_num [abs_lt]))
    (fl_round H 11887062 (-54) (by norm_num) (by norm_num) (by norm_num) (by norm_num [abs_lt]))]
  rw [step o (n := n + 3) (X := 12) (A := (13404661 / 9223372036854775808)) (p1 := (8936441 / 73786976294838206464)) (u' := (11830263 / 18014398509481984)) (by norm_num) (fl_exact (Nearest.rounding H) (3) (2) (by norm_num) (by norm_num) (by norm_num)) (fl_round H 13404661 (-63) (by norm_num) (by norm_num) (by norm_num) (by norm_num [abs_lt])) (fl_round H 8936441 (-66) (by norm_num) (by norm_num) (by norm_num) (by norm_num [abs_lt]))
    (fl_round H 11830263 (-54) (by norm_num) (by norm_num) (by norm_num) (by norm_num [abs_lt]))]
  rw [step o (n := n + 2) (X := 13) (A := (16476563 / 295147905179352825856)) (p1 := (10139423 / 2361183241434822606848)) (u' := (11828081 / 18014398509481984)) (by norm_num) (fl_exact (Nearest.rounding H) (13) (0) (by norm_num) (by norm_num) (by norm_num)) (fl_round H 16476563 (-68) (by norm_num) (by norm_num) (by norm_num) (by norm_num [abs_lt])) (fl_round H 10139423 (-71) (by norm_num) (by norm_num) (by norm_num) (by norm_num [abs_lt]))
    (fl_round H 11828081 (-54) (by norm_num) (by norm_num) (by norm_num) (by norm_num [abs_lt]))]
  rw [step o (n := n + 1) (X := 14) (A := (9347281 / 4722366482869645213696)) (p1 := (10682607 / 75557863725914323419136)) (u' := (2957001 / 4503599627370496)) (by norm_num) (fl_exact (Nearest.rounding H) (7) (1) (by norm_num) (by norm_num) (by norm_num)) (fl_round H 9347281 (-72) (by norm_num) (by norm_num) (by norm_num) (by norm_num [abs_lt])) (fl_round H 10682607 (-76) (by norm_num) (by norm_num) (by norm_num) (by norm_num [abs_lt]))
    (fl_round H 11828004 (-54) (by norm_num) (by norm_num) (by norm_num) (by norm_num [abs_lt]))]
  rw [step o (n := n + 0) (X := 15) (A := (2462007 / 37778931862957161709568)) (p1 := (10504563 / 2417851639229258349412352)) (u' := (11828001 / 18014398509481984)) (by norm_num) (fl_exact (Nearest.rounding H) (15) (0) (by norm_num) (by norm_num) (by norm_num)) (fl_round H 9848028 (-77) (by norm_num) (by norm_num) (by norm_num) (by norm_num [abs_lt])) (fl_round H 10504563 (-81) (by norm_num) (by norm_num) (by norm_num) (by norm_num [abs_lt]))
    (fl_round H 11828001 (-54) (by norm_num) (by norm_num) (by norm_num) (by norm_num [abs_lt]))]
  exact invertLoop_stuck H o rfl (by norm_num) 0 11828001 (-54) (by norm_num) (by norm_num) (by norm_num) (by norm_num) (by norm_num) n _ _ (by norm_num) ⟨10504563, -81, by norm_num, by norm_num⟩ (by norm_num) (by norm_num)

end Poisson
end Boost.Random
