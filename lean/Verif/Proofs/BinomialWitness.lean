import Verif.Proofs.BinomialRange
import Verif.Proofs.Canonical

/-!
# The binomial distribution: inversion beyond the number of trials
-/

namespace Boost.Random
open Spec RealDist

theorem fl_exact {P : Nat} {fl : ℚ → ℚ} (R : Rounding P fl) {x y : ℚ} (m e : ℤ) (hm : |m| < 2 ^ P) (hx : x = (m : ℚ) * 2 ^ e) (hy : y = (m : ℚ) * 2 ^ e) :
    fl x = y := by
  rw [hx, hy]
  exact R.exact _ ⟨m, e, hm, rfl⟩

theorem fl_round {P : Nat} {fl : ℚ → ℚ} (H : Nearest P fl) {x y : ℚ} (m : Nat) (e : ℤ) (hy : y = (m : ℚ) * 2 ^ e) (hlo : 2 ^ (P - 1) < m) (hhi : m < 2 ^ P)
    (hx : |x - y| < 2 ^ e / 2) : fl x = y := by
  rw [hy] at hx ⊢
  exact nearest_eq H m e hlo hhi hx

namespace Binomial

theorem step (o : RealOps ℚ) {eps a s u r X A B r1 u' : ℚ} {n x : Nat} (hu : r < u) (hX : o.fl ((x + 1 : Nat) : ℚ) = X) (hA : o.fl (a / X) = A) (hB : o.fl (A - s) = B)
    (hr : o.fl (B * r) = r1) (hu' : o.fl (u - r) = u') (hc : ¬ (r1 < eps ∧ r1 < r)) :
    invertLoop o eps a s (n + 1) x u r = invertLoop o eps a s n (x + 1) u' r1 := by
  rw [invertLoop, if_pos hu]
  dsimp only
  rw [hX, hA, hB, hr, hu', if_neg hc]

theorem stop (o : RealOps ℚ) {eps a s u r X A B r1 : ℚ} {n x : Nat} (hu : r < u) (hX : o.fl ((x + 1 : Nat) : ℚ) = X) (hA : o.fl (a / X) = A) (hB : o.fl (A - s) = B)
    (hr : o.fl (B * r) = r1) (hc : r1 < eps ∧ r1 < r) : invertLoop o eps a s (n + 1) x u r = some (x + 1) := by
  rw [invertLoop, if_pos hu]
  dsimp only
  rw [hX, hA, hB, hr, if_pos hc]

/-- Three trials of probability 27/64 in `double`: four successes. -/
theorem invert_double {fl : ℚ → ℚ} (H : Nearest 53 fl) (o : RealOps ℚ) (ho : o.fl = fl) {bits : Nat} (hb : 5 ≤ bits) :
    invert o bits (2 / 2 ^ 53) 3 (27 / 64) (50653 / 262144) (9007199254740991 / 9007199254740992) = some 4 := by
  subst ho
  have h1 : o.fl (1 - (27 / 64)) = (37 / 64) := (fl_exact (Nearest.rounding H) (37) (-6) (by norm_num) (by norm_num) (by norm_num))
  have h2 : o.fl ((27 / 64) / (37 / 64)) = (6572821077783967 / 9007199254740992) := (fl_round H 6572821077783967 (-53) (by norm_num) (by norm_num) (by norm_num) (by norm_num [abs_lt]))
  have h3 : o.fl ((3 + 1 : Int) : ℚ) = 4 := (fl_exact (Nearest.rounding H) (1) (2) (by norm_num) (by norm_num) (by norm_num))
  have h4 : o.fl (4 * (6572821077783967 / 9007199254740992)) = (6572821077783967 / 2251799813685248) := (fl_exact (Nearest.rounding H) (6572821077783967) (-51) (by norm_num) (by norm_num) (by norm_num))
  obtain ⟨n, hn⟩ : ∃ n, 2 ^ (bits - 1) - 1 = n + 4 := ⟨2 ^ (bits - 1) - 1 - 4, by
    have : 2 ^ 4 ≤ 2 ^ (bits - 1) := Nat.pow_le_pow_right (by norm_num) (by omega)
    omega⟩
  rw [invert, hn]
  rw [h1, h2, h3, h4]
  rw [step o (n := n + 3) (X := 1) (u' := (7266775427186687 / 9007199254740992)) (A := (6572821077783967 / 2251799813685248)) (B := (4929615808337975 / 2251799813685248)) (r1 := (7620234055778303 / 18014398509481984)) (by norm_num) ((fl_exact (Nearest.rounding H) (1) (0) (by norm_num) (by norm_num) (by norm_num))) (fl_exact (Nearest.rounding H) (6572821077783967) (-51) (by norm_num) (by norm_num) (by norm_num)) (fl_round H 4929615808337975 (-51) (by norm_num) (by norm_num) (by norm_num) (by norm_num [abs_lt])) (fl_round H 7620234055778303 (-54) (by norm_num) (by norm_num) (by norm_num) (by norm_num [abs_lt]))
    (fl_exact (Nearest.rounding H) (7266775427186687) (-53) (by norm_num) (by norm_num) (by norm_num)) (by norm_num)]
  rw [step o (n := n + 2) (X := 2) (u' := (6913316798595071 / 18014398509481984)) (A := (6572821077783967 / 4503599627370496)) (B := (6572821077783967 / 9007199254740992)) (r1 := (5560711338000383 / 18014398509481984)) (by norm_num) ((fl_exact (Nearest.rounding H) (1) (1) (by norm_num) (by norm_num) (by norm_num))) (fl_exact (Nearest.rounding H) (6572821077783967) (-52) (by norm_num) (by norm_num) (by norm_num)) (fl_exact (Nearest.rounding H) (6572821077783967) (-53) (by norm_num) (by norm_num) (by norm_num)) (fl_round H 5560711338000383 (-54) (by norm_num) (by norm_num) (by norm_num) (by norm_num [abs_lt]))
    (fl_exact (Nearest.rounding H) (6913316798595071) (-54) (by norm_num) (by norm_num) (by norm_num)) (by norm_num)]
  rw [step o (n := n + 1) (X := 3) (u' := (19683 / 262144)) (A := (8763761437045289 / 9007199254740992)) (B := (1095470179630661 / 4503599627370496)) (r1 := (2705210921189375 / 36028797018963968)) (by norm_num) ((fl_exact (Nearest.rounding H) (3) (0) (by norm_num) (by norm_num) (by norm_num))) (fl_round H 8763761437045289 (-53) (by norm_num) (by norm_num) (by norm_num) (by norm_num [abs_lt])) (fl_exact (Nearest.rounding H) (1095470179630661) (-52) (by norm_num) (by norm_num) (by norm_num)) (fl_round H 5410421842378750 (-56) (by norm_num) (by norm_num) (by norm_num) (by norm_num [abs_lt]))
    (fl_exact (Nearest.rounding H) (19683) (-18) (by norm_num) (by norm_num) (by norm_num)) (by norm_num)]
  exact stop o (X := 4) (A := (6572821077783967 / 9007199254740992)) (B := 0) (r1 := 0) (by norm_num) ((fl_exact (Nearest.rounding H) (1) (2) (by norm_num) (by norm_num) (by norm_num))) (fl_exact (Nearest.rounding H) (6572821077783967) (-53) (by norm_num) (by norm_num) (by norm_num)) (fl_exact (Nearest.rounding H) (0) (0) (by norm_num) (by norm_num) (by norm_num)) (fl_exact (Nearest.rounding H) (0) (0) (by norm_num) (by norm_num) (by norm_num)) (by norm_num)

/-- Three trials of probability 53/128 in `float`: four successes. -/
theorem invert_float {fl : ℚ → ℚ} (H : Nearest 24 fl) (o : RealOps ℚ) (ho : o.fl = fl) {bits : Nat} (hb : 5 ≤ bits) :
    invert o bits (2 / 2 ^ 24) 3 (53 / 128) (421875 / 2097152) (16777215 / 16777216) = some 4 := by
  subst ho
  have h1 : o.fl (1 - (53 / 128)) = (75 / 128) := (fl_exact (Nearest.rounding H) (75) (-7) (by norm_num) (by norm_num) (by norm_num))
  have h2 : o.fl ((53 / 128) / (75 / 128)) = (11855899 / 16777216) := (fl_round H 11855899 (-24) (by norm_num) (by norm_num) (by norm_num) (by norm_num [abs_lt]))
  have h3 : o.fl ((3 + 1 : Int) : ℚ) = 4 := (fl_exact (Nearest.rounding H) (1) (2) (by norm_num) (by norm_num) (by norm_num))
  have h4 : o.fl (4 * (11855899 / 16777216)) = (11855899 / 4194304) := (fl_exact (Nearest.rounding H) (11855899) (-22) (by norm_num) (by norm_num) (by norm_num))
  obtain ⟨n, hn⟩ : ∃ n, 2 ^ (bits - 1) - 1 = n + 4 := ⟨2 ^ (bits - 1) - 1 - 4, by
    have : 2 ^ 4 ≤ 2 ^ (bits - 1) := Nat.pow_le_pow_right (by norm_num) (by omega)
    omega⟩
  rw [invert, hn]
  rw [h1, h2, h3, h4]
  rw [step o (n := n + 3) (X := 1) (u' := (13402215 / 16777216)) (A := (11855899 / 4194304)) (B := (2222981 / 1048576)) (r1 := (14309999 / 33554432)) (by norm_num) ((fl_exact (Nearest.rounding H) (1) (0) (by norm_num) (by norm_num) (by norm_num))) (fl_exact (Nearest.rounding H) (11855899) (-22) (by norm_num) (by norm_num) (by norm_num)) (fl_round H 8891924 (-22) (by norm_num) (by norm_num) (by norm_num) (by norm_num [abs_lt])) (fl_round H 14309999 (-25) (by norm_num) (by norm_num) (by norm_num) (by norm_num [abs_lt]))
    (fl_exact (Nearest.rounding H) (13402215) (-24) (by norm_num) (by norm_num) (by norm_num)) (by norm_num)]
  rw [step o (n := n + 2) (X := 2) (u' := (12494431 / 33554432)) (A := (11855899 / 8388608)) (B := (11855899 / 16777216)) (r1 := (10112399 / 33554432)) (by norm_num) ((fl_exact (Nearest.rounding H) (1) (1) (by norm_num) (by norm_num) (by norm_num))) (fl_exact (Nearest.rounding H) (11855899) (-23) (by norm_num) (by norm_num) (by norm_num)) (fl_exact (Nearest.rounding H) (11855899) (-24) (by norm_num) (by norm_num) (by norm_num)) (fl_round H 10112399 (-25) (by norm_num) (by norm_num) (by norm_num) (by norm_num [abs_lt]))
    (fl_exact (Nearest.rounding H) (12494431) (-25) (by norm_num) (by norm_num) (by norm_num)) (by norm_num)]
  rw [step o (n := n + 1) (X := 3) (u' := (148877 / 2097152)) (A := (15807865 / 16777216)) (B := (1975983 / 8388608)) (r1 := (4764063 / 67108864)) (by norm_num) ((fl_exact (Nearest.rounding H) (3) (0) (by norm_num) (by norm_num) (by norm_num))) (fl_round H 15807865 (-24) (by norm_num) (by norm_num) (by norm_num) (by norm_num [abs_lt])) (fl_exact (Nearest.rounding H) (1975983) (-23) (by norm_num) (by norm_num) (by norm_num)) (fl_round H 9528126 (-27) (by norm_num) (by norm_num) (by norm_num) (by norm_num [abs_lt]))
    (fl_exact (Nearest.rounding H) (148877) (-21) (by norm_num) (by norm_num) (by norm_num)) (by norm_num)]
  exact stop o (X := 4) (A := (11855899 / 16777216)) (B := 0) (r1 := 0) (by norm_num) ((fl_exact (Nearest.rounding H) (1) (2) (by norm_num) (by norm_num) (by norm_num))) (fl_exact (Nearest.rounding H) (11855899) (-24) (by norm_num) (by norm_num) (by norm_num)) (fl_exact (Nearest.rounding H) (0) (0) (by norm_num) (by norm_num) (by norm_num)) (fl_exact (Nearest.rounding H) (0) (0) (by norm_num) (by norm_num) (by norm_num)) (by norm_num)

end Binomial
end Boost.Random
