import Verif.Model.FixedS3
import Verif.Lemmas.FixedRules

/-!
# C48: closed-form rules on the ball

Each theorem says that the rule integrates all polynomials up to the degree it reports exactly over
the unit ball, its weights relative to the volume, and states that degree.
-/

namespace Quadpy
open Finset FixedS3

theorem ball3_even : EvenMom (Spec.ball 3) fun p =>
    3 / (3 + 2 * ((p 0 : ℝ) + p 1 + p 2)) *
      (oddFac (p 0) * oddFac (p 1) * oddFac (p 2) / stepFac 3 (p 0 + p 1 + p 2)) := by
  simpa only [Fin.prod_univ_three, Fin.sum_univ_three, Nat.cast_ofNat] using
    ball_even (n := 3) (by norm_num)

/-- One rule made of sign-symmetric orbits. -/
local macro "s3_rule " "[" es:Lean.Parser.Tactic.simpLemma,* "]" ids:(ppSpace colGt ident)* : tactic => `(tactic| (
  refine ⟨space_exact ball3_even (by simp [spaceKeys]) ?_, rfl⟩
  space_fixed [$es,*] $ids*))

/-- C48, the midpoint rule. -/
theorem C48_s3_midpoint :
    FixedS3.midpoint.ExactOnBall 3 ∧ FixedS3.midpoint.degree = 1 := by
  unfold FixedS3.midpoint
  s3_rule []

/-- C48, Hammer and Stroud 11-3 (stroud_3_1). -/
theorem C48_s3_hammer_stroud_11_3 :
    hammer_stroud_11_3.ExactOnBall 3 ∧ hammer_stroud_11_3.degree = 3 := by
  have e0 := sqrt_sq_of (x := 3 / 5) (by norm_num)
  unfold hammer_stroud_11_3
  s3_rule [e0]

/-- C48, Hammer and Stroud 12-3. -/
theorem C48_s3_hammer_stroud_12_3 :
    hammer_stroud_12_3.ExactOnBall 3 ∧ hammer_stroud_12_3.degree = 5 := by
  have e0 := sqrt_sq_of (x := 3 / 7) (by norm_num)
  unfold hammer_stroud_12_3
  dsimp only
  s3_rule [e0]

/-- C48, Hammer and Stroud 14-3a. -/
theorem C48_s3_hammer_stroud_14_3a :
    (hammer_stroud_14_3 true).ExactOnBall 3 ∧ (hammer_stroud_14_3 true).degree = 5 := by
  have hs0 : √(14 : ℝ) ^ 2 = 14 := Real.sq_sqrt (by norm_num)
  have n0 := Real.sqrt_nonneg (14 : ℝ)
  have l0 : 3 ≤ √(14 : ℝ) := by nlinarith
  have h0 : √(14 : ℝ) ≤ 4 := by nlinarith
  have d00 : 21 - 1 * 2 * √(14 : ℝ) >= 0 + 1 := by linarith
  have d0 := (show (0:ℝ) < _ from lt_of_lt_of_le (by norm_num) d00).ne'
  have d1 : 5 / (21 - 1 * 2 * √(14 : ℝ)) = (21 + 1 * 2 * √14) / 77 := by
    rw [div_eq_div_iff d0 (by norm_num)]; linear_combination 4 * hs0
  have e0 := sqrt_sq_of (x := (7 - 1 * √14) / 7) (by linarith)
  have e1 := sqrt_sq_of (x := 5 / (21 - 1 * 2 * √14)) (by rw [d1]; linarith)
  unfold hammer_stroud_14_3
  dsimp only
  simp only [if_true, Bool.false_eq_true, if_false]
  rw [d1] at *
  clear d0 d00 d1
  generalize √(14 : ℝ) = t0 at *
  clear n0 l0 h0
  s3_rule [e0, e1] e0 e1

/-- C48, Hammer and Stroud 15-3a. -/
theorem C48_s3_hammer_stroud_15_3a :
    (hammer_stroud_15_3 true).ExactOnBall 3 ∧ (hammer_stroud_15_3 true).degree = 7 := by
  have hs0 : √(30 : ℝ) ^ 2 = 30 := Real.sq_sqrt (by norm_num)
  have n0 := Real.sqrt_nonneg (30 : ℝ)
  have l0 : 5 ≤ √(30 : ℝ) := by nlinarith
  have h0 : √(30 : ℝ) ≤ 6 := by nlinarith
  have d0 : 27 + 1 * 2 * √(30 : ℝ) ≥ 1 := by linarith
  have d1 : 7 / (27 + 1 * 2 * √(30 : ℝ)) = (27 - 1 * 2 * √30) / 87 := by
    rw [div_eq_div_iff (ne_of_gt (by linarith)) (by norm_num)]; linear_combination 4 * hs0
  have i0 : 1 / ((45 - 1 * √(30 : ℝ)) / 57) = (45 + 1 * √30) / 35 := by
    rw [one_div_div, div_eq_div_iff (ne_of_gt (by linarith)) (by norm_num)]; linear_combination hs0
  have i1 : 1 / ((18 + 1 * √(30 : ℝ)) / 42) = (18 - 1 * √30) / 7 := by
    rw [one_div_div, div_eq_div_iff (ne_of_gt (by linarith)) (by norm_num)]; linear_combination hs0
  have i2 : 1 / (7 / (27 + 1 * 2 * √(30 : ℝ))) = (27 + 1 * 2 * √30) / 7 := by rw [one_div_div]
  have e0 := sqrt_sq_of (x := (45 - 1 * √30) / 57) (by linarith)
  have e1 := sqrt_sq_of (x := (18 + 1 * √30) / 42) (by linarith)
  have e2 := sqrt_sq_of (x := 7 / (27 + 1 * 2 * √30)) (by rw [d1]; linarith)
  unfold hammer_stroud_15_3
  dsimp only
  simp only [if_true, Bool.false_eq_true, if_false]
  simp only [← one_div_pow, i0, i1, i2]
  rw [d1] at *
  clear d0 d1 i0 i1 i2
  generalize √(30 : ℝ) = t0 at *
  clear n0 l0 h0
  s3_rule [e0, e1, e2] e0 e1 e2

/-- C48, Hammer and Stroud 14-3b. -/
theorem C48_s3_hammer_stroud_14_3b :
    (hammer_stroud_14_3 false).ExactOnBall 3 ∧ (hammer_stroud_14_3 false).degree = 5 := by
  have hs0 : √(14 : ℝ) ^ 2 = 14 := Real.sq_sqrt (by norm_num)
  have n0 := Real.sqrt_nonneg (14 : ℝ)
  have l0 : 3 ≤ √(14 : ℝ) := by nlinarith
  have h0 : √(14 : ℝ) ≤ 4 := by nlinarith
  have d00 : 21 - -1 * 2 * √(14 : ℝ) >= 0 + 1 := by linarith
  have d0 := (show (0:ℝ) < _ from lt_of_lt_of_le (by norm_num) d00).ne'
  have d1 : 5 / (21 - -1 * 2 * √(14 : ℝ)) = (21 + (-1) * 2 * √14) / 77 := by
    rw [div_eq_div_iff d0 (by norm_num)]; linear_combination 4 * hs0
  have e0 := sqrt_sq_of (x := (7 - -1 * √14) / 7) (by linarith)
  have e1 := sqrt_sq_of (x := 5 / (21 - -1 * 2 * √14)) (by rw [d1]; linarith)
  unfold hammer_stroud_14_3
  dsimp only
  simp only [if_true, Bool.false_eq_true, if_false]
  rw [d1] at *
  clear d0 d00 d1
  generalize √(14 : ℝ) = t0 at *
  clear n0 l0 h0
  s3_rule [e0, e1] e0 e1

/-- C48, Hammer and Stroud 15-3b. -/
theorem C48_s3_hammer_stroud_15_3b :
    (hammer_stroud_15_3 false).ExactOnBall 3 ∧ (hammer_stroud_15_3 false).degree = 7 := by
  have hs0 : √(30 : ℝ) ^ 2 = 30 := Real.sq_sqrt (by norm_num)
  have n0 := Real.sqrt_nonneg (30 : ℝ)
  have l0 : 5 ≤ √(30 : ℝ) := by nlinarith
  have h0 : √(30 : ℝ) ≤ 6 := by nlinarith
  have d0 : 27 + -1 * 2 * √(30 : ℝ) ≥ 1 := by linarith
  have d1 : 7 / (27 + -1 * 2 * √(30 : ℝ)) = (27 - -1 * 2 * √30) / 87 := by
    rw [div_eq_div_iff (ne_of_gt (by linarith)) (by norm_num)]; linear_combination 4 * hs0
  have i0 : 1 / ((45 - -1 * √(30 : ℝ)) / 57) = (45 + -1 * √30) / 35 := by
    rw [one_div_div, div_eq_div_iff (ne_of_gt (by linarith)) (by norm_num)]; linear_combination hs0
  have i1 : 1 / ((18 + -1 * √(30 : ℝ)) / 42) = (18 - -1 * √30) / 7 := by
    rw [one_div_div, div_eq_div_iff (ne_of_gt (by linarith)) (by norm_num)]; linear_combination hs0
  have i2 : 1 / (7 / (27 + -1 * 2 * √(30 : ℝ))) = (27 + -1 * 2 * √30) / 7 := by rw [one_div_div]
  have e0 := sqrt_sq_of (x := (45 - -1 * √30) / 57) (by linarith)
  have e1 := sqrt_sq_of (x := (18 + -1 * √30) / 42) (by linarith)
  have e2 := sqrt_sq_of (x := 7 / (27 + -1 * 2 * √30)) (by rw [d1]; linarith)
  unfold hammer_stroud_15_3
  dsimp only
  simp only [if_true, Bool.false_eq_true, if_false]
  simp only [← one_div_pow, i0, i1, i2]
  rw [d1] at *
  clear d0 d1 i0 i1 i2
  generalize √(30 : ℝ) = t0 at *
  clear n0 l0 h0
  s3_rule [e0, e1, e2] e0 e1 e2

/-- C48, Ditkin 2. -/
theorem C48_s3_ditkin_2 :
    ditkin_2.ExactOnBall 3 ∧ ditkin_2.degree = 5 := by
  have hs0 : √(5 : ℝ) ^ 2 = 5 := Real.sq_sqrt (by norm_num)
  have n0 := Real.sqrt_nonneg (5 : ℝ)
  have h0 : √(5 : ℝ) ≤ 3 := by nlinarith
  have e0 := sqrt_sq_of (x := (15 + 5 * √5) / 42) (by linarith)
  have e1 := sqrt_sq_of (x := (15 - 5 * √5) / 42) (by linarith)
  have e2 := sqrt_sq_of (x := 5 / 21) (by norm_num)
  unfold ditkin_2
  dsimp only
  generalize √(5 : ℝ) = t0 at *
  clear n0 h0
  s3_rule [e0, e1, e2] e0 e1 e2

/-- C48, Ditkin 3. -/
theorem C48_s3_ditkin_3 :
    ditkin_3.ExactOnBall 3 ∧ ditkin_3.degree = 7 := by
  have hs0 : √(5 : ℝ) ^ 2 = 5 := Real.sq_sqrt (by norm_num)
  have n0 := Real.sqrt_nonneg (5 : ℝ)
  have h0 : √(5 : ℝ) ≤ 3 := by nlinarith
  have e0 := sqrt_sq_of (x := (5 + √5) / 18) (by linarith)
  have e1 := sqrt_sq_of (x := (5 - √5) / 18) (by linarith)
  have e2 := sqrt_sq_of (x := 1 / 3) (by norm_num)
  have e3 := sqrt_sq_of (x := (3 - √5) / 6) (by linarith)
  have e4 := sqrt_sq_of (x := (3 + √5) / 6) (by linarith)
  unfold ditkin_3
  dsimp only
  generalize √(5 : ℝ) = t0 at *
  clear n0 h0
  s3_rule [e0, e1, e2, e3, e4] e0 e1 e2 e3 e4

/-- C48, Mysovskih. -/
theorem C48_s3_mysovskih :
    mysovskih.ExactOnBall 3 ∧ mysovskih.degree = 7 := by
  have hs0 : √(17770 : ℝ) ^ 2 = 17770 := Real.sq_sqrt (by norm_num)
  have n0 := Real.sqrt_nonneg (17770 : ℝ)
  have h0 : √(17770 : ℝ) ≤ 134 := by nlinarith
  have d0 : √(17770 : ℝ) ≠ 0 := by positivity
  have i1 : (2965 * √17770 + 227816) / 72030 / √(17770 : ℝ) = (2965 + 227816 * √17770 / 17770) / 72030 := by
    field_simp; linear_combination (-227816) * hs0
  have i2 : (2965 * √17770 - 227816) / 72030 / √(17770 : ℝ) = (2965 - 227816 * √17770 / 17770) / 72030 := by
    field_simp; linear_combination 227816 * hs0
  have e0 := sqrt_sq_of (x := (1715 - 7 * √17770) / 2817) (by linarith)
  have e1 := sqrt_sq_of (x := (1715 + 7 * √17770) / 2817) (by linarith)
  have e2 := sqrt_sq_of (x := 7 / 18) (by norm_num)
  have e3 := sqrt_sq_of (x := 7 / 27) (by norm_num)
  unfold mysovskih
  dsimp only
  rw [i1, i2]
  clear d0 i1 i2
  generalize √(17770 : ℝ) = t0 at *
  clear n0 h0
  s3_rule [e0, e1, e2, e3] e0 e1 e2 e3

end Quadpy
