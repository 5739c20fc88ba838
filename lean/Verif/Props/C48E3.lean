import Verif.Model.FixedE
import Verif.Lemmas.FixedRules

/-!
# C48: closed-form rules on space with weights exp(-|x|) and exp(-|x|^2)

Each theorem says that the rule integrates all polynomials up to the degree it reports exactly against
the weight function, its weights relative to the total mass, and states that degree.
-/

namespace Quadpy
open Finset

theorem e3r_even : EvenMom (Spec.enr 3) fun p =>
    ((2 + 2 * (p 0 + p 1 + p 2)).factorial : ℝ) / 2 *
      (oddFac (p 0) * oddFac (p 1) * oddFac (p 2) / stepFac 3 (p 0 + p 1 + p 2)) := by
  simpa only [Fin.prod_univ_three, Fin.sum_univ_three, Nat.reduceSub, Nat.factorial_two,
    Nat.cast_ofNat] using enr_even (n := 3) (by norm_num)

theorem e3r2_even : EvenMom (Spec.enr2 3) fun p =>
    oddFac (p 0) * oddFac (p 1) * oddFac (p 2) / 2 ^ (p 0 + p 1 + p 2) := by
  simpa only [Fin.prod_univ_three, Fin.sum_univ_three] using enr2_even 3

/-- One rule made of sign-symmetric orbits. -/
local macro "e3_rule " h:ident "[" es:Lean.Parser.Tactic.simpLemma,* "]" ids:(ppSpace colGt ident)* : tactic => `(tactic| (
  refine ⟨space_exact $h (by simp [spaceKeys]) ?_, rfl⟩
  space_fixed [$es,*] $ids*))

section e3r
open FixedE3r

/-- C48, Stroud and Secrest VII. -/
theorem C48_e3r_stroud_secrest_07 :
    stroud_secrest_07.ExactOnEnr 3 ∧ stroud_secrest_07.degree = 5 := by
  have hs0 : √(5 : ℝ) ^ 2 = 5 := Real.sq_sqrt (by norm_num)
  have n0 := Real.sqrt_nonneg (5 : ℝ)
  have h0 : √(5 : ℝ) ≤ 3 := by nlinarith
  have e0 := sqrt_sq_of (x := 15 - 3 * √5) (by linarith)
  have e1 := sqrt_sq_of (x := 15 + 3 * √5) (by linarith)
  unfold stroud_secrest_07
  dsimp only
  generalize √(5 : ℝ) = t0 at *
  clear n0 h0
  e3_rule e3r_even [e0, e1] e0 e1

/-- C48, Stroud and Secrest VIII. -/
theorem C48_e3r_stroud_secrest_08 :
    stroud_secrest_08.ExactOnEnr 3 ∧ stroud_secrest_08.degree = 5 := by
  have e0 := sqrt_sq_of (x := 30) (by norm_num)
  have e1 := sqrt_sq_of (x := 10) (by norm_num)
  unfold stroud_secrest_08
  dsimp only
  e3_rule e3r_even [e0, e1]

/-- C48, Stroud and Secrest IX. -/
theorem C48_e3r_stroud_secrest_09 :
    stroud_secrest_09.ExactOnEnr 3 ∧ stroud_secrest_09.degree = 5 := by
  have hs0 : √(5 : ℝ) ^ 2 = 5 := Real.sq_sqrt (by norm_num)
  have n0 := Real.sqrt_nonneg (5 : ℝ)
  have h0 : √(5 : ℝ) ≤ 3 := by nlinarith
  have e0 := sqrt_sq_of (x := 10) (by norm_num)
  have e1 := sqrt_sq_of (x := 15 - 5 * √5) (by linarith)
  have e2 := sqrt_sq_of (x := 15 + 5 * √5) (by linarith)
  unfold stroud_secrest_09
  dsimp only
  generalize √(5 : ℝ) = t0 at *
  clear n0 h0
  e3_rule e3r_even [e0, e1, e2] e0 e1 e2

/-- C48, Stroud and Secrest X. -/
theorem C48_e3r_stroud_secrest_10 :
    stroud_secrest_10.ExactOnEnr 3 ∧ stroud_secrest_10.degree = 7 := by
  have hs0 : √(130 : ℝ) ^ 2 = 130 := Real.sq_sqrt (by norm_num)
  have n0 := Real.sqrt_nonneg (130 : ℝ)
  have l0 : 11 ≤ √(130 : ℝ) := by nlinarith
  have h0 : √(130 : ℝ) ≤ 12 := by nlinarith
  have e0 := sqrt_sq_of (x := (720 - 24 * √130) / 11) (by linarith)
  have e1 := sqrt_sq_of (x := 288 + 24 * √130) (by linarith)
  have e2 := sqrt_sq_of (x := (-216 + 24 * √130) / 7) (by linarith)
  unfold stroud_secrest_10
  dsimp only
  generalize √(130 : ℝ) = t0 at *
  clear n0 l0 h0
  e3_rule e3r_even [e0, e1, e2] e0 e1 e2

/-- C48, Stroud and Secrest XI. -/
theorem C48_e3r_stroud_secrest_11 :
    stroud_secrest_11.ExactOnEnr 3 ∧ stroud_secrest_11.degree = 7 := by
  have hs0 : √(5 : ℝ) ^ 2 = 5 := Real.sq_sqrt (by norm_num)
  have n0 := Real.sqrt_nonneg (5 : ℝ)
  have l0 : 2 ≤ √(5 : ℝ) := by nlinarith
  have h0 : √(5 : ℝ) ≤ 3 := by nlinarith
  have hs1 : √(39 : ℝ) ^ 2 = 39 := Real.sq_sqrt (by norm_num)
  have n1 := Real.sqrt_nonneg (39 : ℝ)
  have l1 : 6 ≤ √(39 : ℝ) := by nlinarith
  have h1 : √(39 : ℝ) ≤ 7 := by nlinarith
  have h195 : √(195 : ℝ) = √5 * √39 := by rw [← Real.sqrt_mul (by norm_num)]; norm_num
  have e0 := sqrt_sq_of (x := -50 + 10 * √5 + 10 * √39 - 2 * √195) (by rw [h195]; nlinarith [mul_nonneg (show 0 ≤ 10 - 2 * √5 by linarith) (show 0 ≤ √39 - 5 by linarith)])
  have e1 := sqrt_sq_of (x := -50 - 10 * √5 + 10 * √39 + 2 * √195) (by rw [h195]; nlinarith [mul_nonneg (show 0 ≤ 10 + 2 * √5 by linarith) (show 0 ≤ √39 - 5 by linarith)])
  have e2 := sqrt_sq_of (x := 36 + 4 * √39) (by linarith)
  have e3 := sqrt_sq_of (x := 54 + 18 * √5 + 6 * √39 + 2 * √195) (by rw [h195]; nlinarith [mul_nonneg (show 0 ≤ 6 + 2 * √5 by linarith) (show 0 ≤ √39 + 9 by linarith)])
  have e4 := sqrt_sq_of (x := 54 - 18 * √5 + 6 * √39 - 2 * √195) (by rw [h195]; nlinarith [mul_nonneg (show 0 ≤ 6 - 2 * √5 by linarith) (show 0 ≤ √39 + 9 by linarith)])
  unfold stroud_secrest_11
  dsimp only
  rw [h195] at *
  clear h195
  generalize √(5 : ℝ) = t0 at *
  generalize √(39 : ℝ) = t1 at *
  clear n0 l0 h0 n1 l1 h1
  e3_rule e3r_even [e0, e1, e2, e3, e4] e0 e1 e2 e3 e4

end e3r

section e3r2
open FixedE3r2

/-- C48, Stroud and Secrest VII. -/
theorem C48_e3r2_stroud_secrest_07 :
    stroud_secrest_07.ExactOnEnr2 3 ∧ stroud_secrest_07.degree = 5 := by
  have hs0 : √(5 : ℝ) ^ 2 = 5 := Real.sq_sqrt (by norm_num)
  have n0 := Real.sqrt_nonneg (5 : ℝ)
  have h0 : √(5 : ℝ) ≤ 3 := by nlinarith
  have e0 := sqrt_sq_of (x := (5 - √5) / 4) (by linarith)
  have e1 := sqrt_sq_of (x := (5 + √5) / 4) (by linarith)
  unfold stroud_secrest_07
  dsimp only
  generalize √(5 : ℝ) = t0 at *
  clear n0 h0
  e3_rule e3r2_even [e0, e1] e0 e1

/-- C48, Stroud and Secrest VIIIa. -/
theorem C48_e3r2_stroud_secrest_08a :
    stroud_secrest_08a.ExactOnEnr2 3 ∧ stroud_secrest_08a.degree = 5 := by
  have e0 := sqrt_sq_of (x := 5 / 4) (by norm_num)
  have e1 := sqrt_sq_of (x := 5 / 2) (by norm_num)
  unfold stroud_secrest_08a
  dsimp only
  e3_rule e3r2_even [e0, e1]

/-- C48, Stroud and Secrest VIIIb. -/
theorem C48_e3r2_stroud_secrest_08b :
    stroud_secrest_08b.ExactOnEnr2 3 ∧ stroud_secrest_08b.degree = 5 := by
  have e0 := sqrt_sq_of (x := 5 / 2) (by norm_num)
  have e1 := sqrt_sq_of (x := 5 / 6) (by norm_num)
  unfold stroud_secrest_08b
  dsimp only
  e3_rule e3r2_even [e0, e1]

/-- C48, Stroud and Secrest IX. -/
theorem C48_e3r2_stroud_secrest_09 :
    stroud_secrest_09.ExactOnEnr2 3 ∧ stroud_secrest_09.degree = 5 := by
  have hs0 : √(5 : ℝ) ^ 2 = 5 := Real.sq_sqrt (by norm_num)
  have n0 := Real.sqrt_nonneg (5 : ℝ)
  have h0 : √(5 : ℝ) ≤ 3 := by nlinarith
  have e0 := sqrt_sq_of (x := (15 - 5 * √5) / 12) (by linarith)
  have e1 := sqrt_sq_of (x := (15 + 5 * √5) / 12) (by linarith)
  have e2 := sqrt_sq_of (x := 5 / 6) (by norm_num)
  unfold stroud_secrest_09
  dsimp only
  generalize √(5 : ℝ) = t0 at *
  clear n0 h0
  e3_rule e3r2_even [e0, e1, e2] e0 e1 e2

/-- C48, Stroud and Secrest Xa. -/
theorem C48_e3r2_stroud_secrest_10a :
    (stroud_secrest_10 1).ExactOnEnr2 3 ∧ (stroud_secrest_10 1).degree = 7 := by
  have hs0 : √(15 : ℝ) ^ 2 = 15 := Real.sq_sqrt (by norm_num)
  have n0 := Real.sqrt_nonneg (15 : ℝ)
  have h0 : √(15 : ℝ) ≤ 4 := by nlinarith
  have e0 := sqrt_sq_of (x := (15 + 1 * √15) / 4) (by linarith)
  have e1 := sqrt_sq_of (x := (6 - 1 * √15) / 2) (by linarith)
  have e2 := sqrt_sq_of (x := (9 + 1 * 2 * √15) / 2) (by linarith)
  unfold stroud_secrest_10
  dsimp only
  generalize √(15 : ℝ) = t0 at *
  clear n0 h0
  e3_rule e3r2_even [e0, e1, e2] e0 e1 e2

/-- C48, Stroud and Secrest Xb. -/
theorem C48_e3r2_stroud_secrest_10b :
    (stroud_secrest_10 (-1)).ExactOnEnr2 3 ∧ (stroud_secrest_10 (-1)).degree = 7 := by
  have hs0 : √(15 : ℝ) ^ 2 = 15 := Real.sq_sqrt (by norm_num)
  have n0 := Real.sqrt_nonneg (15 : ℝ)
  have h0 : √(15 : ℝ) ≤ 4 := by nlinarith
  have e0 := sqrt_sq_of (x := (15 + (-1) * √15) / 4) (by linarith)
  have e1 := sqrt_sq_of (x := (6 - (-1) * √15) / 2) (by linarith)
  have e2 := sqrt_sq_of (x := (9 + (-1) * 2 * √15) / 2) (by linarith)
  unfold stroud_secrest_10
  dsimp only
  generalize √(15 : ℝ) = t0 at *
  clear n0 h0
  e3_rule e3r2_even [e0, e1, e2] e0 e1 e2

/-- C48, Stroud and Secrest XI, variant a. -/
theorem C48_e3r2_stroud_secrest_11a :
    (stroud_secrest_11 1).ExactOnEnr2 3 ∧ (stroud_secrest_11 1).degree = 7 := by
  have hs0 : √(2 : ℝ) ^ 2 = 2 := Real.sq_sqrt (by norm_num)
  have n0 := Real.sqrt_nonneg (2 : ℝ)
  have l0 : 1 ≤ √(2 : ℝ) := by nlinarith
  have h0 : √(2 : ℝ) ≤ 3 / 2 := by nlinarith
  have hs1 : √(5 : ℝ) ^ 2 = 5 := Real.sq_sqrt (by norm_num)
  have n1 := Real.sqrt_nonneg (5 : ℝ)
  have l1 : 2 ≤ √(5 : ℝ) := by nlinarith
  have h1 : √(5 : ℝ) ≤ 3 := by nlinarith
  have h10 : √(10 : ℝ) = √2 * √5 := by rw [← Real.sqrt_mul (by norm_num)]; norm_num
  have e0 := sqrt_sq_of (x := (25 + 1 * 15 * √2 + 5 * √5 + 1 * 3 * √10) / 4) (by rw [h10]; nlinarith [mul_nonneg (show 0 ≤ 5 + 1 * 3 * √2 by linarith) (show 0 ≤ 5 + √5 by linarith)])
  have e1 := sqrt_sq_of (x := (25 + 1 * 15 * √2 - 5 * √5 - 1 * 3 * √10) / 4) (by rw [h10]; nlinarith [mul_nonneg (show 0 ≤ 5 + 1 * 3 * √2 by linarith) (show 0 ≤ 5 - √5 by linarith)])
  have e2 := sqrt_sq_of (x := (3 - 1 * √2) / 2) (by linarith)
  have e3 := sqrt_sq_of (x := (9 - 1 * 3 * √2 - 3 * √5 + 1 * √10) / 4) (by rw [h10]; nlinarith [mul_nonneg (show 0 ≤ 3 - 1 * √2 by linarith) (show 0 ≤ 3 - √5 by linarith)])
  have e4 := sqrt_sq_of (x := (9 - 1 * 3 * √2 + 3 * √5 - 1 * √10) / 4) (by rw [h10]; nlinarith [mul_nonneg (show 0 ≤ 3 - 1 * √2 by linarith) (show 0 ≤ 3 + √5 by linarith)])
  unfold stroud_secrest_11
  dsimp only
  rw [h10] at *
  clear h10
  generalize √(2 : ℝ) = t0 at *
  generalize √(5 : ℝ) = t1 at *
  clear n0 l0 h0 n1 l1 h1
  e3_rule e3r2_even [e0, e1, e2, e3, e4] e0 e1 e2 e3 e4

/-- C48, Stroud and Secrest XI, variant b. -/
theorem C48_e3r2_stroud_secrest_11b :
    (stroud_secrest_11 (-1)).ExactOnEnr2 3 ∧ (stroud_secrest_11 (-1)).degree = 7 := by
  have hs0 : √(2 : ℝ) ^ 2 = 2 := Real.sq_sqrt (by norm_num)
  have n0 := Real.sqrt_nonneg (2 : ℝ)
  have l0 : 1 ≤ √(2 : ℝ) := by nlinarith
  have h0 : √(2 : ℝ) ≤ 3 / 2 := by nlinarith
  have hs1 : √(5 : ℝ) ^ 2 = 5 := Real.sq_sqrt (by norm_num)
  have n1 := Real.sqrt_nonneg (5 : ℝ)
  have l1 : 2 ≤ √(5 : ℝ) := by nlinarith
  have h1 : √(5 : ℝ) ≤ 3 := by nlinarith
  have h10 : √(10 : ℝ) = √2 * √5 := by rw [← Real.sqrt_mul (by norm_num)]; norm_num
  have e0 := sqrt_sq_of (x := (25 + (-1) * 15 * √2 + 5 * √5 + (-1) * 3 * √10) / 4) (by rw [h10]; nlinarith [mul_nonneg (show 0 ≤ 5 + (-1) * 3 * √2 by linarith) (show 0 ≤ 5 + √5 by linarith)])
  have e1 := sqrt_sq_of (x := (25 + (-1) * 15 * √2 - 5 * √5 - (-1) * 3 * √10) / 4) (by rw [h10]; nlinarith [mul_nonneg (show 0 ≤ 5 + (-1) * 3 * √2 by linarith) (show 0 ≤ 5 - √5 by linarith)])
  have e2 := sqrt_sq_of (x := (3 - (-1) * √2) / 2) (by linarith)
  have e3 := sqrt_sq_of (x := (9 - (-1) * 3 * √2 - 3 * √5 + (-1) * √10) / 4) (by rw [h10]; nlinarith [mul_nonneg (show 0 ≤ 3 - (-1) * √2 by linarith) (show 0 ≤ 3 - √5 by linarith)])
  have e4 := sqrt_sq_of (x := (9 - (-1) * 3 * √2 + 3 * √5 - (-1) * √10) / 4) (by rw [h10]; nlinarith [mul_nonneg (show 0 ≤ 3 - (-1) * √2 by linarith) (show 0 ≤ 3 + √5 by linarith)])
  unfold stroud_secrest_11
  dsimp only
  rw [h10] at *
  clear h10
  generalize √(2 : ℝ) = t0 at *
  generalize √(5 : ℝ) = t1 at *
  clear n0 l0 h0 n1 l1 h1
  e3_rule e3r2_even [e0, e1, e2, e3, e4] e0 e1 e2 e3 e4

end e3r2

end Quadpy
