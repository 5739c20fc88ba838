import Verif.Model.FixedS3
import Verif.Lemmas.FixedRules
import Verif.Lemmas.QuadComb

/-!
# C48: closed-form rules on the sphere

Each theorem says that the rule integrates all polynomials up to the degree it reports exactly over
the unit sphere, its weights relative to the area, and states that degree.
-/

namespace Quadpy
open Finset FixedU3

theorem sphere3_even : EvenMom (Spec.sphere 3) fun p =>
    oddFac (p 0) * oddFac (p 1) * oddFac (p 2) / stepFac 3 (p 0 + p 1 + p 2) := by
  simpa only [Fin.prod_univ_three, Fin.sum_univ_three] using sphere_even (n := 3) (by norm_num)

/-- One rule made of sign-symmetric orbits. -/
local macro "u3_rule " "[" es:Lean.Parser.Tactic.simpLemma,* "]" " with " "[" hs:term,* "]" ids:(ppSpace colGt ident)* : tactic => `(tactic| (
  refine ⟨space_exact sphere3_even (by simp [spaceKeys]) ?_, rfl⟩
  intro p q r hpqr
  simp only [evenSum3, List.map_cons, List.map_nil, List.zipWith_cons_cons, List.zipWith_nil_left,
    List.sum_cons, List.sum_nil, keyMom3, Matrix.cons_val_zero, Matrix.cons_val_one, Matrix.cons_val,
    $es,*]
  clear $ids*
  have hp : p ≤ 5 := by omega
  interval_cases p <;> (
    have hq : q ≤ 5 := by omega
    interval_cases q <;> first
    | (exfalso; omega)
    | (have hr : r ≤ 5 := by omega
       interval_cases r <;> first
        | (exfalso; omega)
        | (conv_rhs => norm_num [oddFac, stepFac]
           quad_comb [$hs,*])))))

/-- C48, Albrecht and Collatz 1. -/
theorem C48_u3_albrecht_collatz_1 :
    albrecht_collatz_1.ExactOnSphere 3 ∧ albrecht_collatz_1.degree = 5 := by
  have hs0 : √(5 : ℝ) ^ 2 = 5 := Real.sq_sqrt (by norm_num)
  have n0 := Real.sqrt_nonneg (5 : ℝ)
  have h0 : √(5 : ℝ) ≤ 3 := by nlinarith
  have e0 := sqrt_sq_of (x := (5 + √5) / 10) (by linarith)
  have e1 := sqrt_sq_of (x := (5 - √5) / 10) (by linarith)
  unfold albrecht_collatz_1
  dsimp only
  generalize √(5 : ℝ) = t0 at *
  clear n0 h0
  u3_rule [e0, e1] with [hs0] e0 e1

/-- C48, Albrecht and Collatz 2. -/
theorem C48_u3_albrecht_collatz_2 :
    albrecht_collatz_2.ExactOnSphere 3 ∧ albrecht_collatz_2.degree = 5 := by
  unfold albrecht_collatz_2
  u3_rule [] with []

/-- C48, Albrecht and Collatz 3. -/
theorem C48_u3_albrecht_collatz_3 :
    albrecht_collatz_3.ExactOnSphere 3 ∧ albrecht_collatz_3.degree = 5 := by
  unfold albrecht_collatz_3
  u3_rule [] with []

/-- C48, Albrecht and Collatz 5. -/
theorem C48_u3_albrecht_collatz_5 :
    albrecht_collatz_5.ExactOnSphere 3 ∧ albrecht_collatz_5.degree = 7 := by
  unfold albrecht_collatz_5
  u3_rule [] with []

/-- C48, Albrecht and Collatz 4. -/
theorem C48_u3_albrecht_collatz_4 :
    albrecht_collatz_4.ExactOnSphere 3 ∧ albrecht_collatz_4.degree = 5 := by
  have hs0 : √(5 : ℝ) ^ 2 = 5 := Real.sq_sqrt (by norm_num)
  have n0 := Real.sqrt_nonneg (5 : ℝ)
  have h0 : √(5 : ℝ) ≤ 3 := by nlinarith
  have e0 := sqrt_sq_of (x := (3 - √5) / 6) (by linarith)
  have e1 := sqrt_sq_of (x := (3 + √5) / 6) (by linarith)
  unfold albrecht_collatz_4
  dsimp only
  generalize √(5 : ℝ) = t0 at *
  clear n0 h0
  u3_rule [e0, e1] with [hs0] e0 e1

/-- C48, McLaren 1. -/
theorem C48_u3_mclaren_01 :
    mclaren_01.ExactOnSphere 3 ∧ mclaren_01.degree = 3 := by
  unfold mclaren_01
  u3_rule [] with []

/-- C48, McLaren 2. -/
theorem C48_u3_mclaren_02 :
    mclaren_02.ExactOnSphere 3 ∧ mclaren_02.degree = 5 := by
  have hs0 : √(5 : ℝ) ^ 2 = 5 := Real.sq_sqrt (by norm_num)
  have n0 := Real.sqrt_nonneg (5 : ℝ)
  have h0 : √(5 : ℝ) ≤ 3 := by nlinarith
  unfold mclaren_02
  dsimp only
  generalize √(5 : ℝ) = t0 at *
  clear n0 h0
  u3_rule [] with [hs0]

/-- C48, McLaren 5. -/
theorem C48_u3_mclaren_05 :
    mclaren_05.ExactOnSphere 3 ∧ mclaren_05.degree = 9 := by
  have hs0 : √(5 : ℝ) ^ 2 = 5 := Real.sq_sqrt (by norm_num)
  have n0 := Real.sqrt_nonneg (5 : ℝ)
  have h0 : √(5 : ℝ) ≤ 3 := by nlinarith
  have e0 := sqrt_sq_of (x := (5 + √5) / 10) (by linarith)
  have e1 := sqrt_sq_of (x := (5 - √5) / 10) (by linarith)
  have e2 := sqrt_sq_of (x := (3 - √5) / 6) (by linarith)
  have e3 := sqrt_sq_of (x := (3 + √5) / 6) (by linarith)
  unfold mclaren_05
  dsimp only
  generalize √(5 : ℝ) = t0 at *
  clear n0 h0
  u3_rule [e0, e1, e2, e3] with [hs0] e0 e1 e2 e3

/-- C48, McLaren 6. -/
theorem C48_u3_mclaren_06 :
    mclaren_06.ExactOnSphere 3 ∧ mclaren_06.degree = 9 := by
  have hs0 : √(5 : ℝ) ^ 2 = 5 := Real.sq_sqrt (by norm_num)
  have n0 := Real.sqrt_nonneg (5 : ℝ)
  have h0 : √(5 : ℝ) ≤ 3 := by nlinarith
  have e0 := sqrt_sq_of (x := (5 + √5) / 10) (by linarith)
  have e1 := sqrt_sq_of (x := (5 - √5) / 10) (by linarith)
  unfold mclaren_06
  dsimp only
  generalize √(5 : ℝ) = t0 at *
  clear n0 h0
  u3_rule [e0, e1] with [hs0] e0 e1

/-- C48, McLaren 7. -/
theorem C48_u3_mclaren_07 :
    mclaren_07.ExactOnSphere 3 ∧ mclaren_07.degree = 9 := by
  have hs0 : √(5 : ℝ) ^ 2 = 5 := Real.sq_sqrt (by norm_num)
  have n0 := Real.sqrt_nonneg (5 : ℝ)
  have h0 : √(5 : ℝ) ≤ 3 := by nlinarith
  have e0 := sqrt_sq_of (x := (3 - √5) / 6) (by linarith)
  have e1 := sqrt_sq_of (x := (3 + √5) / 6) (by linarith)
  unfold mclaren_07
  dsimp only
  generalize √(5 : ℝ) = t0 at *
  clear n0 h0
  u3_rule [e0, e1] with [hs0] e0 e1

/-- C48, McLaren 8. -/
theorem C48_u3_mclaren_08 :
    mclaren_08.ExactOnSphere 3 ∧ mclaren_08.degree = 11 := by
  have e0 := sqrt_sq_of (x := 1 / 11) (by norm_num)
  have e1 := sqrt_sq_of (x := 9 / 11) (by norm_num)
  unfold mclaren_08
  dsimp only
  u3_rule [e0, e1] with []

set_option maxHeartbeats 1600000 in
/-- C48, McLaren 9. -/
theorem C48_u3_mclaren_09 :
    mclaren_09.ExactOnSphere 3 ∧ mclaren_09.degree = 11 := by
  have hs0 : √(5 : ℝ) ^ 2 = 5 := Real.sq_sqrt (by norm_num)
  have n0 := Real.sqrt_nonneg (5 : ℝ)
  have h0 : √(5 : ℝ) ≤ 3 := by nlinarith
  have e0 := sqrt_sq_of (x := (5 + √5) / 10) (by linarith)
  have e1 := sqrt_sq_of (x := (5 - √5) / 10) (by linarith)
  have e2 := sqrt_sq_of (x := (3 - √5) / 6) (by linarith)
  have e3 := sqrt_sq_of (x := (3 + √5) / 6) (by linarith)
  unfold mclaren_09
  dsimp only
  generalize √(5 : ℝ) = t0 at *
  clear n0 h0
  u3_rule [e0, e1, e2, e3] with [hs0] e0 e1 e2 e3

end Quadpy
