import Verif.Model.FixedC2
import Verif.Lemmas.FixedRules

/-!
# C48: closed-form rules on the square

Each theorem says that the rule integrates all polynomials up to the degree it reports exactly over
the square [-1, 1]^2, its weights relative to the area, and states that degree.
-/

namespace Quadpy
open Finset FixedC2

/-- One rule made of sign-symmetric orbits. -/
local macro "c2_rule " "[" es:Lean.Parser.Tactic.simpLemma,* "]" : tactic => `(tactic| (
  refine ⟨ExactOnCube_of_rel (plane_exact square_even
    (by simp [planeKeys, SymEntry.Regular, SymKey.Accepts, SymKey.arities]) ?_), rfl⟩
  plane_fixed [$es,*]))

/-- C48, Albrecht and Collatz 1. -/
theorem C48_c2_albrecht_collatz_1 :
    albrecht_collatz_1.ExactOnCube 2 ∧ albrecht_collatz_1.degree = 3 := by c2_rule []

/-- C48, Albrecht and Collatz 4. -/
theorem C48_c2_albrecht_collatz_4 :
    albrecht_collatz_4.ExactOnCube 2 ∧ albrecht_collatz_4.degree = 5 := by c2_rule []

/-- C48, Burnside (dunavant_02). -/
theorem C48_c2_burnside : burnside.ExactOnCube 2 ∧ burnside.degree = 5 := by
  have e1 := sqrt_sq_of (x := 7 / 15) (by norm_num)
  have e2 := sqrt_sq_of (x := 7 / 9) (by norm_num)
  c2_rule [e1, e2]

/-- C48, Dunavant 0. -/
theorem C48_c2_dunavant_00 : dunavant_00.ExactOnCube 2 ∧ dunavant_00.degree = 1 := by c2_rule []

/-- C48, Hammer and Stroud 1-2. -/
theorem C48_c2_hammer_stroud_1_2 : hammer_stroud_1_2.ExactOnCube 2 ∧ hammer_stroud_1_2.degree = 3 := by
  have e1 := sqrt_sq_of (x := 2 / 3) (by norm_num)
  c2_rule [e1]

/-- C48, Hammer and Stroud 2-2 (stroud_c2_5_4). -/
theorem C48_c2_hammer_stroud_2_2 : hammer_stroud_2_2.ExactOnCube 2 ∧ hammer_stroud_2_2.degree = 5 := by
  have e1 := sqrt_sq_of (x := 3 / 5) (by norm_num)
  c2_rule [e1]

/-- C48, Irwin 1. -/
theorem C48_c2_irwin_1 : irwin_1.ExactOnCube 2 ∧ irwin_1.degree = 3 := by c2_rule []

/-- C48, Irwin 2. -/
theorem C48_c2_irwin_2 : irwin_2.ExactOnCube 2 ∧ irwin_2.degree = 5 := by c2_rule []

/-- C48, Maxwell. -/
theorem C48_c2_maxwell : maxwell.ExactOnCube 2 ∧ maxwell.degree = 7 := by
  have hs : √(186 : ℝ) ^ 2 = 186 := Real.sq_sqrt (by norm_num)
  have h0 := Real.sqrt_nonneg (186 : ℝ)
  have h1 : √(186 : ℝ) ≤ 14 := by nlinarith
  have e1 := sqrt_sq_of (x := 12 / 35) (by norm_num)
  have e2 := sqrt_sq_of (x := (93 + 3 * √186) / 155) (by linarith)
  have e3 := sqrt_sq_of (x := (93 - 3 * √186) / 155) (by linarith)
  unfold maxwell
  generalize √(186 : ℝ) = s at *
  c2_rule [e1, e2, e3]

/-- C48, Meister. -/
theorem C48_c2_meister : meister.ExactOnCube 2 ∧ meister.degree = 7 := by c2_rule []

/-- C48, Miller. -/
theorem C48_c2_miller : miller.ExactOnCube 2 ∧ miller.degree = 1 := by c2_rule []

/-- C48, Phillips. -/
theorem C48_c2_phillips : phillips.ExactOnCube 2 ∧ phillips.degree = 7 := by
  have hs : √(385 : ℝ) ^ 2 = 385 := Real.sq_sqrt (by norm_num)
  have h0 := Real.sqrt_nonneg (385 : ℝ)
  have h1 : √(385 : ℝ) ≤ 20 := by nlinarith
  have e1 := sqrt_sq_of (x := 3 / 5) (by norm_num)
  have e2 := sqrt_sq_of (x := (105 + 3 * √385) / 140) (by linarith)
  have e3 := sqrt_sq_of (x := (105 - 3 * √385) / 140) (by linarith)
  unfold phillips
  generalize √(385 : ℝ) = s at *
  c2_rule [e1, e2, e3]

/-- C48, the product trapezoidal rule. -/
theorem C48_c2_stroud_c2_1_1 : stroud_c2_1_1.ExactOnCube 2 ∧ stroud_c2_1_1.degree = 1 := by c2_rule []

/-- C48, the product Gauss rule of degree 3 (dunavant_01). -/
theorem C48_c2_stroud_c2_3_1 : stroud_c2_3_1.ExactOnCube 2 ∧ stroud_c2_3_1.degree = 3 := by
  have e1 := sqrt_sq_of (x := 1 / 3) (by norm_num)
  c2_rule [e1]

/-- C48, stroud_c2_7_4 as in the code, which reports degree 1. -/
theorem C48_c2_stroud_c2_7_4 : stroud_c2_7_4.ExactOnCube 2 ∧ stroud_c2_7_4.degree = 1 := by
  have hs : √(30 : ℝ) ^ 2 = 30 := Real.sq_sqrt (by norm_num)
  have e1 := sqrt_sq_of (x := 3 / 5) (by norm_num)
  have h0 := Real.sqrt_nonneg (30 : ℝ)
  have e3 := sqrt_sq_of (x := (15 + 2 * √30) / 35) (by linarith)
  unfold stroud_c2_7_4 stroudC274
  generalize √(30 : ℝ) = s at *
  c2_rule [e1, e3]

/-- C48: stroud_c2_7_4 is announced as the product Gauss rule of degree 7, and it is that rule if the
first value of `r` is not overwritten. -/
theorem C48_c2_stroud_c2_7_4_intended :
    (stroudC274 √((15 - 2 * √30) / 35) 7).ExactOnCube 2 ∧ (stroudC274 √((15 - 2 * √30) / 35) 7).degree = 7 := by
  have hs : √(30 : ℝ) ^ 2 = 30 := Real.sq_sqrt (by norm_num)
  have h0 := Real.sqrt_nonneg (30 : ℝ)
  have h1 : √(30 : ℝ) ≤ 6 := by nlinarith
  have e1 := sqrt_sq_of (x := (15 - 2 * √30) / 35) (by linarith)
  have e3 := sqrt_sq_of (x := (15 + 2 * √30) / 35) (by linarith)
  unfold stroudC274
  generalize √(30 : ℝ) = s at *
  c2_rule [e1, e3]

/-- C48, Tyler 1. -/
theorem C48_c2_tyler_1 : FixedC2.tyler_1.ExactOnCube 2 ∧ FixedC2.tyler_1.degree = 5 := by c2_rule []

/-- C48, Tyler 2 (franke_5, dunavant_03). -/
theorem C48_c2_tyler_2 : FixedC2.tyler_2.ExactOnCube 2 ∧ FixedC2.tyler_2.degree = 7 := by
  have hs : √(583 : ℝ) ^ 2 = 583 := Real.sq_sqrt (by norm_num)
  have h0 := Real.sqrt_nonneg (583 : ℝ)
  have h1 : √(583 : ℝ) ≤ 25 := by nlinarith
  have e1 := sqrt_sq_of (x := 6 / 7) (by norm_num)
  have e2 := sqrt_sq_of (x := (114 + 3 * √583) / 287) (by linarith)
  have e3 := sqrt_sq_of (x := (114 - 3 * √583) / 287) (by linarith)
  unfold FixedC2.tyler_2
  generalize √(583 : ℝ) = s at *
  c2_rule [e1, e2, e3]

/-- C48, Tyler 3. -/
theorem C48_c2_tyler_3 : FixedC2.tyler_3.ExactOnCube 2 ∧ FixedC2.tyler_3.degree = 7 := by c2_rule []

/-- C48, Franke 6. -/
theorem C48_c2_franke_6 : franke_6.ExactOnCube 2 ∧ franke_6.degree = 7 := by
  have hs : √(10 / 31 : ℝ) ^ 2 = 10 / 31 := Real.sq_sqrt (by norm_num)
  have h0 := Real.sqrt_nonneg (10 / 31 : ℝ)
  have h1 : √(10 / 31 : ℝ) ≤ 1 := by nlinarith
  have e1 := sqrt_sq_of (x := 3 / 2) (by norm_num)
  have e2 := sqrt_sq_of (x := 3 / 7 * (1 + √(10 / 31))) (by linarith)
  have e3 := sqrt_sq_of (x := 3 / 7 * (1 - √(10 / 31))) (by linarith)
  unfold franke_6
  generalize √(10 / 31 : ℝ) = s at *
  c2_rule [e1, e2, e3]

/-- C48, Albrecht and Collatz 2. -/
theorem C48_c2_albrecht_collatz_2 :
    albrecht_collatz_2.ExactOnCube 2 ∧ albrecht_collatz_2.degree = 5 := by
  refine ⟨ExactOnCube_of_rel ?_, rfl⟩
  have e1 := sqrt_sq_of (x := 3 / 5) (by norm_num)
  have e2 := sqrt_sq_of (x := 1 / 3) (by norm_num)
  have e3 := sqrt_sq_of (x := 14 / 15) (by norm_num)
  unfold albrecht_collatz_2
  generalize √(3 / 5 : ℝ) = r at *
  generalize √(1 / 3 : ℝ) = s at *
  generalize √(14 / 15 : ℝ) = t at *
  refine sym_exact2 square_even (by simp [SymEntry.Regular, SymKey.Accepts, SymKey.arities, orbit]) ?_
  plane_any []

/-- C48, Albrecht and Collatz 3. -/
theorem C48_c2_albrecht_collatz_3 :
    albrecht_collatz_3.ExactOnCube 2 ∧ albrecht_collatz_3.degree = 5 := by
  refine ⟨ExactOnCube_of_rel ?_, rfl⟩
  have hs : √(24 : ℝ) ^ 2 = 24 := Real.sq_sqrt (by norm_num)
  have h0 := Real.sqrt_nonneg (24 : ℝ)
  have h1 : √(24 : ℝ) ≤ 5 := by nlinarith
  have e1 := sqrt_sq_of (x := 7 / 15) (by norm_num)
  have p2 : 0 ≤ (7 + √24) / 15 := by linarith
  have p3 : 0 ≤ (7 - √24) / 15 := by linarith
  have e2 := sqrt_sq_of p2
  have e3 := sqrt_sq_of p3
  have e4 : √((7 + √24) / 15) * √((7 - √24) / 15) = 1 / 3 := by
    rw [← Real.sqrt_mul p2, Real.sqrt_eq_iff_mul_self_eq (mul_nonneg p2 p3) (by norm_num)]
    grind
  unfold albrecht_collatz_3
  dsimp only
  generalize √(7 / 15 : ℝ) = r at *
  generalize √((7 + √24) / 15 : ℝ) = s at *
  generalize √((7 - √24) / 15 : ℝ) = t at *
  generalize √(24 : ℝ) = u at *
  clear h0 h1 p2 p3
  refine sym_exact2 square_even (by simp [SymEntry.Regular, SymKey.Accepts, SymKey.arities, orbit]) ?_
  plane_any []

/-- C48, Cohen and Gismalla 1. -/
theorem C48_c2_cohen_gismalla_1 : cohen_gismalla_1.ExactOnCube 2 ∧ cohen_gismalla_1.degree = 3 := by
  refine ⟨ExactOnCube_of_rel ?_, rfl⟩
  have hs : √(2 / 63 : ℝ) ^ 2 = 2 / 63 := Real.sq_sqrt (by norm_num)
  have h0 := Real.sqrt_nonneg (2 / 63 : ℝ)
  have h1 : √(2 / 63 : ℝ) ≤ 1 / 3 := by nlinarith
  have e2 := sqrt_sq_of (x := (1 / 3 + √(2 / 63)) / (5 / 7)) (by apply div_nonneg <;> linarith)
  have e3 := sqrt_sq_of (x := (1 / 3 - √(2 / 63)) / (5 / 7)) (by apply div_nonneg <;> linarith)
  unfold cohen_gismalla_1
  dsimp only
  generalize √((1 / 3 + √(2 / 63)) / (5 / 7)) = u at *
  generalize √((1 / 3 - √(2 / 63)) / (5 / 7)) = v at *
  generalize √(2 / 63 : ℝ) = s at *
  refine sym_exact2 square_even (by simp [SymEntry.Regular, SymKey.Accepts, SymKey.arities, orbit]) ?_
  plane_any []

end Quadpy
