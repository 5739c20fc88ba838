import Verif.Model.FixedS2
import Verif.Lemmas.Rings

/-!
# C48: closed-form rules on the disk

Each theorem says that the rule integrates all polynomials up to the degree it reports exactly over
the unit disk, its weights relative to the area, and states that degree.
-/

namespace Quadpy
open Finset FixedS2

theorem disk_even : EvenMom (Spec.ball 2) fun p =>
    2 / (2 + 2 * ((p 0 : ℝ) + p 1)) * (oddFac (p 0) * oddFac (p 1) / stepFac 2 (p 0 + p 1)) := by
  simpa only [Fin.prod_univ_two, Fin.sum_univ_two, Nat.cast_ofNat, Nat.cast_add] using
    ball_even (n := 2) (by norm_num)

/-- One rule made of sign-symmetric orbits. -/
local macro "s2_rule " "[" es:Lean.Parser.Tactic.simpLemma,* "]" ids:(ppSpace colGt ident)* : tactic => `(tactic| (
  refine ⟨plane_exact disk_even
    (by simp [planeKeys, SymEntry.Regular, SymKey.Accepts, SymKey.arities]) ?_, rfl⟩
  plane_fixed [$es,*] $ids*))

/-- One rule made of polygons. -/
local macro "ring_rule " n:num "[" es:Lean.Parser.Tactic.simpLemma,* "]" : tactic => `(tactic| (
  refine ⟨?_, rfl⟩
  rw [Scheme.ExactOnBall, ball_eq_ballPow]
  refine ring_exact (ballPow_linOnMono (by norm_num) (by norm_num)) (ballPow_mono (by norm_num) (by norm_num)) $n
    (by norm_num) (by decide) (by norm_num)
    (by simp [SymEntry.Regular, SymKey.Accepts, SymKey.arities]) (fun s hs => ?_) (fun s hn hs => ?_)
  all_goals
    simp only [ringSum, List.map_cons, List.map_nil, List.zipWith_cons_cons, List.zipWith_nil_left,
      List.sum_cons, List.sum_nil, ringTerm, ringSign, ballRho, $es,*]
    have hs' : s ≤ 8 := by omega
    interval_cases s <;> first
      | (exfalso; omega)
      | (norm_num; done)
      | (norm_num; grind)))

/-- C48, the midpoint rule. -/
theorem C48_s2_midpoint : FixedS2.midpoint.ExactOnBall 2 ∧ FixedS2.midpoint.degree = 1 := by
  s2_rule []

/-- C48, Albrecht 1 (albrecht_collatz). -/
theorem C48_s2_albrecht_1 : albrecht_1.ExactOnBall 2 ∧ albrecht_1.degree = 3 := by s2_rule []

/-- C48, Albrecht 2. -/
theorem C48_s2_albrecht_2 : albrecht_2.ExactOnBall 2 ∧ albrecht_2.degree = 5 := by
  have e1 := sqrt_sq_of (x := 2 / 3) (by norm_num)
  ring_rule 6 [e1]

/-- C48, Albrecht 3. -/
theorem C48_s2_albrecht_3 : albrecht_3.ExactOnBall 2 ∧ albrecht_3.degree = 7 := by
  have hs : √(29 : ℝ) ^ 2 = 29 := Real.sq_sqrt (by norm_num)
  have h0 := Real.sqrt_nonneg (29 : ℝ)
  have h1 : √(29 : ℝ) ≤ 6 := by nlinarith
  have e1 := sqrt_sq_of (x := 3 / 4) (by norm_num)
  have e2 := sqrt_sq_of (x := (27 - 3 * √29) / 52) (by linarith)
  have e3 := sqrt_sq_of (x := (27 + 3 * √29) / 52) (by linarith)
  unfold albrecht_3
  dsimp only
  generalize √(29 : ℝ) = t at *
  ring_rule 4 [e1, e2, e3]

/-- C48, Albrecht 4. -/
theorem C48_s2_albrecht_4 : albrecht_4.ExactOnBall 2 ∧ albrecht_4.degree = 9 := by
  have hs : √(111 : ℝ) ^ 2 = 111 := Real.sq_sqrt (by norm_num)
  have h0 := Real.sqrt_nonneg (111 : ℝ)
  have h1 : √(111 : ℝ) ≤ 11 := by nlinarith
  have e1 := sqrt_sq_of (x := 4 / 5) (by norm_num)
  have e2 := sqrt_sq_of (x := (96 - 4 * √111) / 155) (by linarith)
  have e3 := sqrt_sq_of (x := (96 + 4 * √111) / 155) (by linarith)
  unfold albrecht_4
  dsimp only
  generalize √(111 : ℝ) = t at *
  ring_rule 6 [e1, e2, e3]

/-- C48, Hammer and Stroud 12-2. -/
theorem C48_s2_hammer_stroud_12_2 :
    hammer_stroud_12_2.ExactOnBall 2 ∧ hammer_stroud_12_2.degree = 5 := by
  have e1 := sqrt_sq_of (x := 1 / 2) (by norm_num)
  s2_rule [e1]

/-- C48, Hammer and Stroud 18. -/
theorem C48_s2_hammer_stroud_18 : hammer_stroud_18.ExactOnBall 2 ∧ hammer_stroud_18.degree = 7 := by
  have hs : √(3 : ℝ) ^ 2 = 3 := Real.sq_sqrt (by norm_num)
  have h0 := Real.sqrt_nonneg (3 : ℝ)
  have h1 : √(3 : ℝ) ≤ 2 := by nlinarith
  have e2 := sqrt_sq_of (x := (3 - √3) / 6) (by linarith)
  have e3 := sqrt_sq_of (x := (3 + √3) / 6) (by linarith)
  unfold hammer_stroud_18
  dsimp only
  generalize √(3 : ℝ) = t at *
  ring_rule 8 [e2, e3]

/-- C48, Mysovskih 2. -/
theorem C48_s2_mysovskih_2 : mysovskih_2.ExactOnBall 2 ∧ mysovskih_2.degree = 11 := by
  have hs : √(10 : ℝ) ^ 2 = 10 := Real.sq_sqrt (by norm_num)
  have h0 := Real.sqrt_nonneg (10 : ℝ)
  have h1 : √(10 : ℝ) ≤ 4 := by nlinarith
  have hs' : √(601 : ℝ) ^ 2 = 601 := Real.sq_sqrt (by norm_num)
  have h0' := Real.sqrt_nonneg (601 : ℝ)
  have h1' : √(601 : ℝ) ≤ 25 := by nlinarith
  have e1 := sqrt_sq_of (x := (31 - √601) / 60) (by linarith)
  have e2 := sqrt_sq_of (x := (31 + √601) / 60) (by linarith)
  have e3 := sqrt_sq_of (x := 3 / 5) (by norm_num)
  have e4 := sqrt_sq_of (x := (10 - √10) / 20) (by linarith)
  have e5 := sqrt_sq_of (x := (10 + √10) / 20) (by linarith)
  have e6 := sqrt_sq_of (x := (10 - √10) / 60) (by linarith)
  have e7 := sqrt_sq_of (x := (10 + √10) / 60) (by linarith)
  have hB : ∀ c : ℝ, (857 * √601 + c) / 20736 / √601 = (857 + c * √601 / 601) / 20736 := by
    intro c
    have : √(601 : ℝ) ≠ 0 := by positivity
    grind
  have hB' : ∀ c : ℝ, (857 * √601 - c) / 20736 / √601 = (857 - c * √601 / 601) / 20736 := by
    intro c
    have : √(601 : ℝ) ≠ 0 := by positivity
    grind
  unfold mysovskih_2
  dsimp only
  simp only [hB, hB']
  clear hB hB'
  generalize √(10 : ℝ) = t at *
  generalize √(601 : ℝ) = u at *
  clear h0 h1 h0' h1'
  s2_rule [e1, e2, e3, e4, e5, e6, e7] e1 e2 e3 e4 e5 e6 e7

/-- C48, Peirce 1956-1. -/
theorem C48_s2_peirce_1956_1 : peirce_1956_1.ExactOnBall 2 ∧ peirce_1956_1.degree = 7 := by
  have hs : √(29 : ℝ) ^ 2 = 29 := Real.sq_sqrt (by norm_num)
  have h0 := Real.sqrt_nonneg (29 : ℝ)
  have h1 : √(29 : ℝ) ≤ 6 := by nlinarith
  have e1 := sqrt_sq_of (x := 3 / 4) (by norm_num)
  have e2 := sqrt_sq_of (x := (27 - 3 * √29) / 104) (by linarith)
  have e3 := sqrt_sq_of (x := (27 + 3 * √29) / 104) (by linarith)
  unfold peirce_1956_1
  dsimp only
  generalize √(29 : ℝ) = t at *
  s2_rule [e1, e2, e3]

/-- Squares of the coordinates on the half-diagonal of the octagon. -/
theorem cos_sq_pi8 : Real.cos (Real.pi / 8) ^ 2 = (2 + √2) / 4 := by
  rw [Real.cos_pi_div_eight, div_pow, Real.sq_sqrt (by positivity)]; norm_num

theorem sin_sq_pi8 : Real.sin (Real.pi / 8) ^ 2 = (2 - √2) / 4 := by
  rw [Real.sin_sq, cos_sq_pi8]; ring

/-- C48, Peirce 1956-2. -/
theorem C48_s2_peirce_1956_2 : peirce_1956_2.ExactOnBall 2 ∧ peirce_1956_2.degree = 9 := by
  have hs : √(15 : ℝ) ^ 2 = 15 := Real.sq_sqrt (by norm_num)
  have h0 := Real.sqrt_nonneg (15 : ℝ)
  have h1 : √(15 : ℝ) ≤ 3.88 := by nlinarith
  have h2 : 3.85 ≤ √(15 : ℝ) := by nlinarith
  have hq : √(2 : ℝ) ^ 2 = 2 := Real.sq_sqrt (by norm_num)
  have hc := cos_sq_pi8
  have hd := sin_sq_pi8
  have hr : √(185 * √15 - 700) ^ 2 = 185 * √15 - 700 := Real.sq_sqrt (by linarith)
  have hr0 := Real.sqrt_nonneg (185 * √15 - 700)
  have hr1 : √(185 * √15 - 700) ≤ 8 := by nlinarith
  have e1 := sqrt_sq_of (x := (5 + √15) / 10) (by linarith)
  have e2 := sqrt_sq_of (x := (5 - √15) / 10) (by linarith)
  have e3 := sqrt_sq_of (x := 1 / 2) (by norm_num)
  have e4 := sqrt_sq_of (x := (5 + √15 + √(185 * √15 - 700)) / 20) (by linarith)
  have e5 := sqrt_sq_of (x := (5 + √15 - √(185 * √15 - 700)) / 20) (by linarith)
  unfold peirce_1956_2
  dsimp only
  generalize √(185 * √15 - 700) = v at *
  generalize √(15 : ℝ) = t at *
  generalize √(2 : ℝ) = u at *
  clear h0 h1 h2 hr0 hr1
  s2_rule [mul_pow, e1, e2, e3, e4, e5, hc, hd] e1 e2 e3 e4 e5 hc hd

/-- C48, Peirce 1956-3. -/
theorem C48_s2_peirce_1956_3 : peirce_1956_3.ExactOnBall 2 ∧ peirce_1956_3.degree = 11 := by
  have hs : √(15 : ℝ) ^ 2 = 15 := Real.sq_sqrt (by norm_num)
  have h0 := Real.sqrt_nonneg (15 : ℝ)
  have h1 : √(15 : ℝ) ≤ 3.88 := by nlinarith
  have h2 : 3.85 ≤ √(15 : ℝ) := by nlinarith
  have hr : √(45 - 10 * √15) ^ 2 = 45 - 10 * √15 := Real.sq_sqrt (by linarith)
  have hr0 := Real.sqrt_nonneg (45 - 10 * √15)
  have hr1 : √(45 - 10 * √15) ≤ 5 := by nlinarith
  have hq : √(40 * √15 - 150) ^ 2 = 40 * √15 - 150 := Real.sq_sqrt (by linarith)
  have hq0 := Real.sqrt_nonneg (40 * √15 - 150)
  have hq1 : √(40 * √15 - 150) ≤ 4 := by nlinarith
  have e1 := sqrt_sq_of (x := (5 + √15) / 10) (by linarith)
  have e2 := sqrt_sq_of (x := (5 - √15) / 10) (by linarith)
  have e3 := sqrt_sq_of (x := 1 / 2) (by norm_num)
  have e4 := sqrt_sq_of (x := (5 + √(45 - 10 * √15)) / 20) (by linarith)
  have e5 := sqrt_sq_of (x := (5 - √(45 - 10 * √15)) / 20) (by linarith)
  have e6 := sqrt_sq_of (x := (5 + √15 + 2 * √(40 * √15 - 150)) / 20) (by linarith)
  have e7 := sqrt_sq_of (x := (5 + √15 - 2 * √(40 * √15 - 150)) / 20) (by linarith)
  have e8 := sqrt_sq_of (x := (5 - √15) / 20) (by linarith)
  unfold peirce_1956_3
  dsimp only
  generalize √(45 - 10 * √15) = v at *
  generalize √(40 * √15 - 150) = u at *
  generalize √(15 : ℝ) = t at *
  clear h0 h1 h2 hr0 hr1 hq0 hq1
  s2_rule [e1, e2, e3, e4, e5, e6, e7, e8] e1 e2 e3 e4 e5 e6 e7 e8

end Quadpy
