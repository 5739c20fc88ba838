import Verif.Lemmas.Radii
import Verif.Props.C25
import Verif.Model.Sn

/-!
C24, continued: the rule made of two scaled copies of a sphere rule.
-/

namespace Quadpy
open Finset Sn

theorem C24_stroud1967_7c (n : ℕ) (hn : 3 ≤ n) :
    ∃ S, stroud1967_7c n = some S ∧ S.degree = 7 ∧ S.ExactOnBall n := by
  have hn0 : (n : ℝ) ≠ 0 := by positivity
  have h3 : (3 : ℝ) ≤ n := by exact_mod_cast hn
  have pa : (0 : ℝ) ≤ 2 * (n + 2) * (n + 4) := by positivity
  have ha := Real.sq_sqrt pa
  have hq : 2 * √(2 * ((n : ℝ) + 2) * (n + 4)) ≤ (n + 2) * (n + 4) := by
    apply abs_le_of_sq_le_sq' _ (by positivity) |>.2
    rw [mul_pow, ha]
    have : (8 : ℝ) ≤ (n + 2) * (n + 4) := by nlinarith
    nlinarith
  have p1 : (0 : ℝ) ≤ ((n + 2) * (n + 4) + 1 * 2 * √(2 * ((n : ℝ) + 2) * (n + 4))) / (n + 4) / (n + 6) := by
    positivity
  have p2 : (0 : ℝ) ≤ ((n + 2) * (n + 4) + -1 * 2 * √(2 * ((n : ℝ) + 2) * (n + 4))) / (n + 4) / (n + 6) := by
    apply div_nonneg (div_nonneg (by linarith) (by positivity)) (by positivity)
  obtain ⟨S, hS, hd, hE⟩ := C25_stroud1967 n (by omega)
  refine ⟨_, by
    simp only [stroud1967_7c, guard, if_pos hn, sqrtO_some p1, sqrtO_some p2, hS,
      Option.bind_eq_bind, Option.bind_some]; rfl, rfl, ?_⟩
  have hm := ballPow_mono (show 0 < n by omega) (a := 0) (by linarith)
  rw [← ball_eq_ballPow] at hm
  have hl := ballPow_linOnMono (show 0 < n by omega) (a := 0) (by linarith)
  rw [← ball_eq_ballPow] at hl
  refine radii_exact (by omega) hl hm hE
    ((2 * (n + 2) ^ 2 + 1 * (n - 2) * √(2 * ((n : ℝ) + 2) * (n + 4))) / (4 * n * (n + 2) ^ 2) * n)
    ((2 * (n + 2) ^ 2 + -1 * (n - 2) * √(2 * ((n : ℝ) + 2) * (n + 4))) / (4 * n * (n + 2) ^ 2) * n)
    _ _ rfl hd.symm ?_ rfl ?_
  · simp only [List.map_append, List.map_map]
    congr 1 <;> (apply List.map_congr_left; intro x _; simp only [Function.comp]; ring)
  · intro k hk
    have hk3 : k ≤ 3 := by omega
    rw [pow_mul, pow_mul, Real.sq_sqrt p1, Real.sq_sqrt p2]
    generalize √(2 * ((n : ℝ) + 2) * (n + 4)) = a at *
    interval_cases k <;> simp only [ballRho] <;> push_cast <;> field_simp
    · ring
    · linear_combination (4 * n ^ 2 - 16 : ℝ) * ha
    · linear_combination (8 * n ^ 4 + 80 * n ^ 3 + 224 * n ^ 2 + 64 * n - 256 : ℝ) * ha
    · linear_combination ((16 * n ^ 2 + 64 * n - 192) * (a ^ 2 + 2 * (n + 2) * (n + 4)) +
        (12 * n ^ 6 + 240 * n ^ 5 + 1824 * n ^ 4 + 6528 * n ^ 3 + 10944 * n ^ 2 + 6912 * n : ℝ)) * ha

end Quadpy
