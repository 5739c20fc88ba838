import Verif.Model.C1
import Verif.Spec.C1
import Verif.Lemmas.AdaptiveLoop
import Verif.Lemmas.C1Exact
import Mathlib.Analysis.SpecialFunctions.Integrals.Basic
import Mathlib.Algebra.Polynomial.Eval.Degree

/-!
# C10: C1Scheme.integrate transfers exactness to every interval
-/

namespace Quadpy
namespace C1

open Adaptive Spec Polynomial

theorem len_unit (I : Ivl Unit) : len I = |I.2 () - I.1 ()| := by
  simp [len, Real.sqrt_sq_eq_abs]

theorem vdot_map_congr {α : Type} (L : List α) {g h : α → ℝ} (w : List ℝ) (hg : ∀ x, g x = h x) :
    vdot (L.map g) w = vdot (L.map h) w := by
  rw [show g = h from funext hg]

/-- For every pair `a, b` in any order the value is the integral over the interval between them. -/
theorem C10_unsigned (points weights : List ℝ) (d : ℕ) (h : ExactC1 points weights d)
    (p : ℝ[X]) (hp : p.natDegree ≤ d) (a b : ℝ) :
    integrate1 points weights (fun x => p.eval x) a b = ∫ x in (min a b)..(max a b), p.eval x := by
  have hq := h.2 (p.comp (C ((b - a) / 2) * X + C ((a + b) / 2))) (by
    refine natDegree_comp_le.trans ?_
    calc p.natDegree * _ ≤ p.natDegree * 1 := Nat.mul_le_mul_left _ (natDegree_linear_le)
      _ ≤ d := by omega)
  simp only [eval_comp, eval_add, eval_mul, eval_C, eval_X] at hq
  have e : integrate1 points weights (fun x => p.eval x) a b =
      1 / 2 * |b - a| * ∫ x in (-1 : ℝ)..1, p.eval ((b - a) / 2 * x + (a + b) / 2) := by
    rw [← hq]
    simp only [integrate1, integrate, len_unit, affine]
    congr 1
    exact vdot_map_congr _ _ fun x => by congr 1; ring
  rw [e]
  have hs := intervalIntegral.smul_integral_comp_mul_add (a := -1) (b := 1)
    (fun x => p.eval x) ((b - a) / 2) ((a + b) / 2)
  rw [show (b - a) / 2 * -1 + (a + b) / 2 = a by ring, show (b - a) / 2 * 1 + (a + b) / 2 = b by ring,
    smul_eq_mul] at hs
  rcases le_total a b with hab | hab
  · rw [min_eq_left hab, max_eq_right hab, ← hs, abs_of_nonneg (by linarith)]; ring
  · rw [min_eq_right hab, max_eq_left hab, intervalIntegral.integral_symm a b, ← hs,
      abs_of_nonpos (by linarith)]; ring

/-- If a rule is exact to degree `d` on `[-1, 1]`, `integrate(f, [a, b])` is the integral over
`[a, b]` of every polynomial of degree at most `d`, for all `a ≤ b`. -/
theorem C10_exact (points weights : List ℝ) (d : ℕ) (h : ExactC1 points weights d)
    (p : ℝ[X]) (hp : p.natDegree ≤ d) (a b : ℝ) (hab : a ≤ b) :
    integrate1 points weights (fun x => p.eval x) a b = ∫ x in a..b, p.eval x := by
  rw [C10_unsigned points weights d h p hp, min_eq_left hab, max_eq_right hab]

/-- For `a > b` the value is minus the oriented integral. -/
theorem C10_reversed (points weights : List ℝ) (d : ℕ) (h : ExactC1 points weights d)
    (p : ℝ[X]) (hp : p.natDegree ≤ d) (a b : ℝ) (hab : b < a) :
    integrate1 points weights (fun x => p.eval x) a b = -∫ x in a..b, p.eval x := by
  rw [C10_unsigned points weights d h p hp, min_eq_right hab.le, max_eq_left hab.le,
    intervalIntegral.integral_symm]

/-- The hypothesis is met: the midpoint rule is exact to degree 1. -/
example : ExactC1 [0] [2] 1 := by
  refine exactC1_of_moments rfl fun k hk => ?_
  interval_cases k <;> norm_num [vdot]

end C1
end Quadpy
