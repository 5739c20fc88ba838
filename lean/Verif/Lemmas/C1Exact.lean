import Verif.Spec.C1
import Mathlib.Analysis.SpecialFunctions.Integrals.Basic
import Mathlib.Algebra.Polynomial.Eval.Degree
import Mathlib.Algebra.Polynomial.Eval.Algebra

namespace Quadpy

open Adaptive Spec Polynomial

theorem vdot_cons (a b : ℝ) (v w : List ℝ) : vdot (a :: v) (b :: w) = a * b + vdot v w := by
  simp [vdot]

theorem vdot_map_sum {α κ : Type} (s : Finset κ) (L : List α) (g : κ → α → ℝ) (w : List ℝ) :
    vdot (L.map fun x => ∑ k ∈ s, g k x) w = ∑ k ∈ s, vdot (L.map (g k)) w := by
  induction L generalizing w with
  | nil => simp [vdot]
  | cons a L ih =>
    cases w with
    | nil => simp [vdot]
    | cons b w =>
      simp only [List.map_cons, vdot_cons]
      rw [ih, Finset.sum_add_distrib, Finset.sum_mul]

theorem vdot_map_mul {α : Type} (L : List α) (c : ℝ) (g : α → ℝ) (w : List ℝ) :
    vdot (L.map fun x => c * g x) w = c * vdot (L.map g) w := by
  induction L generalizing w with
  | nil => simp [vdot]
  | cons a L ih =>
    cases w with
    | nil => simp [vdot]
    | cons b w =>
      simp only [List.map_cons, vdot_cons]
      rw [ih]; ring

/-- The moments of `[-1, 1]`. -/
theorem integral_pow_ref (k : ℕ) :
    ∫ x in (-1 : ℝ)..1, x ^ k = if Even k then 2 / ((k : ℝ) + 1) else 0 := by
  rw [integral_pow]
  split_ifs with h
  · rw [one_pow, Odd.neg_one_pow (h.add_one)]; norm_num
  · rw [one_pow, Even.neg_one_pow (by rcases Nat.even_or_odd k with h' | h'; exact absurd h' h; exact h'.add_one)]
    norm_num

/-- It is enough to check the monomials. -/
theorem exactC1_of_pow {points weights : List ℝ} {d : ℕ} (hl : points.length = weights.length)
    (h : ∀ k ≤ d, vdot (points.map fun x => x ^ k) weights = ∫ x in (-1 : ℝ)..1, x ^ k) :
    ExactC1 points weights d := by
  refine ⟨hl, fun p hp => ?_⟩
  have e : ∀ x, p.eval x = ∑ k ∈ Finset.range (d + 1), p.coeff k * x ^ k := fun x =>
    eval_eq_sum_range' (by omega) x
  simp only [e]
  rw [vdot_map_sum, intervalIntegral.integral_finsetSum fun k _ =>
    (Continuous.intervalIntegrable (by fun_prop) _ _)]
  refine Finset.sum_congr rfl fun k hk => ?_
  rw [vdot_map_mul, intervalIntegral.integral_const_mul, h k (by simp at hk; omega)]

theorem exactC1_of_moments {points weights : List ℝ} {d : ℕ} (hl : points.length = weights.length)
    (h : ∀ k ≤ d, vdot (points.map fun x => x ^ k) weights =
      if Even k then 2 / ((k : ℝ) + 1) else 0) :
    ExactC1 points weights d :=
  exactC1_of_pow hl fun k hk => by rw [h k hk, integral_pow_ref]

end Quadpy
