import Verif.Model.Scheme
import Mathlib.Algebra.BigOperators.Group.List.Lemmas
import Mathlib.Algebra.BigOperators.Ring.List
import Mathlib.Tactic.Ring
import Mathlib.Tactic.NormNum

/-! C04: `untangle` keeps weights and points aligned. -/

namespace Quadpy

/-- C04: as many weights as points. -/
theorem C04_untangle_length (data : List (ℝ × List (List ℝ))) :
    (untangle data).2.length = (untangle data).1.length := by
  simp [untangle, List.length_flatten, Function.comp_def]

theorem zipWith_replicate_sum (w : ℝ) (g : List ℝ → ℝ) (pts : List (List ℝ)) :
    (List.zipWith (fun w x => w * g x) (List.replicate pts.length w) pts).sum =
      w * (pts.map g).sum := by
  induction pts with
  | nil => simp
  | cons p pts ih =>
    rw [List.length_cons, List.replicate_succ, List.zipWith_cons_cons, List.sum_cons, ih,
      List.map_cons, List.sum_cons]
    ring

/-- C04: for every integrand, the dot product of values and weights is the sum over the groups of
weight times the sum of the integrand over the group. -/
theorem C04_untangle_dot (m : ℕ) (data : List (ℝ × List (List ℝ))) (f : (Fin m → ℝ) → ℝ) :
    dot m (untangle data).2 (untangle data).1 f =
      (data.map fun g => g.1 * (g.2.map fun x => f (toVec m x)).sum).sum := by
  unfold dot untangle
  induction data with
  | nil => simp
  | cons g data ih =>
    simp only [List.map_cons, List.flatten_cons, List.sum_cons] at ih ⊢
    rw [List.zipWith_append (by simp), List.sum_append, ih]
    congr 1
    exact zipWith_replicate_sum g.1 (fun x => f (toVec m x)) g.2

/-- C04: the weight of a group is attached to each of its points, and to no other: the list of
(point, weight) pairs is the concatenation of the groups. -/
theorem C04_untangle_zip (data : List (ℝ × List (List ℝ))) :
    (untangle data).1.zip (untangle data).2 = data.flatMap fun g => g.2.map fun x => (x, g.1) := by
  unfold untangle
  induction data with
  | nil => simp
  | cons g data ih =>
    simp only [List.map_cons, List.flatten_cons, List.flatMap_cons] at ih ⊢
    rw [List.zip_append (by simp), ih]
    congr 1
    generalize g.2 = l
    induction l with
    | nil => simp
    | cons a l ih => simp [List.replicate_succ, ih]

example : untangle [(2, [[1], [3]]), (5, []), (7, [[4]])] = ([[1], [3], [4]], [2, 2, 7]) := by
  simp [untangle, List.replicate_succ]

end Quadpy
