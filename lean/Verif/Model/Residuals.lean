import Verif.Model.Arrays
import Mathlib.Analysis.Complex.Basic

/-!
# u3/_helpers.py: `compute_residuals`

The object `orthopy.u3.EvalCartesian(points, "quantum mechanic")` is an iterator.  With the k-th call of
`next` it returns the values of the spherical harmonics of degree k at the points, one row for each.  Here it
is a sequence of lists of complex functions together with a counter, which is the state of the program.
-/

namespace Quadpy.Residuals
open Quadpy

/-- What the package orthopy supplies: the functions of each degree and the number `int_p0`. -/
structure Evaluator where
  level : ℕ → List ((Fin 3 → ℝ) → ℂ)
  int_p0 : ℂ

/-- Programs which use the iterator: the state is the number of calls of `next` so far. -/
abbrev Run := StateT ℕ (Except String)

/-- `next(evaluator)`: an array of shape `(number of functions, number of points)`. -/
noncomputable def next (E : Evaluator) (points : List (List ℝ)) : Run (List (List ℂ)) := do
  let k ← get
  set (k + 1)
  return (E.level k).map fun Y => points.map fun x => Y (toVec 3 x)

/-- u3/_helpers.py:64-74 `integrate(f, center, radius)` for one sphere and an integrand which returns a
matrix.  `f` may change the state. -/
noncomputable def integrate (weights : List ℝ) (points : List (List ℝ))
    (f : List (List ℝ) → Run (List (List ℂ))) (center : List ℝ) (radius : ℝ) : Run (List ℂ) := do
  let rr := points.map fun x => List.zipWith (fun a c => a * radius + c) x center
  let frr ← f rr
  if frr.all fun row => row.length == rr.length then
    return frr.map fun row =>
      (4 * Real.pi * radius ^ 2 : ℝ) * (List.zipWith (fun v w => v * ((w : ℝ) : ℂ)) row weights).sum
  else
    throw "Wrong return value shape"

/-- `np.max` of a vector; an empty one is an error. -/
noncomputable def npMax : List ℝ → Run ℝ
  | [] => throw "zero-size array to reduction operation maximum which has no identity"
  | a :: l => return l.foldl max a

/-- u3/_helpers.py:83-95 `compute_residuals(level)`, the body of the loop. -/
noncomputable def step (S : Scheme) (E : Evaluator) (max_res : List ℝ) (k : ℕ) : Run (List ℝ) := do
  let approximate ← integrate S.weights S.points (fun _ => next E S.points) [0, 0, 0] 1
  let exact := if k = 0 then E.int_p0 else 0
  let res := approximate.map fun a => ‖a - exact‖
  let m ← npMax res
  return max_res ++ [m]

/-- u3/_helpers.py:83-95 `compute_residuals(level)`.  The evaluator is created at the beginning. -/
noncomputable def computeResiduals (S : Scheme) (E : Evaluator) (level : ℕ) : Except String (List ℝ) :=
  ((List.range (level + 1)).foldlM (step S E) []).run' 0

end Quadpy.Residuals
