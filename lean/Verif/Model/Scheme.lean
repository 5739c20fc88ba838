/-
Model of the scheme containers and of helpers/misc.py.
-/
import Mathlib.Analysis.Real.Sqrt
import Mathlib.Data.Real.Basic
import Mathlib.Data.Nat.Choose.Basic
import Mathlib.Analysis.Real.Pi.Bounds
import Mathlib.Data.Nat.Factorial.Basic

namespace Quadpy

/-- helpers/_class.py `QuadratureScheme` (and the `CnScheme`, `TnScheme`, `SnScheme`, `UnScheme`,
`EnrScheme`, `Enr2Scheme` subclasses, e.g. cn/_helpers.py:10-26): weights, points (one row per point;
the code stores the transposed array) and the claimed degree.  Name, source, tolerance and comments
are not modelled. -/
structure Scheme where
  dim : ℕ
  weights : List ℝ
  points : List (List ℝ)
  degree : ℕ

/-- A row as a point of `ℝ^n` (rows have length `n`, see `Scheme.WellShaped`). -/
def toVec (n : ℕ) (row : List ℝ) : Fin n → ℝ := fun i => row.getD i 0

/-- `np.dot(f(points), weights)` for a scalar function of one point (e.g. cn/_helpers.py:40).
`m` is the number of coordinates of a point. -/
def dot (m : ℕ) (weights : List ℝ) (points : List (List ℝ)) (f : (Fin m → ℝ) → ℝ) : ℝ :=
  (List.zipWith (fun w x => w * f (toVec m x)) weights points).sum

/-- helpers/misc.py:48-53 `untangle(data)`.  `zip(*data)` fails for empty `data`; the schemes never
call it so.  First the points, then the weights. -/
def untangle (data : List (ℝ × List (List ℝ))) : List (List ℝ) × List ℝ :=
  ((data.map Prod.snd).flatten,
   (data.map fun g => List.replicate g.2.length g.1).flatten)

/-- helpers/misc.py:161-171 `gamma_n_2(n)`.  `math.factorial(-1)` raises for `n = 0`. -/
noncomputable def gammaN2 (n : ℕ) : Option ℝ :=
  if n % 2 = 0 then
    if n / 2 = 0 then none else some ((n / 2 - 1).factorial : ℝ)
  else
    some (((2 * (n / 2)).factorial : ℝ) / (4 ^ (n / 2) * ((n / 2).factorial : ℝ)) *
      Real.sqrt Real.pi)

/-- helpers/misc.py:134-138, row `r` of `get_nsimplex_points(n)`. -/
noncomputable def nsimplexRow (n r : ℕ) : List ℝ :=
  ((List.range r).map fun i : ℕ =>
      -Real.sqrt (((n : ℝ) + 1) / ((n : ℝ) * ((n : ℝ) - i + 1) * ((n : ℝ) - i)))) ++
  (if r < n then
    Real.sqrt ((((n : ℝ) + 1) * ((n : ℝ) - r)) / ((n : ℝ) * ((n : ℝ) - r + 1))) ::
      List.replicate (n - r - 1) 0
  else [])

/-- helpers/misc.py:130-139 `get_nsimplex_points(n)`. -/
noncomputable def getNsimplexPoints (n : ℕ) : List (List ℝ) :=
  (List.range (n + 1)).map (nsimplexRow n)

end Quadpy
