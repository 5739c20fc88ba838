import Verif.Model.Arrays
import Mathlib.Analysis.SpecialFunctions.Complex.Arg
import Mathlib.Analysis.SpecialFunctions.Trigonometric.Inverse

/-!
# u3/_helpers.py: spherical coordinates
-/

namespace Quadpy.U3

/-- u3/_helpers.py:141-142 `cartesian_to_spherical(X)` for one point: `arccos(X[2])` and
`arctan2(X[1], X[0])`.  `np.arctan2(y, x)` is the argument of `x + iy`, in `(-pi, pi]` and 0 at the
origin.  The symbolic variant (lines 145-160, `cartesian_to_spherical_sympy` with `_atan2_0`, which
replaces the `nan` that `sympy.atan2(0, 0)` gives by 0) has the same values. -/
noncomputable def cartesianToSpherical (x : Fin 3 → ℝ) : ℝ × ℝ :=
  (Real.arccos (x 2), Complex.arg ⟨x 0, x 1⟩)

/-- u3/_helpers.py:76-81 `integrate_spherical(f)`: `area(1.0) * dot(f(theta_phi), weights)`, where
`theta_phi` (lines 28-46) holds the spherical coordinates of the points. -/
noncomputable def integrateSpherical (weights : List ℝ) (points : List (List ℝ))
    (f : ℝ → ℝ → ℝ) : ℝ :=
  4 * Real.pi * 1 ^ 2 * dot 3 weights points fun x =>
    f (cartesianToSpherical x).1 (cartesianToSpherical x).2

end Quadpy.U3
