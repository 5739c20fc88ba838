/-
Model of the circle rules: u2/_krylov.py and U2Scheme.integrate.
-/
import Verif.Model.Cn
import Mathlib.Analysis.SpecialFunctions.Trigonometric.Basic

namespace Quadpy.U2

/-- u2/_krylov.py:24-28 `krylov(n)`; `frac(1, 0)` fails for `n = 0` (`np.full(0, frac(1, 0))` holds
no entry, but the degree is then -1): `n ≥ 1` is assumed in the theorems. -/
noncomputable def krylov (n : ℕ) : Scheme :=
  ⟨2, List.replicate n (1 / (n : ℝ)),
    (List.range n).map fun k : ℕ => [Real.cos (2 * k * Real.pi / n), Real.sin (2 * k * Real.pi / n)],
    n - 1⟩

/-- u2/_helpers.py:43-49 `U2Scheme.integrate(f, center, radius)` for a scalar radius. -/
noncomputable def integrate (weights : List ℝ) (points : List (List ℝ))
    (f : (Fin 2 → ℝ) → ℝ) (center : Fin 2 → ℝ) (radius : ℝ) : ℝ :=
  2 * Real.pi * radius * dot 2 weights points fun x => f fun i => radius * x i + center i

/-- u2/_helpers.py:52-53 `get_good_scheme(n)`. -/
noncomputable def getGoodScheme (n : ℕ) : Scheme := krylov n

end Quadpy.U2
