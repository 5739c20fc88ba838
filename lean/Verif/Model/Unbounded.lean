/-
Model of the `integrate` methods on the domains with an exponential weight: E1r, E1r2, E2r, E2r2, E3r, E3r2,
Enr, Enr2.
-/
import Verif.Model.Scheme
import Mathlib.Analysis.SpecialFunctions.Gamma.Basic

namespace Quadpy.Unbounded

open Real

/-- The classes. -/
inductive Domain
  | e2r | e2r2 | e3r | e3r2 | enr | enr2
  deriving DecidableEq

/-- `ref_vol`: e2r/_helpers.py:43, e2r2/_helpers.py:42, e3r/_helpers.py:24, e3r2/_helpers.py:24,
enr/_helpers.py:16, enr2/_helpers.py:16.  `ndim.enr.volume(n)` and `ndim.enr2.volume(n, "physicists")` come
from an external package and enter as their closed forms. -/
noncomputable def refVol : Domain → ℕ → ℝ
  | .e2r, _ => 2 * π
  | .e2r2, _ => π
  | .e3r, _ => 8 * π
  | .e3r2, _ => √π ^ 3
  | .enr, n => 2 * √π ^ n * Gamma n / Gamma (n / 2)
  | .enr2, n => √π ^ n

/-- `self.dim`, two or three in the classes which have it in their name -/
def Domain.HasDim : Domain → ℕ → Prop
  | .e2r, n => n = 2
  | .e2r2, n => n = 2
  | .e3r, n => n = 3
  | .e3r2, n => n = 3
  | .enr, n => 0 < n
  | .enr2, n => 0 < n

/-- e2r/_helpers.py:41-44, e2r2/_helpers.py:40-43, e3r/_helpers.py:22-25, e3r2/_helpers.py:22-25,
enr/_helpers.py:14-17, enr2/_helpers.py:14-17: `integrate(f)` for a real-valued integrand. -/
noncomputable def integrate (D : Domain) (n : ℕ) (S : Scheme) (f : (Fin n → ℝ) → ℝ) : ℝ :=
  refVol D n * dot n S.weights S.points f

/-- `np.dot(row, weights)` -/
def rowDot (row weights : List ℝ) : ℝ := (List.zipWith (· * ·) row weights).sum

/-- What an integrand returns for an array of shape `(1, n)`: an array of shape `(n,)` or `(m, n)`. -/
inductive Value
  | vector (row : List ℝ)
  | matrix (rows : List (List ℝ))

/-- A number or an array of shape `(m,)`. -/
inductive Result
  | scalar (x : ℝ)
  | array (x : List ℝ)

/-- e1r/_helpers.py:11-14 and e1r2/_helpers.py:11-14: `integrate(f)`.  `f` is called with an array with one
row, the points. -/
def integrate1 (points weights : List ℝ) (f : List (List ℝ) → Value) : Result :=
  match f [points] with
  | .vector row => .scalar (rowDot row weights)
  | .matrix rows => .array (rows.map fun row => rowDot row weights)

/-- An integrand like `lambda x: g(x)` with numpy functions, applied to each entry. -/
def elementwise (g : ℝ → ℝ) (x : List (List ℝ)) : Value := .matrix (x.map fun row => row.map g)

/-- An integrand like `lambda x: g(x[0])`. -/
def firstRow (g : ℝ → ℝ) (x : List (List ℝ)) : Value := .vector ((x.headD []).map g)

end Quadpy.Unbounded
