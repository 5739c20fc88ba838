import Mathlib.MeasureTheory.Integral.IntervalIntegral.Basic
import Mathlib.Data.List.OfFn

/-!
# Model of the Newton-Cotes, midpoint and trapezoidal rules

c1/_newton_cotes.py, c1/_midpoint.py, c1/_trapezoidal.py. `sympy.integrate` (external) is modelled by
the integral; `np.linspace(-1, 1, m)[i]` by `-1 + 2 i / (m - 1)`.
-/

namespace Quadpy
namespace OneDim

/-- c1/_newton_cotes.py:16 -/
def newtonCotesClosedDegree (index : ℕ) : ℕ := if index % 2 = 0 then index + 1 else index

/-- c1/_newton_cotes.py:25-35: `weights[r]` of `newton_cotes_closed(n)`. -/
noncomputable def newtonCotesClosedWeight (n r : ℕ) : ℝ :=
  2 * (-1) ^ (n - r) * (∫ t in (0 : ℝ)..n, ∏ i ∈ (Finset.range (n + 1)).filter (· ≠ r), (t - i)) /
    (r.factorial * (n - r).factorial) / n

/-- c1/_newton_cotes.py:9-36 `newton_cotes_closed(index)` -/
noncomputable def newtonCotesClosed (index : ℕ) : List ℝ × List ℝ :=
  (List.ofFn fun i : Fin (index + 1) => -1 + 2 * ((i : ℕ) : ℝ) / index,
   List.ofFn fun r : Fin (index + 1) => newtonCotesClosedWeight index r)

/-- c1/_newton_cotes.py:45 -/
def newtonCotesOpenDegree (index : ℕ) : ℕ := if (index + 1) % 2 = 0 then index else index - 1

/-- c1/_newton_cotes.py:50-60: `weights[r - 1]` of `newton_cotes_open(n - 1)`. -/
noncomputable def newtonCotesOpenWeight (n r : ℕ) : ℝ :=
  2 * (-1) ^ (n - r + 1) * (∫ t in (0 : ℝ)..n, ∏ i ∈ (Finset.Ico 1 n).filter (· ≠ r), (t - i)) /
    ((r - 1).factorial * (n - 1 - r).factorial) / n

/-- c1/_newton_cotes.py:39-61 `newton_cotes_open(index)` -/
noncomputable def newtonCotesOpen (index : ℕ) : List ℝ × List ℝ :=
  (List.ofFn fun i : Fin index => -1 + 2 * (((i : ℕ) + 1 : ℕ) : ℝ) / (index + 1 : ℕ),
   List.ofFn fun i : Fin index => newtonCotesOpenWeight (index + 1) (i + 1))

/-- c1/_midpoint.py:6-9 `midpoint()`, of degree 1 -/
def midpoint : List ℝ × List ℝ := ([0], [2])

/-- c1/_trapezoidal.py:6-9 `trapezoidal()`, of degree 1 -/
def trapezoidal : List ℝ × List ℝ := ([-1, 1], [1, 1])

end OneDim
end Quadpy
