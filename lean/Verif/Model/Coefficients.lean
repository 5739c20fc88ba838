import Verif.Model.OneDim

/-!
# Model of `coefficients_from_gauss`, tools/main.py
-/

namespace Quadpy
namespace OneDim

open Matrix

/-- tools/main.py:50-60: the matrix `A` for the given points and weights. -/
noncomputable def gaussMatrix (points weights : List ℝ) :
    Matrix (Fin (points.length + 1)) (Fin (points.length + 1)) ℝ :=
  Matrix.of fun i j =>
    if i.val = points.length ∧ j.val = points.length then 1
    else if i.val = points.length then √(weights.getD j 0)
    else if j.val = points.length then √(weights.getD i 0)
    else if i = j then points.getD i 0 else 0

/-- What LAPACK's `sytrd` (external, tools/main.py:64-71) returns for a symmetric matrix: a tridiagonal
matrix with diagonal `d` and off-diagonal `e` that is similar to `A` by an orthogonal matrix `Q`.  The
last column of `Q` is the last unit vector, as the comment in tools/main.py:52 says. -/
def IsSytrd {m : ℕ} (A : Matrix (Fin (m + 1)) (Fin (m + 1)) ℝ) (d e : ℕ → ℝ) : Prop :=
  ∃ Q : Matrix (Fin (m + 1)) (Fin (m + 1)) ℝ, Qᵀ * Q = 1 ∧
    (∀ i, Q i (Fin.last m) = if i = Fin.last m then 1 else 0) ∧
    Qᵀ * A * Q = tridiag (m + 1) d fun k => e (k - 1)

/-- tools/main.py:38-78 `coefficients_from_gauss(points, weights)`, as a relation because `sytrd`
determines `e` only up to sign.  `np.sqrt` needs nonnegative arguments.  `beta[0]` is `nan`, here
`none`; reading `beta[0]` in line 75 needs at least one point. -/
def CoefficientsFromGauss (points weights : List ℝ) (alpha : List ℝ) (beta : List (Option ℝ))
    (int_1 : ℝ) : Prop :=
  points.length = weights.length ∧ (∀ w ∈ weights, 0 ≤ w) ∧
  ∃ d e : ℕ → ℝ, IsSytrd (gaussMatrix points weights) d e ∧
    alpha = ((List.range (points.length + 1)).map d).dropLast.reverse ∧
    let b := ((List.range points.length).map e).reverse.map (· ^ 2)
    b.head? = some int_1 ∧ beta = (b.map some).set 0 none

end OneDim
end Quadpy
