import Verif.Model.Scheme
import Mathlib.Algebra.BigOperators.Group.List.Basic
import Mathlib.LinearAlgebra.Matrix.Determinant.Basic

/-!
# tn/_helpers.py
-/

namespace Quadpy
namespace Tn

/-- `k[idx]` for the first index with `k[idx] > 0` (tn/_helpers.py:109-110); 0 if there is none. -/
def firstPos : List ℕ → ℕ
  | [] => 0
  | 0 :: t => firstPos t
  | (k + 1) :: _ => k + 1

/-- `k2 = k.copy(); k2[idx] -= 1` for the same index (tn/_helpers.py:109-113). -/
def decFirst : List ℕ → List ℕ
  | [] => []
  | 0 :: t => 0 :: decFirst t
  | (k + 1) :: t => k :: t

theorem decFirst_sum {k : List ℕ} (h : ¬ k.all (· == 0)) : (decFirst k).sum + 1 = k.sum := by
  induction k with
  | nil => simp at h
  | cons a t ih =>
    cases a with
    | zero => rw [decFirst, List.sum_cons, List.sum_cons, add_assoc, ih (by simpa using h)]
    | succ a => simp only [decFirst, List.sum_cons]; ring

/-- tn/_helpers.py:80-115 `integrate_monomial_over_unit_simplex(k)`; exponents are natural numbers
(line 103 asserts this). -/
noncomputable def monomialOverSimplex (k : List ℕ) : ℝ :=
  if h : k.all (· == 0) then 1 / (k.length.factorial : ℝ)
  else monomialOverSimplex (decFirst k) * ((firstPos k : ℝ) / (k.sum + k.length))
termination_by k.sum
decreasing_by have := decFirst_sum h; omega

/-- tn/_helpers.py:45-53 `transform(points, simplex)` for one point: `np.dot(simplex, points)`, that
is the combination of the vertices with the barycentric coordinates as coefficients. -/
def transform {n m : ℕ} (xi : Fin (n + 1) → ℝ) (simplex : Fin (n + 1) → Fin m → ℝ) : Fin m → ℝ :=
  fun j => ∑ i, xi i * simplex i j

/-- tn/_helpers.py:62-71: the bordered matrix of squared edge lengths. -/
def cmMatrix {n m : ℕ} (simplex : Fin (n + 1) → Fin m → ℝ) : Matrix (Fin (n + 2)) (Fin (n + 2)) ℝ :=
  Matrix.of (Fin.cons (Fin.cons 0 fun _ => 1) fun i => Fin.cons 1 fun j =>
    ∑ k, (simplex i k - simplex j k) * (simplex i k - simplex j k))

/-- tn/_helpers.py:56-77 `get_vol(simplex)`. -/
noncomputable def getVol {n m : ℕ} (simplex : Fin (n + 1) → Fin m → ℝ) : ℝ :=
  Real.sqrt ((-1) ^ (n + 1) / 2 ^ n / (n.factorial : ℝ) ^ 2 * (cmMatrix simplex).det)

/-- tn/_helpers.py:24-42 `TnScheme.integrate(f, simplex)` for one simplex with vertices in `ℝ^m`;
the rows of `points` are barycentric (length `n + 1`). -/
noncomputable def integrate {n m : ℕ} (weights : List ℝ) (points : List (List ℝ))
    (f : (Fin m → ℝ) → ℝ) (simplex : Fin (n + 1) → Fin m → ℝ) : ℝ :=
  getVol simplex *
    dot (n + 1) weights points fun xi => f (transform xi simplex)

end Tn
end Quadpy
