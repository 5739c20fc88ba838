import Mathlib.LinearAlgebra.Matrix.Notation
import Mathlib.LinearAlgebra.Matrix.Symmetric
import Mathlib.Analysis.SpecialFunctions.Sqrt
import Mathlib.Analysis.SpecialFunctions.Gamma.Basic
import Mathlib.Analysis.SpecialFunctions.Pow.Real

/-!
# Rules from recurrence coefficients: tools/main.py, c1/_gauss_*.py
-/

namespace Quadpy
namespace OneDim

open Matrix

/-- tools/main.py:84-95 `_sympy_tridiag(a, b)`, and the matrix that `eigh_tridiagonal` gets in
tools/main.py:170: diagonal `a`, next to it `b[1], b[2], …`. -/
noncomputable def tridiag (n : ℕ) (a b : ℕ → ℝ) : Matrix (Fin n) (Fin n) ℝ :=
  Matrix.of fun i j =>
    if i.val = j.val then a i else if i.val + 1 = j.val then b j else
    if j.val + 1 = i.val then b i else 0

/-- What scipy's `eigh_tridiagonal` (external) returns for the symmetric matrix `A`: the eigenvalues
in ascending order and an orthonormal basis of eigenvectors, the columns of `V`. -/
structure IsEigh {n : ℕ} (A : Matrix (Fin n) (Fin n) ℝ) (x : Fin n → ℝ)
    (V : Matrix (Fin n) (Fin n) ℝ) : Prop where
  orth : Vᵀ * V = 1
  eig : A * V = V * diagonal x
  sorted : Monotone x

/-- tools/main.py:166-171 `_scheme_from_rc_numpy(alpha, beta, int_1)` with `n` coefficients (`beta[0]`
is not used), as a relation because the eigenvectors are determined only up to sign.  The variants
for sympy and mpmath (lines 123-163) compute the same numbers.  `np.sqrt` needs nonnegative
arguments. -/
def SchemeFromRc (n : ℕ) [NeZero n] (alpha beta : ℕ → ℝ) (int_1 : ℝ) (points weights : List ℝ) :
    Prop :=
  (∀ k, 0 < k → k < n → 0 ≤ beta k) ∧
  ∃ x V, IsEigh (tridiag n alpha fun k => √(beta k)) x V ∧
    points = List.ofFn x ∧ weights = List.ofFn fun i => int_1 * V 0 i ^ 2

/-! ### Recurrence coefficients

The coefficients come from the external package orthopy (`RecurrenceCoefficients("monic", …)`), which
is not part of the repository; the definitions below are its documented formulas. -/

/-- orthopy.c1.jacobi `c1`: the diagonal coefficients of the monic Jacobi polynomials. -/
noncomputable def jacobiAlpha (a b : ℝ) : ℕ → ℝ
  | 0 => (b - a) / (a + b + 2)
  | k + 1 => (b ^ 2 - a ^ 2) / ((2 * (k + 1 : ℕ) + a + b) * (2 * (k + 1 : ℕ) + a + b + 2))

/-- orthopy.c1.jacobi `c2`: the other coefficients; the one with index 0 is not used. -/
noncomputable def jacobiBeta (a b : ℝ) : ℕ → ℝ
  | 0 => 0
  | 1 => 4 * (1 + a) * (1 + b) / ((2 + a + b) ^ 2 * (3 + a + b))
  | k + 2 => 4 * ((k + 2 : ℕ) + a) * ((k + 2 : ℕ) + b) * (k + 2 : ℕ) * ((k + 2 : ℕ) + a + b) /
      ((2 * (k + 2 : ℕ) + a + b) ^ 2 * (2 * (k + 2 : ℕ) + a + b + 1) * (2 * (k + 2 : ℕ) + a + b - 1))

/-- orthopy.c1.jacobi `int_1`. -/
noncomputable def jacobiInt (a b : ℝ) : ℝ :=
  2 ^ (a + b + 1) * (Real.Gamma (a + 1) * Real.Gamma (b + 1) / Real.Gamma (a + b + 2))

/-- c1/_gauss_legendre.py:15-17, the modes other than "numpy" (which calls numpy's `leggauss`). -/
def GaussLegendre (n : ℕ) [NeZero n] (points weights : List ℝ) : Prop :=
  SchemeFromRc n (fun _ => 0) (fun k => (k : ℝ) ^ 2 / (4 * k ^ 2 - 1)) 2 points weights

/-- c1/_gauss_jacobi.py:8-14 `gauss_jacobi(n, alpha, beta)`. -/
def GaussJacobi (n : ℕ) [NeZero n] (a b : ℝ) (points weights : List ℝ) : Prop :=
  SchemeFromRc n (jacobiAlpha a b) (jacobiBeta a b) (jacobiInt a b) points weights

/-- e1r/_gauss_laguerre.py:8-25 `gauss_laguerre(n, alpha)`. -/
def GaussLaguerre (n : ℕ) [NeZero n] (a : ℝ) (points weights : List ℝ) : Prop :=
  SchemeFromRc n (fun k => 2 * k + 1 + a) (fun k => k * (k + a)) (Real.Gamma (a + 1)) points weights

/-- e1r2/_gauss_hermite.py:8-21 `gauss_hermite(n)`, the modes other than "numpy" (which calls numpy's
`hermgauss`). -/
def GaussHermite (n : ℕ) [NeZero n] (points weights : List ℝ) : Prop :=
  SchemeFromRc n (fun _ => 0) (fun k => (k : ℝ) / 2) √Real.pi points weights

/-- The vector `en`: zeros, and 1 at the end (c1/_gauss_lobatto.py:33-34). -/
def lastUnit (n : ℕ) : Fin n → ℝ := fun i => if i.val = n - 1 then 1 else 0

/-- What `solve_banded((1, 1), J, f)` (external) returns for the tridiagonal matrix with diagonal
`alpha[:-1] - xl` and `sqrt(beta[1]), …` next to it (c1/_gauss_lobatto.py:35-40,
c1/_gauss_radau.py:33-37): the solution of a regular system. -/
def SolveBanded {n : ℕ} (alpha beta : ℕ → ℝ) (xl : ℝ) (f g : Fin n → ℝ) : Prop :=
  (tridiag n (fun k => alpha k - xl) fun k => √(beta k)).det ≠ 0 ∧
  (tridiag n (fun k => alpha k - xl) fun k => √(beta k)) *ᵥ g = f

/-- `g[-1]` -/
def lastEntry {n : ℕ} [NeZero n] (g : Fin n → ℝ) : ℝ :=
  g ⟨n - 1, Nat.sub_lt (Nat.pos_of_ne_zero (NeZero.ne n)) one_pos⟩

/-- c1/_gauss_lobatto.py:18-50 `_lobatto(alpha, beta, int_1, xl1, xl2)` for `n + 1` coefficients; the
2x2 system of lines 41-43 is written out. -/
def Lobatto (n : ℕ) [NeZero n] (alpha beta : ℕ → ℝ) (int_1 xl1 xl2 : ℝ) (points weights : List ℝ) :
    Prop :=
  ∃ g1 g2 a' b', SolveBanded (n := n) alpha beta xl1 (lastUnit n) g1 ∧
    SolveBanded (n := n) alpha beta xl2 (lastUnit n) g2 ∧ lastEntry g1 ≠ lastEntry g2 ∧
    a' - lastEntry g1 * b' = xl1 ∧ a' - lastEntry g2 * b' = xl2 ∧
    SchemeFromRc (n + 1) (Function.update alpha n a') (Function.update beta n b') int_1 points weights

/-- c1/_gauss_lobatto.py:8-15 `gauss_lobatto(n + 1, a, b)`; its degree is `2 * (n + 1) - 3`. -/
def GaussLobatto (n : ℕ) [NeZero n] (a b : ℝ) (points weights : List ℝ) : Prop :=
  Lobatto n (jacobiAlpha a b) (jacobiBeta a b) (jacobiInt a b) (-1) 1 points weights

/-- c1/_gauss_lobatto.py:10 -/
def lobattoDegree (n : ℕ) : ℕ := 2 * n - 3

/-- c1/_gauss_radau.py:18-41 `_radau(alpha, beta, int_1, xr)` for `n + 1` coefficients. -/
def Radau (n : ℕ) [NeZero n] (alpha beta : ℕ → ℝ) (int_1 xr : ℝ) (points weights : List ℝ) : Prop :=
  ∃ delta, SolveBanded (n := n) alpha beta xr (fun i => beta n * lastUnit n i) delta ∧
    SchemeFromRc (n + 1) (Function.update alpha n (xr + lastEntry delta)) beta int_1 points weights

/-- c1/_gauss_radau.py:8-15 `gauss_radau(n + 1, a, b)`. -/
def GaussRadau (n : ℕ) [NeZero n] (a b : ℝ) (points weights : List ℝ) : Prop :=
  Radau n (jacobiAlpha a b) (jacobiBeta a b) (jacobiInt a b) (-1) points weights

/-- c1/_gauss_radau.py:10 -/
def radauDegree (n : ℕ) : ℕ := 2 * n - 1

end OneDim
end Quadpy
