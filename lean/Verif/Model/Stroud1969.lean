/-
Model of un/_stroud_1969.py, of the three-dimensional rule u3/_stroud.py:30-39 made from it, and of the
linear system solved in tn/_stroud_1969.py.
-/
import Mathlib.LinearAlgebra.Matrix.NonsingularInverse
import Mathlib.Analysis.SpecialFunctions.Gamma.Basic
import Verif.Model.Un
import Verif.Model.Tn
import Verif.Model.CnTransform

namespace Quadpy
open Real

/-- `np.linalg.solve(A, b)` (external package) for a matrix given by its rows, in exact arithmetic:
an error (`none`) unless the matrix is square of the size of `b` and nonsingular. -/
noncomputable def linalgSolve (A : List (List ℝ)) (b : List ℝ) : Option (List ℝ) :=
  let M : Matrix (Fin b.length) (Fin b.length) ℝ := Matrix.of fun i j => (A.getD i []).getD j 0
  open Classical in
  if A.length = b.length ∧ (∀ row ∈ A, row.length = b.length) ∧ M.det ≠ 0 then
    some (List.ofFn (M⁻¹.mulVec fun i => b.getD i 0))
  else none

/-- `ndim.nsphere.integrate_monomial(k, symbolic=False)` (external package): the integral of
`x_1^k_1 ... x_n^k_n` over the unit sphere, `2 Γ((k_1+1)/2) ... Γ((k_n+1)/2) / Γ((k_1+...+k_n+n)/2)`,
and 0 if one of the exponents is odd. -/
noncomputable def nsphereMonomial (k : List ℕ) : ℝ :=
  if ∀ a ∈ k, Even a then
    2 * (k.map fun a : ℕ => Gamma ((a + 1) / 2)).prod / Gamma ((k.sum + k.length) / 2)
  else 0

namespace Un

/-- un/_stroud_1969.py:25-35: `t`, `r`, `s`, `u`, `v`; a negative radicand would give `nan`, here
`none`. -/
noncomputable def stroud1969Param (n : ℕ) (i : ℝ) : Option (ℝ × ℝ × ℝ × ℝ) := do
  let r ← sqrtO ((n + 6 - i * 4 * √3) / (n ^ 2 + 12 * n - 12))
  let s ← sqrtO ((7 * n - 6 + i * 4 * (n - 1) * √3) / (n ^ 2 + 12 * n - 12))
  let u ← sqrtO ((n + 12 + i * 8 * √3) / (n ^ 2 + 24 * n - 48))
  let v ← sqrtO ((7 * n - 12 - i * 4 * (n - 2) * √3) / (n ^ 2 + 24 * n - 48))
  return (r, s, u, v)

/-- un/_stroud_1969.py:37-46, the groups of points and `k_range`. -/
noncomputable def stroud1969Groups (n : ℕ) : Option (List (List (List ℝ)) × List ℕ) := do
  let t := √(1 / n)
  let (r1, s1, u1, v1) ← stroud1969Param n 1
  let (r2, s2, u2, v2) ← stroud1969Param n (-1)
  let g1 ← fsd n [(s1, 1), (r1, n - 1)]
  let g2 ← fsd n [(s2, 1), (r2, n - 1)]
  let pts := [pm (List.replicate n t), g1, g2]
  let kRange := [0, 4, 6]
  let (pts, kRange) ← if 4 ≤ n then
      (fsd n [(v1, 2), (u1, n - 2)]).map fun g => (pts ++ [g], kRange ++ [8])
    else some (pts, kRange)
  if 5 ≤ n then
    (fsd n [(v2, 2), (u2, n - 2)]).map fun g => (pts ++ [g], kRange ++ [10])
  else some (pts, kRange)

/-- un/_stroud_1969.py:19-59. -/
noncomputable def stroud1969 (n : ℕ) : Option Scheme := do
  guard (2 < n)
  let (pts, kRange) ← stroud1969Groups n
  let b := kRange.map fun k => nsphereMonomial (k :: List.replicate (n - 1) 0)
  let A := kRange.map fun k => pts.map fun p => (p.map fun x => x.headD 0 ^ k).sum
  let w ← linalgSolve A b
  let pw := untangle (List.zip w pts)
  return ⟨n, pw.2.map (· / nsphereVolume n 1), pw.1, 11⟩

end Un

/-- u3/_stroud.py:30-39 `stroud_u3_11_2`: the points and weights of the rule for `n = 3` with the
symmetry key "plain". -/
noncomputable def U3.stroudU3_11_2 : Option Scheme := do
  let S ← Un.stroud1969 3
  return schemeOfSym 3 [⟨.plain, S.weights, S.points⟩] S.degree

/-- tn/_stroud_1969.py:19-66 with the call of `np.linalg.solve`: `b` (48-55), `A` (57), `w` (60). -/
noncomputable def Tn.stroud1969Solved (n : ℕ) : Option Scheme := do
  guard (3 ≤ n)
  let pts ← Tn.stroud1969Points n
  let b := (Tn.stroud1969Ks n).map fun k =>
    Tn.monomialOverSimplex (k :: List.replicate (n - 1) 0) /
      Tn.monomialOverSimplex (List.replicate n 0)
  let A := (Tn.stroud1969Ks n).map fun k => pts.map fun p => (p.map fun x => x.headD 0 ^ k).sum
  let w ← linalgSolve A b
  Tn.stroud1969 n w

end Quadpy
