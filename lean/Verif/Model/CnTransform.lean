import Verif.Model.Scheme
import Mathlib.Algebra.BigOperators.Group.List.Basic
import Mathlib.LinearAlgebra.Matrix.Determinant.Basic
import Mathlib.Data.Fin.VecNotation
import Mathlib.Data.Fin.Tuple.Basic

/-!
# cn/_helpers.py and the integrate methods of SnScheme and UnScheme

An array of shape `(2, ..., 2) + extra + (m,)` is a function of `d` binary indices, an index of the
extra axes and a coordinate.  Dimensions are written `d + 1`, as `n_outer` reads `a[0]`.
-/

namespace Quadpy
namespace Cn

/-- helpers/misc.py:56-86 `n_outer(a)` for arrays of length 2 (times the axis of the points, which is
carried along elementwise): `out = a[0]`, then `out[..., b_k] = out[...] * a[k][b_k]`. -/
def nOuter : {d : ℕ} → (Fin (d + 1) → Fin 2 → ℝ) → (Fin (d + 1) → Fin 2) → ℝ
  | 0, a, b => a 0 (b 0)
  | _ + 1, a, b => nOuter (Fin.init a) (Fin.init b) * a (Fin.last _) (b (Fin.last _))

/-- cn/_helpers.py:65 and 92 `one_mp_xi` for one point. -/
noncomputable def oneMpXi {d : ℕ} (xi : Fin d → ℝ) (k : Fin d) : Fin 2 → ℝ :=
  ![0.5 * (1.0 - xi k), 0.5 * (1.0 + xi k)]

/-- cn/_helpers.py:51-70 `transform(xi, cube)` for one point and one cube: the tensordot sums over
all corners. -/
noncomputable def transform {d m : ℕ} (xi : Fin (d + 1) → ℝ)
    (cube : (Fin (d + 1) → Fin 2) → Fin m → ℝ) : Fin m → ℝ :=
  fun i => ∑ b, nOuter (oneMpXi xi) b * cube b i

/-- cn/_helpers.py:95-100 and 111-112: entry `(k, i)` of the Jacobi matrix, with `a[k] = ∓0.5`. -/
noncomputable def jacobi {d m : ℕ} (xi : Fin (d + 1) → ℝ)
    (cube : (Fin (d + 1) → Fin 2) → Fin m → ℝ) : Matrix (Fin (d + 1)) (Fin m) ℝ :=
  Matrix.of fun k i => ∑ b, nOuter (Function.update (oneMpXi xi) k ![-0.5, 0.5]) b * cube b i

/-- cn/_helpers.py:73-114 `get_detJ(xi, cube)` for one point and one cube. -/
noncomputable def getDetJ {d : ℕ} (xi : Fin (d + 1) → ℝ)
    (cube : (Fin (d + 1) → Fin 2) → Fin (d + 1) → ℝ) : ℝ := (jacobi xi cube).det

/-- cn/_helpers.py:27-40 `CnScheme.integrate(f, ncube)` for `ncube` with the shape
`(2,) * (d + 1) + shape + (d + 1,)`; the value at the index `j` of the extra axes.  The reference
volume is 2 to the power `len(ncube.shape) - 1`. -/
noncomputable def integrateV {d : ℕ} {ι : Type} (shape : List ℕ) (weights : List ℝ)
    (points : List (List ℝ)) (f : (Fin (d + 1) → ℝ) → ℝ)
    (ncube : (Fin (d + 1) → Fin 2) → ι → Fin (d + 1) → ℝ) (j : ι) : ℝ :=
  2 ^ ((d + 1) + shape.length + 1 - 1) *
    dot (d + 1) weights points fun xi =>
      f (transform xi fun b => ncube b j) * |getDetJ xi fun b => ncube b j|

/-- cn/_helpers.py:27-40 for one cube, `ncube.shape == (2, ..., 2, d + 1)`. -/
noncomputable def integrate {d : ℕ} (weights : List ℝ) (points : List (List ℝ))
    (f : (Fin (d + 1) → ℝ) → ℝ) (ncube : (Fin (d + 1) → Fin 2) → Fin (d + 1) → ℝ) : ℝ :=
  integrateV (ι := Unit) [] weights points f (fun b _ => ncube b) ()

/-- cn/_helpers.py:129-133 `ncube_points(*xyz)` for pairs of end points: `meshgrid` with
`indexing="ij"`, last axis the coordinate. -/
def ncubePoints {d : ℕ} (xyz : Fin d → Fin 2 → ℝ) (b : Fin d → Fin 2) : Fin d → ℝ :=
  fun i => xyz i (b i)

/-- cn/_helpers.py:120-126 `integrate_monomial_over_ncube(limits, exp)`. -/
noncomputable def monomialOverNcube (limits : List (ℝ × ℝ)) (exp : List ℕ) : ℝ :=
  (List.zipWith (fun (a : ℝ × ℝ) (k : ℕ) => (a.2 ^ (k + 1) - a.1 ^ (k + 1)) / ((k : ℝ) + 1)) limits exp).prod

end Cn

/-- `ndim.nball.volume(n, r)` (external package, used by sn/_helpers.py:31): the recursion
`V_n = 2 pi / n * r^2 * V_{n-2}`. -/
noncomputable def nballVolume : ℕ → ℝ → ℝ
  | 0, _ => 1
  | 1, r => 2 * r
  | n + 2, r => 2 * Real.pi / (n + 2) * r ^ 2 * nballVolume n r

/-- `ndim.nsphere.volume(n, r)` (external package, used by un/_helpers.py:20): the area of the
sphere of radius `r` in `n`-space, `2`, `2 pi r`, and `A_n = 2 pi / (n - 2) * r^2 * A_{n-2}`. -/
noncomputable def nsphereVolume : ℕ → ℝ → ℝ
  | 0, _ => 0
  | 1, _ => 2
  | 2, r => 2 * Real.pi * r
  | n + 3, r => 2 * Real.pi / (n + 1) * r ^ 2 * nsphereVolume (n + 1) r

/-- sn/_helpers.py:21-33 `SnScheme.integrate(f, center, radius)` for one center and one radius. -/
noncomputable def Sn.integrate {n : ℕ} (weights : List ℝ) (points : List (List ℝ))
    (f : (Fin n → ℝ) → ℝ) (center : Fin n → ℝ) (radius : ℝ) : ℝ :=
  nballVolume n radius * dot n weights points fun x => f fun i => radius * x i + center i

/-- un/_helpers.py:14-20 `UnScheme.integrate(f, center, radius)`. -/
noncomputable def Un.integrate {n : ℕ} (weights : List ℝ) (points : List (List ℝ))
    (f : (Fin n → ℝ) → ℝ) (center : Fin n → ℝ) (radius : ℝ) : ℝ :=
  nsphereVolume n radius * dot n weights points fun x => f fun i => radius * x i + center i

end Quadpy
