/-
Model of helpers/plot.py and of the `plot` and `show` methods: which discs, balls and caps are drawn.
Exact arithmetic.  Not modelled: axes, the outline of the domain, line styles, opacity, and the mesh of a
ball.
-/
import Verif.Model.CnTransform
import Verif.Model.Simplex
import Verif.Model.WedgePyramid
import Verif.Model.U2
import Mathlib.Analysis.SpecialFunctions.Pow.Real
import Mathlib.Analysis.SpecialFunctions.Trigonometric.Inverse

namespace Quadpy.Plot

open Real

/-- The errors which end a call. -/
inductive Err
  | indexError | typeError | valueError | keyError
  deriving DecidableEq

/-- A disc or ball: centre, radius, and whether it is blue (otherwise red). -/
structure Blob where
  center : List ℝ
  radius : ℝ
  blue : Bool

/-- A two-dimensional numpy array. -/
structure Arr where
  r : ℕ
  c : ℕ
  e : ℕ → ℕ → ℝ

/-- `a.T` -/
def Arr.T (a : Arr) : Arr := ⟨a.c, a.r, fun i j => a.e j i⟩

/-- Iteration over an array yields its rows. -/
def Arr.rows (a : Arr) : List (List ℝ) :=
  (List.range a.r).map fun i => (List.range a.c).map fun j => a.e i j

/-- The array with given rows of length `c`. -/
def ofRows (L : List (List ℝ)) (c : ℕ) : Arr := ⟨L.length, c, fun i j => (L.getD i []).getD j 0⟩

/-- `np.dot(a, b)` for matrices. -/
noncomputable def matmul (a b : Arr) : Except Err Arr :=
  if a.c = b.r then .ok ⟨a.r, b.c, fun i j => ((List.range a.c).map fun k => a.e i k * b.e k j).sum⟩
  else .error .valueError

/-- helpers/plot.py:12 -/
noncomputable def radius1d (weights : List ℝ) (total_area w : ℝ) : ℝ :=
  0.5 * |w| / weights.sum * total_area

/-- helpers/plot.py:22 -/
noncomputable def radius2d (weights : List ℝ) (total_area w : ℝ) : ℝ :=
  √(|w| / weights.sum * total_area / π)

/-- `np.cbrt` -/
noncomputable def cbrt (x : ℝ) : ℝ := if 0 ≤ x then x ^ ((1 : ℝ) / 3) else -(-x) ^ ((1 : ℝ) / 3)

/-- helpers/plot.py:100 and 218 -/
noncomputable def radius3d (weights : List ℝ) (volume w : ℝ) : ℝ :=
  cbrt (|w| / weights.sum * volume / (4.0 / 3.0 * π))

open Classical in
/-- helpers/plot.py:13, 23-27, 101: blue for nonnegative weights. -/
noncomputable def blueGe (w : ℝ) : Bool := decide (0 ≤ w)

open Classical in
/-- helpers/plot.py:220: blue for positive weights. -/
noncomputable def blueGt (w : ℝ) : Bool := decide (0 < w)

/-- helpers/plot.py:31-39 `_plot_disks_helpers(plt, pts, radii, colors)`: the discs, one for each row of
`pts` and each weight, as long as there are both; two coordinates of the row are read. -/
noncomputable def discs (pts : Arr) (weights : List ℝ) (radius : ℝ → ℝ) : Except Err (List Blob) :=
  if pts.c < 2 ∧ pts.r ≠ 0 ∧ weights ≠ [] then .error .indexError
  else .ok (List.zipWith (fun p w => ⟨p.take 2, radius w, blueGe w⟩) pts.rows weights)

/-- helpers/plot.py:8-14 `plot_disks_1d` -/
noncomputable def plotDisks1d (pts : Arr) (weights : List ℝ) (total_area : ℝ) : Except Err (List Blob) :=
  discs pts weights (radius1d weights total_area)

/-- helpers/plot.py:17-28 `plot_disks` -/
noncomputable def plotDisks (pts : Arr) (weights : List ℝ) (total_area : ℝ) : Except Err (List Blob) :=
  discs pts weights (radius2d weights total_area)

/-- helpers/plot.py:42-108 `show_mpl`: the balls for the points.  The loop (line 53) runs over the rows
of `points`; three coordinates are read (lines 68-75). -/
noncomputable def showMpl (points : Arr) (weights : List ℝ) (volume : ℝ) : Except Err (List Blob) :=
  if points.c < 3 ∧ points.r ≠ 0 ∧ weights ≠ [] then .error .indexError
  else .ok (List.zipWith (fun p w => ⟨p.take 3, radius3d weights volume w, blueGe w⟩) points.rows weights)

/-- helpers/plot.py:168-222 `show_vtk`: here the loop runs over the rows of `points.T`, and
`sphere.SetCenter` (line 189) takes exactly three coordinates. -/
noncomputable def showVtk (points : Arr) (weights : List ℝ) (volume : ℝ) : Except Err (List Blob) :=
  if points.T.c ≠ 3 ∧ points.T.r ≠ 0 ∧ weights ≠ [] then .error .typeError
  else .ok (List.zipWith (fun p w => ⟨p, radius3d weights volume w, blueGt w⟩) points.T.rows weights)

/-- helpers/plot.py:273-277 -/
inductive Backend
  | mpl | vtk
  deriving DecidableEq

/-- `backend_to_function[backend](…)` -/
noncomputable def backendTo : Backend → Arr → List ℝ → ℝ → Except Err (List Blob)
  | .mpl => showMpl
  | .vtk => showVtk

/-- `self.points`, which has a column for each point (`dim` coordinates). -/
def pointsArr (S : Scheme) (dim : ℕ) : Arr := (ofRows S.points dim).T

/-! ### In the plane -/

/-- c1/_helpers.py:79-94 `C1Scheme.plot(interval)`: the points of the reference interval are drawn, the total
length is that of `interval = [a, b]`. -/
noncomputable def plotC1 (points weights : List ℝ) (a b : ℝ) : Except Err (List Blob) :=
  plotDisks1d (ofRows (points.map fun x => [x, 0]) 2) weights (b - a)

/-- s2/_helpers.py:37-52 -/
noncomputable def plotS2 (S : Scheme) : Except Err (List Blob) :=
  plotDisks (pointsArr S 2).T S.weights π

/-- e2r/_helpers.py:28-39 and e2r2/_helpers.py:28-38: both with the same total area -/
noncomputable def plotE2 (S : Scheme) : Except Err (List Blob) :=
  plotDisks (pointsArr S 2).T S.weights (2 * π)

/-- u2/_helpers.py:24-43; here `self.points` has a row for each point. -/
noncomputable def plotU2 (S : Scheme) : Except Err (List Blob) :=
  plotDisks (ofRows S.points 2) S.weights (π ^ 3 / S.weights.length)

/-- t2/_helpers.py:38-61 -/
noncomputable def plotT2 (S : Scheme) (triangle : Fin 3 → Fin 2 → ℝ) : Except Err (List Blob) :=
  plotDisks (ofRows (S.points.map fun x => List.ofFn (Tn.transform (toVec 3 x) triangle)) 2) S.weights
    (Tn.getVol triangle)

/-- c2/_helpers.py:48-51: the area of a quadrilateral; `quad b` is the corner `quad[b 0][b 1]`. -/
noncomputable def quadVol (quad : (Fin 2 → Fin 2) → Fin 2 → ℝ) : ℝ :=
  Tn.getVol (n := 2) ![quad ![0, 0], quad ![1, 0], quad ![0, 1]] +
    Tn.getVol (n := 2) ![quad ![0, 0], quad ![0, 1], quad ![1, 1]]

/-- c2/_helpers.py:29-55 -/
noncomputable def plotC2 (S : Scheme) (quad : (Fin 2 → Fin 2) → Fin 2 → ℝ) : Except Err (List Blob) :=
  plotDisks (ofRows (S.points.map fun x => List.ofFn (Cn.transform (toVec 2 x) quad)) 2) S.weights
    (quadVol quad)

/-! ### In space -/

/-- c3/_helpers.py:24-52; `volume` is the integral of 1. -/
noncomputable def showC3 (S : Scheme) (hexa : (Fin 3 → Fin 2) → Fin 3 → ℝ) (volume : ℝ)
    (backend : Backend := .vtk) : Except Err (List Blob) :=
  backendTo backend (ofRows (S.points.map fun x => List.ofFn (Cn.transform (toVec 3 x) hexa)) 3) S.weights
    volume

/-- w3/_helpers.py:18-49; `volume` is the integral of 1. -/
noncomputable def showW3 (S : Scheme) (wedge : Fin 2 → Fin 3 → Fin 3 → ℝ) (volume : ℝ)
    (backend : Backend := .vtk) : Except Err (List Blob) :=
  backendTo backend (ofRows (S.points.map fun x => List.ofFn (W3.transform (toVec 3 x) wedge)) 3) S.weights
    volume

/-- p3/_helpers.py:20-44 -/
noncomputable def showP3 (S : Scheme) (pyra : Fin 5 → Fin 3 → ℝ)
    (backend : Backend := .mpl) : Except Err (List Blob) :=
  backendTo backend (ofRows (S.points.map fun x => List.ofFn (P3.transform (toVec 3 x) pyra)) 3) S.weights 1

/-- s3/_helpers.py:24-33 (the outline of the unit ball is left out) -/
noncomputable def showS3 (S : Scheme) (backend : Backend := .vtk) : Except Err (List Blob) :=
  backendTo backend (pointsArr S 3) S.weights (4.0 / 3.0 * π)

/-- e3r/_helpers.py:27-31 and e3r2/_helpers.py:27-31 -/
noncomputable def showE3 (S : Scheme) (backend : Backend := .vtk) : Except Err (List Blob) :=
  backendTo backend (pointsArr S 3) S.weights (8 * π)

/-- t3/_helpers.py:29-50: `transform(self.points.T, tet.T).T`, where `transform` is
`np.dot(tet.T, self.points.T)` (tn/_helpers.py:45-53); `show_mpl` has no argument `render`. -/
noncomputable def showT3 (S : Scheme) (tet : Fin 4 → Fin 3 → ℝ)
    (backend : Backend := .vtk) : Except Err (List Blob) := do
  let p ← matmul (ofRows (List.ofFn fun i => List.ofFn (tet i)) 3).T (pointsArr S 4).T
  match backend with
  | .mpl => .error .typeError
  | .vtk => showVtk p.T S.weights (Tn.getVol tet)

/-! ### Caps on the sphere -/

/-- `np.cross` -/
def cross (a b : Fin 3 → ℝ) : Fin 3 → ℝ :=
  ![a 1 * b 2 - a 2 * b 1, a 2 * b 0 - a 0 * b 2, a 0 * b 1 - a 1 * b 0]

/-- `np.dot` -/
def dot3 (a b : Fin 3 → ℝ) : ℝ := a 0 * b 0 + a 1 * b 1 + a 2 * b 2

/-- u3/_helpers.py:103-113: a point of the cap around the north pole, on the sphere of radius `r`. -/
noncomputable def capPoint (r azimuthal polar : ℝ) : Fin 3 → ℝ :=
  ![r * (cos azimuthal * sin polar), r * (sin azimuthal * sin polar), r * cos polar]

open Classical in
/-- u3/_helpers.py:115-127: the point after the rotation. -/
noncomputable def rotate (b X : Fin 3 → ℝ) : Fin 3 → ℝ :=
  let a : Fin 3 → ℝ := ![0, 0, 1]
  if dot3 a b = -1 then fun i => -X i
  else fun i => X i + cross (cross a b) X i + cross (cross a b) (cross (cross a b) X) i / (1 + dot3 a b)

/-- u3/_helpers.py:57-58: the opening angle for a weight. -/
noncomputable def openingAngle (w : ℝ) : ℝ := arccos (1 - |w * (4 * π)| / (2 * π))

/-- u3/_helpers.py:47-62 and 101-138 `U3Scheme.plot`: the points of the surface drawn for a point `b` with
the weight `w`, for all angles (the code takes 30 by 20 of them). -/
noncomputable def cap (b : Fin 3 → ℝ) (w : ℝ) : Set (Fin 3 → ℝ) :=
  {X | ∃ az pol, 0 ≤ az ∧ az ≤ 2 * π ∧ 0 ≤ pol ∧ pol ≤ openingAngle w ∧
    X = rotate b (capPoint 1.01 az pol)}

end Quadpy.Plot
