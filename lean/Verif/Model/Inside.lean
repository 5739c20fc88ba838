import Verif.Model.Scheme
import Mathlib.Data.Real.Basic

/-!
# Model of `points_inside` and of the point position in `__str__`
-/

namespace Quadpy.Inside

/-- helpers/_class.py:121-126: the three answers. -/
inductive Position
  | strictlyInside
  | insideBoundary
  | outside

open Classical in
/-- helpers/_class.py:116-127, from the results of `points_inside` and `points_inside_or_boundary`. -/
noncomputable def position (inside insideOrBoundary : Prop) : Position :=
  if inside then .strictlyInside else if insideOrBoundary then .insideBoundary else .outside

/-- cn/_helpers.py:42-48. -/
noncomputable def cnPosition (S : Scheme) : Position :=
  position (∀ x ∈ S.points, ∀ v ∈ x, -1 < v ∧ v < 1) (∀ x ∈ S.points, ∀ v ∈ x, -1 ≤ v ∧ v ≤ 1)

/-- tn/_helpers.py:18-22. -/
noncomputable def tnPosition (S : Scheme) : Position :=
  position (∀ x ∈ S.points, ∀ v ∈ x, 0 < v ∧ v < 1) (∀ x ∈ S.points, ∀ v ∈ x, 0 ≤ v ∧ v ≤ 1)

/-- sn/_helpers.py:16, 19: `np.einsum("ij,ij->i", points, points)`.  `self.points` has one column per
point, here one row, so that the sum over the second index is a sum over the points. -/
noncomputable def snEinsum (S : Scheme) : List ℝ :=
  List.ofFn fun i : Fin S.dim => (S.points.map fun x => x.getD i 0 * x.getD i 0).sum

/-- sn/_helpers.py:15-19. -/
noncomputable def snPosition (S : Scheme) : Position :=
  position (∀ v ∈ snEinsum S, v < 1) (∀ v ∈ snEinsum S, v ≤ 1)

end Quadpy.Inside
