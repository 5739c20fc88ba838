/-
What it means for a scheme object to have the degree it claims.
-/
import Verif.Spec.Exact
import Verif.Model.Scheme

namespace Quadpy

/-- As many weights as points, and every point has `n` coordinates. -/
def Scheme.WellShaped (S : Scheme) (n : ℕ) : Prop :=
  S.dim = n ∧ S.weights.length = S.points.length ∧ ∀ x ∈ S.points, x.length = n

/-- The scheme is well-shaped and `vol * sum_i w_i p(x_i) = J(p)` for every polynomial `p` of total
degree at most the claimed degree.  (Weights are normalised in this version of quadpy; `integrate`
multiplies by the volume of the reference domain.) -/
def Scheme.ExactFor (S : Scheme) (n : ℕ) (vol : ℝ) (J : Spec.Functional n) : Prop :=
  S.WellShaped n ∧ Spec.ExactUpTo S.degree (fun f => vol * dot n S.weights S.points f) J

/-- The claimed degree holds on the cube `[-1, 1]^n`, whose volume is `2^n`. -/
def Scheme.ExactOnCube (S : Scheme) (n : ℕ) : Prop := S.ExactFor n (2 ^ n) (Spec.cube n)

/-- The claimed degree holds on the unit simplex, whose volume is `1 / n!`.  Points are barycentric:
`n + 1` coordinates that add up to one; the Cartesian coordinates are all but the first. -/
def Scheme.ExactOnSimplex (S : Scheme) (n : ℕ) : Prop :=
  (S.dim = n ∧ S.weights.length = S.points.length ∧
    ∀ x ∈ S.points, x.length = n + 1 ∧ x.sum = 1) ∧
  Spec.ExactUpTo S.degree
    (fun f => 1 / (n.factorial : ℝ) * dot (n + 1) S.weights S.points fun xi =>
      f fun i => xi i.succ) (Spec.simplex n)

/-- The claimed degree holds for the functional `J`, with the weights relative to `J(1)`. -/
def Scheme.ExactRel (S : Scheme) (n : ℕ) (J : Spec.Functional n) : Prop :=
  S.ExactFor n (J fun _ => 1) J

/-- The claimed degree holds on the unit ball. -/
def Scheme.ExactOnBall (S : Scheme) (n : ℕ) : Prop := S.ExactRel n (Spec.ball n)

/-- The claimed degree holds on the unit sphere. -/
def Scheme.ExactOnSphere (S : Scheme) (n : ℕ) : Prop := S.ExactRel n (Spec.sphere n)

/-- The claimed degree holds on `ℝ^n` with the weight `exp(-|x|)`. -/
def Scheme.ExactOnEnr (S : Scheme) (n : ℕ) : Prop := S.ExactRel n (Spec.enr n)

/-- The claimed degree holds on `ℝ^n` with the weight `exp(-|x|^2)`. -/
def Scheme.ExactOnEnr2 (S : Scheme) (n : ℕ) : Prop := S.ExactRel n (Spec.enr2 n)

end Quadpy
