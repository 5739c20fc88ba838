/-
Specification of exactness: a quadrature rule, seen as a functional on integrands, integrates every
polynomial up to a total degree exactly over a region.  Nothing here refers to the model.
-/
import Mathlib.Algebra.MvPolynomial.CommRing
import Mathlib.Algebra.MvPolynomial.Degrees
import Mathlib.Algebra.MvPolynomial.Eval
import Mathlib.MeasureTheory.Constructions.HaarToSphere
import Mathlib.MeasureTheory.Measure.Haar.InnerProductSpace
import Mathlib.MeasureTheory.Constructions.Pi
import Mathlib.MeasureTheory.Integral.Bochner.Set

namespace Quadpy.Spec
open MeasureTheory

/-- A functional on integrands `ℝ^n → ℝ`. -/
abbrev Functional (n : ℕ) := ((Fin n → ℝ) → ℝ) → ℝ

/-- `Q` agrees with `J` on every polynomial in `n` variables of total degree at most `d`. -/
def ExactUpTo {n : ℕ} (d : ℕ) (Q J : Functional n) : Prop :=
  ∀ p : MvPolynomial (Fin n) ℝ, p.totalDegree ≤ d →
    Q (fun x => MvPolynomial.eval x p) = J (fun x => MvPolynomial.eval x p)

/-- The integral over the cube `[-1, 1]^n`. -/
noncomputable def cube (n : ℕ) : Functional n :=
  fun f => ∫ x in Set.Icc (fun _ : Fin n => (-1 : ℝ)) (fun _ => 1), f x

/-- The unit simplex `{x ≥ 0, ∑ x ≤ 1}`. -/
def unitSimplex (n : ℕ) : Set (Fin n → ℝ) := {x | (∀ i, 0 ≤ x i) ∧ ∑ i, x i ≤ 1}

/-- The integral over the unit simplex. -/
noncomputable def simplex (n : ℕ) : Functional n := fun f => ∫ x in unitSimplex n, f x

/-- The unit ball. -/
def unitBall (n : ℕ) : Set (Fin n → ℝ) := {x | ∑ i, x i ^ 2 ≤ 1}

/-- The integral over the unit ball. -/
noncomputable def ball (n : ℕ) : Functional n := fun f => ∫ x in unitBall n, f x

/-- The integral over the unit ball against `|x|^a`. -/
noncomputable def ballPow (n : ℕ) (a : ℝ) : Functional n := fun f =>
  ∫ x in unitBall n, f x * Real.sqrt (∑ i, x i ^ 2) ^ a

/-- The surface integral over the unit sphere (Mathlib's surface measure `toSphere` of Lebesgue
measure). -/
noncomputable def sphere (n : ℕ) : Functional n := fun f =>
  ∫ x : Metric.sphere (0 : EuclideanSpace ℝ (Fin n)) 1, f (fun i => x.1 i)
    ∂(volume : Measure (EuclideanSpace ℝ (Fin n))).toSphere

/-- The integral over `ℝ^n` against `exp(-|x|)`. -/
noncomputable def enr (n : ℕ) : Functional n := fun f =>
  ∫ x, f x * Real.exp (-Real.sqrt (∑ i, x i ^ 2))

/-- The integral over `ℝ^n` against `exp(-|x|^2)`. -/
noncomputable def enr2 (n : ℕ) : Functional n := fun f =>
  ∫ x, f x * Real.exp (-∑ i, x i ^ 2)

end Quadpy.Spec
