import Mathlib.Algebra.Polynomial.Eval.Defs
import Mathlib.MeasureTheory.Integral.IntervalIntegral.Basic
import Verif.Model.Adaptive

/-!
# Specification: exactness of a rule on the interval [-1, 1]
-/

namespace Quadpy
namespace Spec

open Polynomial

/-- The rule with these points and weights integrates every polynomial of degree at most `d` exactly
over `[-1, 1]`. -/
def ExactC1 (points weights : List ℝ) (d : ℕ) : Prop :=
  points.length = weights.length ∧ ∀ p : ℝ[X], p.natDegree ≤ d →
    Adaptive.vdot (points.map fun x => p.eval x) weights = ∫ x in (-1 : ℝ)..1, p.eval x

end Spec
end Quadpy
