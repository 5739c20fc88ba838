import Verif.Spec.C1
import Mathlib.Algebra.Polynomial.Module.Basic

/-!
# Specification: exactness of a rule for a weight on the line

A weight is represented by its linear functional `p ↦ ∫ p(x) w(x) dx` on polynomials.
-/

namespace Quadpy
namespace Spec

open Polynomial

/-- The rule with these points and weights integrates every polynomial of degree at most `d` exactly
against the weight with the functional `L`. -/
def ExactL (points weights : List ℝ) (d : ℕ) (L : ℝ[X] → ℝ) : Prop :=
  points.length = weights.length ∧ ∀ p : ℝ[X], p.natDegree ≤ d →
    Adaptive.vdot (points.map fun x => p.eval x) weights = L p

/-- The monic polynomials defined by the three-term recurrence
`p (k + 1) = (x - α k) * p k - β k * p (k - 1)`. -/
noncomputable def recPoly (α β : ℕ → ℝ) : ℕ → ℝ[X]
  | 0 => 1
  | 1 => X - C (α 0)
  | k + 2 => (X - C (α (k + 1))) * recPoly α β (k + 1) - C (β (k + 1)) * recPoly α β k

/-- `α 0, …, α (n - 1)` and `β 1, …, β (n - 1)` are recurrence coefficients of the monic orthogonal
polynomials of the weight `L`: `p 0, …, p n` are pairwise orthogonal. -/
def IsRecurrence (L : ℝ[X] → ℝ) (α β : ℕ → ℝ) (n : ℕ) : Prop :=
  ∀ j k, j < k → k ≤ n → L (recPoly α β j * recPoly α β k) = 0

/-- The functional of the weight `w` on the set `s`. -/
noncomputable def weightInt (s : Set ℝ) (w : ℝ → ℝ) (p : ℝ[X]) : ℝ := ∫ x in s, p.eval x * w x

end Spec
end Quadpy
